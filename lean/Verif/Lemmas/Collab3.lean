import Verif.Lemmas.Collab2

/-!
# What marking collaborations does
-/

open Spec

namespace Py

variable [UnicodeDB]

omit [UnicodeDB] in
theorem collabRe_eq (name : Str) (coll : Bool) :
    collabRe name coll = collabLeadRe ⬝ .group 1 (collabBodyRe name coll) ⬝ collabEndRe := rfl

omit [UnicodeDB] in
theorem nameRe_minLen {name : Str} (h : name ≠ []) : 0 < (nameRe name).minLen := by
  cases name with
  | nil => exact absurd rfl h
  | cons c r =>
    simp only [nameRe, Re.minLen]
    split <;> simp [Re.space, Re.chI, Re.minLen] <;> omega

omit [UnicodeDB] in
theorem collab_minLen {name : Str} (h : name ≠ []) (coll : Bool) : 0 < (collabRe name coll).minLen := by
  have := nameRe_minLen h
  rw [collabRe_eq]
  simp only [collabBodyRe, Re.minLen]
  omega

omit [UnicodeDB] in
theorem trimmed_stripP (set g : Str) : Trimmed set set g (stripP (inSet set) g) := by
  obtain ⟨a, b, h1, h2, h3, h4, h5⟩ := stripP_split (inSet set) g
  have key : ∀ {c}, inSet set c = true → c ∈ set := by intro c h; simpa [inSet] using h
  have key' : ∀ {c}, inSet set c = false → c ∉ set := by intro c h; simpa [inSet] using h
  exact ⟨⟨a, b, h1, fun c hc => key (h2 c hc), fun c hc => key (h3 c hc)⟩, fun c hc => key' (h4 c hc), fun c hc => key' (h5 c hc)⟩

theorem collab_hit {name : Str} {coll : Bool} {pre post : Str} {m : Match} (hm : matchHere (collabRe name coll) false pre (m.txt ++ post) = some m) :
    ∃ g, m.group 1 = some g ∧
      CollabText name coll pre.reverse m.txt post (tagged (py! "COLLABORATION") (stripP (inSet (py! ".,:;- [](){}")) g)) := by
  obtain ⟨t, ht, e1, -, hg⟩ := matchHere_first hm
  have ep : post = t.post := List.append_cancel_left e1
  subst ep
  rw [collabRe_eq] at ht
  obtain ⟨u, lead, hl, ht⟩ := first_seq ht
  obtain ⟨g, h1, h2, h3, h4, h5⟩ := first_collab ht
  refine ⟨g, by rw [hg, h2], lead, g, _, ?_, sem_collabLead.1 hl.sem, h3, h4, h5, trimmed_stripP _ g, rfl⟩
  have := hl.post
  rw [h1] at this
  have e2 : m.txt ++ t.post = (lead ++ g) ++ t.post := by rw [List.append_assoc]; exact this
  exact List.append_cancel_right e2

/-- A character that is not in the name is not in the text standing for it. -/
theorem nameText_notMem {c : Char} (hc : isAscii c = true) (hl : (isAsciiUpper c || isAsciiLower c) = false) (hs : isSpace c = false) {name g : Str}
    (h : NameText name g) (hn : c ∉ name) : c ∉ g := by
  unfold NameText at h
  induction h with
  | nil => simp
  | @cons x d g name hx _ ih =>
    simp only [List.mem_cons, not_or] at hn ⊢
    refine ⟨fun e => ?_, ih hn.2⟩
    subst e
    split at hx
    · rw [hs] at hx; exact absurd hx (by decide)
    · have : d = c := by
        unfold caseVariants at hx
        rw [if_pos hc] at hx
        simp only [List.mem_cons, List.not_mem_nil, or_false] at hx
        rcases hx with h | h
        · exact h
        · rw [h]
          simp only [Bool.or_eq_false_iff] at hl
          simp [swapCase, hl.1, hl.2]
      exact hn.1 this.symm

theorem folds_notMem {c : Char} (hc : isAscii c = true) (hl : (isAsciiUpper c || isAsciiLower c) = false) {x y : Str} (h : FoldsTo x y) (hy : c ∉ y) : c ∉ x := by
  induction h with
  | nil => simp
  | @cons a d g name hx _ ih =>
    simp only [List.mem_cons, not_or] at hy ⊢
    refine ⟨fun e => ?_, ih hy.2⟩
    subst e
    unfold caseVariants at hx
    rw [if_pos hc] at hx
    simp only [List.mem_cons, List.not_mem_nil, or_false] at hx
    refine hy.1 ?_
    rcases hx with h | h
    · exact h.symm
    · rw [h]
      simp only [Bool.or_eq_false_iff] at hl
      simp [swapCase, hl.1, hl.2]

theorem collabReading_notMem {c : Char} (hc : isAscii c = true) (hl : (isAsciiUpper c || isAsciiLower c) = false) (hs : isSpace c = false) (hd : c ≠ '.')
    {name g : Str} {coll : Bool} (h : CollabReading name coll g) (hn : c ∉ name) : c ∉ g := by
  have hsp : ∀ {k : Str}, (∀ a ∈ k, isSpace a = true) → c ∉ k := fun hk hm => by
    have := hk c hm
    rw [hs] at this
    exact absurd this (by decide)
  have hlow : ∀ {y : Str}, (∀ d ∈ y, isAsciiLower d = true ∨ d = '.') → c ∉ y := by
    intro y hy hm
    rcases hy c hm with h | h
    · rw [h, Bool.or_true] at hl; exact absurd hl (by decide)
    · exact hd h
  unfold CollabReading at h
  cases coll with
  | false => exact nameText_notMem hc hl hs (by simpa using h) hn
  | true =>
    simp only [if_true] at h
    obtain ⟨n, a, t, rfl, h1, h2, h3⟩ := h
    simp only [List.mem_append, List.mem_cons, not_or]
    refine ⟨nameText_notMem hc hl hs h1 hn, fun e => by rw [← e, hs] at h2; exact absurd h2 (by decide), ?_⟩
    rcases h3 with rfl | ⟨k, x, rfl, hk, hx⟩
    · simp
    · simp only [List.mem_append, not_or]
      refine ⟨hsp hk, ?_⟩
      rcases hx with hx | hx | hx | hx <;> exact folds_notMem hc hl hx (hlow (by decide))

theorem collabLead_notMem {b lead : Str} (h : CollabLead b lead) : '_' ∉ lead := by
  have hsp : ∀ {k : Str}, (∀ a ∈ k, isSpace a = true) → '_' ∉ k := fun hk hm => absurd (hk _ hm) (by decide)
  obtain ⟨o, s, t, rfl, ho, hs, ht⟩ := h
  simp only [List.mem_append, not_or]
  refine ⟨⟨?_, hsp hs⟩, ?_⟩
  · rcases ho with ⟨rfl, -⟩ | ⟨c, rfl, hc⟩
    · simp
    · intro hm
      simp only [List.mem_singleton] at hm
      subst hm
      exact absurd hc (by decide)
  · rcases ht with rfl | ⟨a, k, rfl, ha, -, hk⟩
    · simp
    · simp only [List.mem_append, not_or]
      refine ⟨?_, hsp hk⟩
      rcases ha with ha | ha <;> exact folds_notMem (by decide) (by decide) ha (by decide)

theorem collabText_sem {name : Str} (hn : PlainName name) {coll : Bool} {pre w post x : Str} (h : CollabText name coll pre.reverse w post x) :
    Sem (collabRe name coll) pre w post ∧ '_' ∉ w ∧ ClosedTag x := by
  obtain ⟨lead, g, v, rfl, h1, h2, h3, -, h4, rfl⟩ := h
  refine ⟨?_, ?_, ?_⟩
  · rw [collabRe_eq]
    refine sem_seq_intro ((sem_collabLead (post := g ++ post)).2 h1) ⟨g, [], by simp, sem_collabBody h2, sem_collabEnd.2 ⟨rfl, h3⟩⟩
  · simp only [List.mem_append, not_or]
    exact ⟨collabLead_notMem h1, collabReading_notMem (by decide) (by decide) (by decide) (by decide) h2 hn.2.1⟩
  · have hg : '<' ∉ g := collabReading_notMem (by decide) (by decide) (by decide) (by decide) h2 hn.2.2
    obtain ⟨a, b, rfl, -, -⟩ := h4.cut
    refine .inl ⟨py! "COLLABORATION", v, py! "COLLABORATION", by simp [tagged], ⟨by decide, by decide⟩, ?_, ⟨by decide, by decide⟩⟩
    exact fun hm => hg (by simp [hm])

/-- One entry of the knowledge base. -/
theorem collab_pass {name : Str} (hn : PlainName name) (coll : Bool) {line : Str} (hN : NoNesting line) :
    ∃ out, (finditer (collabRe name coll) (stripTags line)).reverse.foldlM collabStep line = .ok out ∧
      RewrittenUnder (CollabText name coll) [] (stripTags line) line out ∧ NoNesting out := by
  have hB := (Props.C27_partial line hN).1
  obtain ⟨out, h1, h2⟩ := rewritten_splice (P := CollabText name coll) (step := collabStep)
    (f := fun m => tagged (py! "COLLABORATION") (stripP (inSet (py! ".,:;- [](){}")) (m.tgroup 1)))
    (collab_minLen hn.1 coll) (by
      intro pre post m hm l
      obtain ⟨g, hg, -⟩ := collab_hit hm
      simp [collabStep, Match.tgroup, hg, tagged]) (by
      intro pre post m hm
      obtain ⟨g, hg, h⟩ := collab_hit hm
      simpa [Match.tgroup, hg] using h) (fun pre w post x h => ⟨(collabText_sem hn h).1, (collabText_sem hn h).2.1⟩)
    (blanked_under hB)
  refine ⟨out, h1, h2, flat_noNesting (under_flat (fun b w r x h => ?_) (Nat.le_refl _) hN hB h2)⟩
  have := collabText_sem hn (pre := b.reverse) (by rw [List.reverse_reverse]; exact h)
  exact this.2

theorem tagCollaborations_marked : ∀ {kb : List (Str × Str × Bool)} {line : Str}, (∀ e ∈ kb, PlainName e.2.1) → NoNesting line →
    ∃ out, tagCollaborations line (kb.map fun e => (e.1, collabRe e.2.1 e.2.2)) = .ok out ∧
      MarkedBy (kb.map fun e => CollabText e.2.1 e.2.2) line out ∧ NoNesting out
  | [], line, _, hN => ⟨line, rfl, .nil, hN⟩
  | e :: kb, line, hk, hN => by
    obtain ⟨l, h1, h2, h3⟩ := collab_pass (hk e (by simp)) e.2.2 hN
    obtain ⟨out, h4, h5, h6⟩ := tagCollaborations_marked (kb := kb) (fun e he => hk e (by simp [he])) h3
    refine ⟨out, ?_, .cons (Props.C27_partial line hN).1 h2 h5, h6⟩
    unfold tagCollaborations at h4 ⊢
    rw [List.map_cons, List.foldlM_cons, h1]
    exact h4

end Py
