import Verif.Lemmas.Token
import Verif.Spec.DoiList

/-!
# Helper lemmas: a line with several tags and nothing else that is known
-/

namespace Py
open Spec
open scoped List

variable [UnicodeDB]

theorem tokens_flat {toks : List (Str × Str)} {tail : Str} (hp : ∀ t ∈ toks, '<' ∉ t.1 ∧ ClosedTag t.2) (ht : '<' ∉ tail) : Flat (inLine toks tail) := by
  induction toks with
  | nil =>
    have := flat_text ht (s := []) .nil
    simpa [inLine] using this
  | cons t ts ih =>
    obtain ⟨p, x⟩ := t
    rw [inLine, List.append_assoc]
    exact flat_text (hp (p, x) (by simp)).1 (.tag (hp (p, x) (by simp)).2 (ih fun t h => hp t (by simp [h])))

theorem tokens_blanked {toks : List (Str × Str)} {tail s : Str} (hp : ∀ t ∈ toks, '<' ∉ t.1 ∧ ClosedTag t.2) (ht : '<' ∉ tail) (h : Blanked (inLine toks tail) s) :
    s = blankedTexts toks tail := by
  induction toks generalizing s with
  | nil =>
    obtain ⟨t3, e3, hb3⟩ := blanked_text ht (s := []) (by simpa [inLine] using h)
    have : t3 = [] := by
      generalize hl : ([] : Str) = l at hb3
      cases hb3 with
      | nil => rfl
      | ch => cases hl
      | tag hw _ => rcases hw with ⟨n, b, n', rfl, -⟩ | ⟨n, rfl, -⟩ <;> simp at hl
    rw [e3, this, blankedTexts]
    simp
  | cons t ts ih =>
    obtain ⟨p, x⟩ := t
    rw [inLine, List.append_assoc] at h
    obtain ⟨t1, e1, hb1⟩ := blanked_text (hp (p, x) (by simp)).1 h
    have h2 := (hp (p, x) (by simp)).2
    generalize hl : x ++ inLine ts tail = l at hb1
    rw [e1, blankedTexts, List.append_assoc]
    congr 1
    cases hb1 with
    | nil => dsimp only at h2; rcases h2 with ⟨n, b, n', rfl, -⟩ | ⟨n, rfl, -⟩ <;> simp at hl
    | ch hno _ => exact absurd ⟨_, _, hl.symm, h2⟩ hno
    | @tag w s' t' hw h =>
      obtain ⟨rfl, rfl⟩ := closed_same h2 hw hl
      rw [ih (fun t h => hp t (by simp [h])) h]


/-- Blanking a line with tags. -/
theorem strip_tokens {toks : List (Str × Str)} {tail : Str} (hp : ∀ t ∈ toks, '<' ∉ t.1 ∧ ClosedTag t.2) (ht : '<' ∉ tail) :
    stripTags (inLine toks tail) = blankedTexts toks tail :=
  tokens_blanked hp ht (Props.C27_partial _ (flat_noNesting (tokens_flat hp ht))).1

/-- The blanked line as it is read. -/
def readLine : List (Str × Str) → Str → Str
  | [], tail => tail.map rd
  | (p, x) :: ts, tail => p.map rd ++ underscores x.length ++ readLine ts tail

theorem tokens_read {toks : List (Str × Str)} {tail : Str} (hp : ∀ t ∈ toks, ∀ c ∈ t.1, c ∈ calmChars) (ht : ∀ c ∈ tail, c ∈ calmChars) :
    (upper (blankedTexts toks tail)).map unpunct = readLine toks tail := by
  induction toks with
  | nil => exact upper_rd ht
  | cons t ts ih =>
    obtain ⟨p, x⟩ := t
    rw [blankedTexts, readLine, ← ih fun t h => hp t (by simp [h])]
    have a1 := upper_rd (hp (p, x) (by simp))
    have a2 := under_upper x.length
    unfold upper at a1 a2 ⊢
    rw [List.flatMap_append, List.flatMap_append, List.map_append, List.map_append]
    dsimp only at a1
    rw [a1]
    unfold underscores at a2 ⊢
    rw [a2]

theorem readLine_space {toks : List (Str × Str)} {tail : Str} (hp : ∀ t ∈ toks, ∀ c ∈ t.1, c ∈ calmChars) (ht : ∀ c ∈ tail, c ∈ calmChars) :
    ∀ c ∈ readLine toks tail, isSpace c = true → c = ' ' := by
  induction toks with
  | nil =>
    intro c h hs
    obtain ⟨d, hd, rfl⟩ := List.mem_map.1 h
    exact readChars_space (rd_chars (ht d hd)) hs
  | cons t ts ih =>
    obtain ⟨p, x⟩ := t
    intro c h hs
    rw [readLine, List.mem_append, List.mem_append] at h
    rcases h with (h | h) | h
    · obtain ⟨d, hd, rfl⟩ := List.mem_map.1 h
      exact readChars_space (rd_chars (hp (p, x) (by simp) d hd)) hs
    · rw [List.eq_of_mem_replicate h] at hs; exact absurd hs (by decide)
    · exact ih (fun t h => hp t (by simp [h])) c h hs

theorem tokens_squeezed {toks : List (Str × Str)} {tail : Str} (hx : ∀ t ∈ toks, t.2 ≠ []) (hp : ∀ t ∈ toks, ∀ c ∈ t.1, c ∈ calmChars) (ht : ∀ c ∈ tail, c ∈ calmChars) :
    squeezed (readLine toks tail) = maskedTexts toks tail := by
  induction toks with
  | nil => rw [readLine, maskedTexts, reading, upper_rd ht]
  | cons t ts ih =>
    obtain ⟨p, x⟩ := t
    have hne : x ≠ [] := hx (p, x) (by simp)
    have hu : ∃ k, underscores x.length = underscores (k + 1) := ⟨x.length - 1, by
      have : x.length ≠ 0 := fun h => hne (List.length_eq_zero_iff.1 h)
      congr 1
      omega⟩
    obtain ⟨k, hk⟩ := hu
    rw [readLine, squeezed_append, squeezed_append, squeezed_under, ih (fun t h => hx t (by simp [h])) (fun t h => hp t (by simp [h])), maskedTexts, reading,
      upper_rd (hp (p, x) (by simp))]
    · rfl
    · right; rw [hk, underscores, List.replicate_succ]; simp
    · left
      rw [List.getLast?_append, hk, underscores, List.replicate_succ']
      simp

theorem tokens_chars {toks : List (Str × Str)} {tail : Str} (hp : ∀ t ∈ toks, ∀ c ∈ t.1, c ∈ calmChars) (ht : ∀ c ∈ tail, c ∈ calmChars) :
    ∀ c ∈ maskedTexts toks tail, c ∈ readChars ∨ c = '_' := by
  induction toks with
  | nil => exact fun c h => .inl (reading_chars ht c h)
  | cons t ts ih =>
    obtain ⟨p, x⟩ := t
    intro c h
    rw [maskedTexts, List.mem_append, List.mem_append] at h
    rcases h with (h | h) | h
    · exact .inl (reading_chars (hp (p, x) (by simp)) c h)
    · exact .inr (List.eq_of_mem_replicate h)
    · exact ih (fun t h => hp t (by simp [h])) c h

theorem tokens_infix {toks : List (Str × Str)} {tail x : Str} (hne : ∀ t ∈ toks, t.2 ≠ []) (hx : '_' ∉ x) (h : x <:+: maskedTexts toks tail) :
    ∃ s ∈ tail :: toks.map (·.1), x <:+: reading s := by
  induction toks with
  | nil => exact ⟨tail, by simp, h⟩
  | cons t ts ih =>
    obtain ⟨p, y⟩ := t
    have hy : 0 < y.length := List.length_pos_iff.2 (hne (p, y) (by simp))
    rcases infix_masked hx hy h with h | h
    · exact ⟨p, by simp, h⟩
    · obtain ⟨s, hs, h⟩ := ih (fun t h => hne t (by simp [h])) h
      refine ⟨s, ?_, h⟩
      rcases List.mem_cons.1 hs with rfl | hs
      · simp
      · exact List.mem_cons_of_mem _ (by rw [List.map_cons]; exact List.mem_cons_of_mem _ hs)

/-- Nothing is recognised in such a line. -/
theorem recognise_tokens {kbs : TagKbs} {toks : List (Str × Str)} {tail : Str} (hp : ∀ t ∈ toks, (∀ c ∈ t.1, c ∈ calmChars) ∧ ClosedTag t.2) (ht : ∀ c ∈ tail, c ∈ calmChars)
    (h : NothingAmong kbs toks tail) :
    ∃ f, recognise (inLine toks tail) kbs = .ok (f, []) ∧ f.journals = [] ∧ f.repLens = [] ∧ f.publishers = [] := by
  have hne : ∀ t ∈ toks, t.2 ≠ [] := by
    intro t h e
    rcases (hp t h).2 with ⟨n, b, n', e', -⟩ | ⟨n, e', -⟩ <;> rw [e] at e' <;> simp at e'
  have hlt : ∀ t ∈ toks, '<' ∉ t.1 ∧ ClosedTag t.2 := fun t h => ⟨fun hm => absurd ((hp t h).1 _ hm) (by decide), (hp t h).2⟩
  have hpc : ∀ t ∈ toks, ∀ c ∈ t.1, c ∈ calmChars := fun t h => (hp t h).1
  have hcl : cleanedLine (inLine toks tail) = readLine toks tail := by
    rw [cleaned_eq, strip_tokens hlt (fun h => absurd (ht _ h) (by decide)), tokens_read hpc ht]
  have hM : (compressSpaces (readLine toks tail)).2 = maskedTexts toks tail := by
    rw [compress_squeezed (readLine_space hpc ht), tokens_squeezed hne hpc ht]
  have hmem := tokens_chars hpc ht
  have hsl : '/' ∉ maskedTexts toks tail := fun h => by
    rcases hmem _ h with h | h
    · exact absurd h (by decide)
    · exact absurd h (by decide)
  obtain ⟨pairs, j1, j2, j3⟩ := h.kb
  have htit : identifyJournals (maskedTexts toks tail) kbs.journalPats kbs.journalKeys = .ok ⟨[], maskedTexts toks tail, []⟩ := by
    refine titleLoops_none (fun t ht => ?_) fun t ht i hat => ?_
    · rw [j1]; exact buildJournals_pats pairs t (by rw [← j2]; exact ht)
    · obtain ⟨u, v, e, -⟩ := atPos_split hat (j3 t ht).1
      obtain ⟨s, hs, h'⟩ := tokens_infix hne (j3 t ht).2 ⟨u, v, e.symm⟩
      exact h.titles t ht s hs h'
  have hby : identifyJournalsRe (inLine toks tail) kbs.journalsRe = [] := by
    unfold identifyJournalsRe
    have : ∀ l : List (Str × Re × Str), (∀ p ∈ l, search p.2.1 (inLine toks tail) = none) →
        l.foldl (fun d p => match search p.2.1 (inLine toks tail) with | some m => dset d m.start m.txt | none => d) ([] : List (Nat × Str)) = [] := by
      intro l
      induction l with
      | nil => intro _; rfl
      | cons p l ih =>
        intro h
        rw [List.foldl_cons, h p (by simp)]
        exact ih fun p hp => h p (by simp [hp])
    exact this _ h.byRe
  have hpu : identifyPublishers (maskedTexts toks tail) kbs.publishers = [] := by
    rw [List.eq_nil_iff_forall_not_mem]
    intro q hq
    obtain ⟨p, hp, -, m, hm, -⟩ := publishers_mem hq
    rw [h.publishers p hp] at hm
    cases hm
  have hfind : (find (py! "IBID") (upper (maskedTexts toks tail))).isSome = false := by
    rw [upper_read hmem]
    cases hf : find (py! "IBID") (maskedTexts toks tail) with
    | none => rfl
    | some i =>
      exfalso
      obtain ⟨u, v, e⟩ := find_isSome_iff.1 (by rw [hf]; rfl : (find (py! "IBID") (maskedTexts toks tail)).isSome = true)
      obtain ⟨s, hs, h'⟩ := tokens_infix hne (by decide) ⟨u, v, e.symm⟩
      exact h.ibid s hs h'
  refine ⟨⟨[], [], [], [], sortBy (fun x y => decide (x.1 ≤ y.1)) (compressSpaces (readLine toks tail)).1,
    dupdate kbs.journalStd (kbs.journalsRe.map fun p => (p.1, p.2.2))⟩, ?_, rfl, rfl, rfl⟩
  unfold recognise
  rw [hby, hcl]
  generalize hC : compressSpaces (readLine toks tail) = C at hM
  obtain ⟨spaces, w⟩ := C
  dsimp only at hM ⊢
  subst hM
  rw [identifyRepnums_none hsl h.reports, okBind]
  dsimp only
  rw [htit, okBind]
  dsimp only
  rw [hfind]
  simp only [Bool.false_eq_true, if_false, hpu]
  rfl

omit [UnicodeDB] in
theorem inLine_mem {P : Char → Prop} {toks : List (Str × Str)} {tail : Str} (hp : ∀ t ∈ toks, (∀ c ∈ t.1, P c) ∧ ∀ c ∈ t.2, P c) (ht : ∀ c ∈ tail, P c) :
    ∀ c ∈ inLine toks tail, P c := by
  induction toks with
  | nil => exact ht
  | cons t ts ih =>
    obtain ⟨p, x⟩ := t
    intro c hc
    rw [inLine, List.mem_append, List.mem_append] at hc
    rcases hc with (hc | hc) | hc
    · exact (hp (p, x) (by simp)).1 c hc
    · exact (hp (p, x) (by simp)).2 c hc
    · exact ih (fun t h => hp t (by simp [h])) c hc

omit [UnicodeDB] in
theorem blankedTexts_mem {P : Char → Prop} {toks : List (Str × Str)} {tail : Str} (h0 : P '_') (hp : ∀ t ∈ toks, ∀ c ∈ t.1, P c) (ht : ∀ c ∈ tail, P c) :
    ∀ c ∈ blankedTexts toks tail, P c := by
  induction toks with
  | nil => exact ht
  | cons t ts ih =>
    obtain ⟨p, x⟩ := t
    intro c hc
    rw [blankedTexts, List.mem_append, List.mem_append] at hc
    rcases hc with (hc | hc) | hc
    · exact hp (p, x) (by simp) c hc
    · rw [List.eq_of_mem_replicate hc]; exact h0
    · exact ih (fun t h => hp t (by simp [h])) c hc

/-- Nothing is added to such a line. -/
theorem tag_tokens {lib : Lib} {kbs : TagKbs} {l0 : Str} {toks : List (Str × Str)} {tail : Str} (hfix : tagFixed lib l0 = .ok (inLine toks tail))
    (hp : ∀ t ∈ toks, (∀ c ∈ t.1, c ∈ calmChars) ∧ ClosedTag t.2)
    (ht : ∀ c ∈ tail, c ∈ calmChars) (hq : ∀ t ∈ toks, ∀ c ∈ t.1, c ∈ quietChars) (hqt : ∀ c ∈ tail, c ∈ quietChars) (hTa : ∀ t ∈ toks, ∀ c ∈ t.2, isAscii c = true ∧ c ≠ '\n')
    (h : NothingAmong kbs toks tail) (hu : ∀ s, (∀ c ∈ s, isAscii c = true) → lib.unidecode s = s) :
    tagReferenceLine lib l0 kbs [] = .ok (inLine toks tail, []) := by
  obtain ⟨f, h1, h2, h3, h4⟩ := recognise_tokens hp ht h
  have hqa : ∀ c ∈ quietChars, isAscii c = true ∧ c ≠ '\n' := by decide
  have hascii : ∀ c ∈ inLine toks tail, isAscii c = true ∧ c ≠ '\n' :=
    inLine_mem (fun t h => ⟨fun c hc => hqa c (hq t h c hc), hTa t h⟩) fun c hc => hqa c (hqt c hc)
  have hstrip := strip_tokens (toks := toks) (tail := tail) (fun t h => ⟨fun hm => absurd ((hp t h).1 _ hm) (by decide), (hp t h).2⟩) (fun h => absurd (ht _ h) (by decide))
  have hauth : finditer Rx.RE_AUTH (stripTags (inLine toks tail)) = [] := by
    rw [hstrip]
    refine barren_finditer (A := quietUnder) (by decide) (by decide +kernel) ?_
    exact blankedTexts_mem (by decide) (fun t h c hc => List.mem_cons_of_mem _ (hq t h c hc)) fun c hc => List.mem_cons_of_mem _ (hqt c hc)
  unfold tagReferenceLine
  rw [hfix, okBind, h1, okBind]
  dsimp only
  have hs : sumDicts [] ([] : List (Str × Nat)) = .ok [] := rfl
  rw [hs, okBind]
  unfold processLine rebuildTagged
  rw [if_pos (by rw [h2, h3, h4]; rfl), okBind, tagAuthors_none ?_ (hu _ fun c hc => (hascii c hc).1) hauth, okBind, tagCollaborations_none ?_, okBind]
  · have : (inLine toks tail).filter (· != '\n') = inLine toks tail := by
      rw [List.filter_eq_self]
      intro c hc
      simpa using (hascii c hc).2
    rw [this]
    rfl
  · intro q hq
    rw [hstrip]
    exact h.collaborations q hq
  · intro q hq hi
    obtain ⟨c, hc, hn⟩ := h.authors q hq
    rw [(hascii c (hi.subset hc)).1] at hn
    cases hn

end Py
