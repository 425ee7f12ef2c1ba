import Verif.Lemmas.Reports
import Verif.Lemmas.Lone
import Verif.Spec.Doi

/-!
# Helper lemmas: a line with one tag and nothing else that is known
-/

namespace Py
open Spec
open scoped List

variable [UnicodeDB]

omit [UnicodeDB] in
theorem closed_same {w w' s s' : Str} (h : ClosedTag w) (h' : ClosedTag w') (e : w ++ s = w' ++ s') : w = w' ∧ s = s' := by
  have hg : ∀ {m : Str}, TagName m → '>' ∉ m := fun hm h => absurd (hm.2 _ h) (by decide)
  have hg2 : ∀ {m : Str}, TagName m → '>' ∉ m ++ py! " /" := fun hm => by
    rw [List.mem_append, not_or]
    exact ⟨hg hm, by decide⟩
  rcases h with ⟨n, b, n2, rfl, hn, hb, hn2⟩ | ⟨n, rfl, hn⟩ <;> rcases h' with ⟨m, x, m2, rfl, hm, hx, hm2⟩ | ⟨m, rfl, hm⟩
  · have e1 : n ++ '>' :: (b ++ '<' :: (py! "/cds." ++ (n2 ++ '>' :: s))) = m ++ '>' :: (x ++ '<' :: (py! "/cds." ++ (m2 ++ '>' :: s'))) := by
      simpa using e
    obtain ⟨rfl, e2⟩ := cut_at (hg hn) (hg hm) e1
    obtain ⟨rfl, e3⟩ := cut_at hb hx e2
    have e4 : n2 ++ '>' :: s = m2 ++ '>' :: s' := by simpa using e3
    obtain ⟨rfl, rfl⟩ := cut_at (hg hn2) (hg hm2) e4
    exact ⟨rfl, rfl⟩
  · have e1 : n ++ '>' :: (b ++ '<' :: (py! "/cds." ++ (n2 ++ '>' :: s))) = (m ++ py! " /") ++ '>' :: s' := by simpa using e
    obtain ⟨rfl, -⟩ := cut_at (hg hn) (hg2 hm) e1
    exact absurd (hn.2 ' ' (by simp)) (by decide)
  · have e1 : (n ++ py! " /") ++ '>' :: s = m ++ '>' :: (x ++ '<' :: (py! "/cds." ++ (m2 ++ '>' :: s'))) := by simpa using e
    obtain ⟨rfl, -⟩ := cut_at (hg2 hn) (hg hm) e1
    exact absurd (hm.2 ' ' (by simp)) (by decide)
  · have e1 : (n ++ py! " /") ++ '>' :: s = (m ++ py! " /") ++ '>' :: s' := by simpa using e
    obtain ⟨e2, rfl⟩ := cut_at (hg2 hn) (hg2 hm) e1
    rw [List.append_cancel_right e2]
    exact ⟨rfl, rfl⟩

/-- Blanking a line with one tag. -/
theorem strip_token {s T t : Str} (h1 : '<' ∉ s) (h2 : ClosedTag T) (h3 : '<' ∉ t) : stripTags (s ++ T ++ t) = s ++ underscores T.length ++ t := by
  have shape : s ++ T ++ t = s ++ (T ++ (t ++ [])) := by simp
  have hf : NoNesting (s ++ T ++ t) := by
    rw [shape]
    exact flat_noNesting (flat_text h1 (.tag h2 (flat_text h3 .nil)))
  have hb := (Props.C27_partial _ hf).1
  rw [shape] at hb ⊢
  obtain ⟨t1, e1, hb1⟩ := blanked_text h1 hb
  obtain ⟨t2, e2, hb2⟩ : ∃ t', t1 = underscores T.length ++ t' ∧ Blanked (t ++ []) t' := by
    generalize hl : T ++ (t ++ []) = l at hb1
    cases hb1 with
    | nil => rcases h2 with ⟨n, b, n', rfl, -⟩ | ⟨n, rfl, -⟩ <;> simp at hl
    | ch hno _ => exact absurd ⟨_, _, hl.symm, h2⟩ hno
    | @tag w s' t' hw h =>
      obtain ⟨rfl, rfl⟩ := closed_same h2 hw hl
      exact ⟨t', rfl, h⟩
  obtain ⟨t3, e3, hb3⟩ := blanked_text h3 hb2
  have : t3 = [] := by
    generalize hl : ([] : Str) = l at hb3
    cases hb3 with
    | nil => rfl
    | ch => cases hl
    | tag hw _ => rcases hw with ⟨n, b, n', rfl, -⟩ | ⟨n, rfl, -⟩ <;> simp at hl
  rw [e1, e2, e3, this]
  simp

omit [UnicodeDB] in
theorem squeezed_under (k : Nat) : squeezed (underscores k) = underscores k := by
  induction k with
  | zero => rfl
  | succ k ih =>
    rw [underscores, List.replicate_succ, squeezed, if_neg (by rintro ⟨h, -⟩; revert h; decide)]
    exact congrArg ('_' :: ·) ih

theorem under_upper (k : Nat) : (upper (underscores k)).map unpunct = underscores k := by
  induction k with
  | zero => rfl
  | succ k ih =>
    rw [underscores, List.replicate_succ, upper, List.flatMap_cons, List.map_append]
    exact congrArg ('_' :: ·) ih

/-- Nothing is recognised in such a line. -/
theorem recognise_token {kbs : TagKbs} {pre T tail : Str} (hp : ∀ c ∈ pre, c ∈ calmChars) (ht : ∀ c ∈ tail, c ∈ calmChars) (hT : ClosedTag T)
    (h : NothingAround kbs pre T tail) :
    ∃ f, recognise (pre ++ T ++ tail) kbs = .ok (f, []) ∧ f.journals = [] ∧ f.repLens = [] ∧ f.publishers = [] := by
  have hk : 0 < T.length := by
    rcases hT with ⟨n, b, n', rfl, -⟩ | ⟨n, rfl, -⟩ <;> simp
  have hcl : cleanedLine (pre ++ T ++ tail) = pre.map rd ++ underscores T.length ++ tail.map rd := by
    rw [cleaned_eq, strip_token (fun h => absurd (hp _ h) (by decide)) hT (fun h => absurd (ht _ h) (by decide))]
    unfold upper
    rw [List.flatMap_append, List.flatMap_append, List.map_append, List.map_append]
    have a1 := upper_rd hp
    have a2 := under_upper T.length
    have a3 := upper_rd ht
    unfold upper at a1 a2 a3
    rw [a1, a2, a3]
  have hsp : ∀ c ∈ pre.map rd ++ underscores T.length ++ tail.map rd, isSpace c = true → c = ' ' := by
    intro c h hs
    rw [List.mem_append, List.mem_append] at h
    rcases h with (h | h) | h
    · obtain ⟨d, hd, rfl⟩ := List.mem_map.1 h
      exact readChars_space (rd_chars (hp d hd)) hs
    · rw [List.eq_of_mem_replicate h] at hs; exact absurd hs (by decide)
    · obtain ⟨d, hd, rfl⟩ := List.mem_map.1 h
      exact readChars_space (rd_chars (ht d hd)) hs
  obtain ⟨k, hk'⟩ : ∃ k, T.length = k + 1 := ⟨T.length - 1, by omega⟩
  obtain ⟨w1, -, -⟩ := squeezed_place hsp ⟨'_', by rw [hk']; rfl, by decide⟩ ⟨'_', by rw [hk', underscores, List.replicate_succ']; simp, by decide⟩
  have e1 : squeezed (pre.map rd) = reading pre := by rw [reading, upper_rd hp]
  have e3 : squeezed (tail.map rd) = reading tail := by rw [reading, upper_rd ht]
  rw [e1, e3, squeezed_under] at w1
  have hM : (compressSpaces (pre.map rd ++ underscores T.length ++ tail.map rd)).2 = maskedLine pre T.length tail := w1
  have hmem : ∀ c ∈ maskedLine pre T.length tail, c ∈ readChars ∨ c = '_' := by
    intro c h
    unfold maskedLine at h
    rw [List.mem_append, List.mem_append] at h
    rcases h with (h | h) | h
    · exact .inl (reading_chars hp c h)
    · exact .inr (List.eq_of_mem_replicate h)
    · exact .inl (reading_chars ht c h)
  have hsl : '/' ∉ maskedLine pre T.length tail := fun h => by
    rcases hmem _ h with h | h
    · exact absurd h (by decide)
    · exact absurd h (by decide)
  have hmask : ∀ {x : Str}, '_' ∉ x → x <:+: maskedLine pre T.length tail → x <:+: reading pre ∨ x <:+: reading tail := fun hx hi => infix_masked hx hk hi
  obtain ⟨pairs, j1, j2, j3⟩ := h.kb
  have htit : identifyJournals (maskedLine pre T.length tail) kbs.journalPats kbs.journalKeys = .ok ⟨[], maskedLine pre T.length tail, []⟩ := by
    refine titleLoops_none (fun t ht => ?_) fun t ht i hat => ?_
    · rw [j1]; exact buildJournals_pats pairs t (by rw [← j2]; exact ht)
    · obtain ⟨u, v, e, -⟩ := atPos_split hat (j3 t ht).1
      rcases hmask (j3 t ht).2 ⟨u, v, e.symm⟩ with h' | h'
      · exact (h.titles t ht).1 h'
      · exact (h.titles t ht).2 h'
  have hby : identifyJournalsRe (pre ++ T ++ tail) kbs.journalsRe = [] := by
    unfold identifyJournalsRe
    have : ∀ l : List (Str × Re × Str), (∀ p ∈ l, search p.2.1 (pre ++ T ++ tail) = none) →
        l.foldl (fun d p => match search p.2.1 (pre ++ T ++ tail) with | some m => dset d m.start m.txt | none => d) ([] : List (Nat × Str)) = [] := by
      intro l
      induction l with
      | nil => intro _; rfl
      | cons p l ih =>
        intro h
        rw [List.foldl_cons, h p (by simp)]
        exact ih fun p hp => h p (by simp [hp])
    exact this _ h.byRe
  have hpu : identifyPublishers (maskedLine pre T.length tail) kbs.publishers = [] := by
    rw [List.eq_nil_iff_forall_not_mem]
    intro q hq
    obtain ⟨p, hp, -, m, hm, -⟩ := publishers_mem hq
    rw [h.publishers p hp] at hm
    cases hm
  have hfind : (find (py! "IBID") (upper (maskedLine pre T.length tail))).isSome = false := by
    rw [upper_read hmem]
    cases hf : find (py! "IBID") (maskedLine pre T.length tail) with
    | none => rfl
    | some i =>
      exfalso
      obtain ⟨u, v, e⟩ := find_isSome_iff.1 (by rw [hf]; rfl : (find (py! "IBID") (maskedLine pre T.length tail)).isSome = true)
      rcases hmask (by decide) ⟨u, v, e.symm⟩ with h' | h'
      · exact h.ibid.1 h'
      · exact h.ibid.2 h'
  refine ⟨⟨[], [], [], [], sortBy (fun x y => decide (x.1 ≤ y.1)) (compressSpaces (pre.map rd ++ underscores T.length ++ tail.map rd)).1,
    dupdate kbs.journalStd (kbs.journalsRe.map fun p => (p.1, p.2.2))⟩, ?_, rfl, rfl, rfl⟩
  unfold recognise
  rw [hby, hcl]
  generalize hC : compressSpaces (pre.map rd ++ underscores T.length ++ tail.map rd) = C at hM
  obtain ⟨spaces, w⟩ := C
  dsimp only at hM ⊢
  subst hM
  rw [identifyRepnums_none hsl h.reports, okBind]
  dsimp only
  rw [htit, okBind]
  dsimp only
  rw [hfind]
  simp only [Bool.false_eq_true, if_false, hpu]
  rfl

/-- Nothing is added to such a line. -/
theorem tag_token {lib : Lib} {kbs : TagKbs} {l0 pre T tail : Str} (hfix : tagFixed lib l0 = .ok (pre ++ T ++ tail)) (hp : ∀ c ∈ pre, c ∈ calmChars)
    (ht : ∀ c ∈ tail, c ∈ calmChars) (hq : ∀ c ∈ pre ++ tail, c ∈ quietChars) (hT : ClosedTag T) (hTa : ∀ c ∈ T, isAscii c = true ∧ c ≠ '\n')
    (h : NothingAround kbs pre T tail) (hu : ∀ s, (∀ c ∈ s, isAscii c = true) → lib.unidecode s = s) :
    tagReferenceLine lib l0 kbs [] = .ok (pre ++ T ++ tail, []) := by
  obtain ⟨f, h1, h2, h3, h4⟩ := recognise_token hp ht hT h
  have hqa : ∀ c ∈ quietChars, isAscii c = true ∧ c ≠ '\n' := by decide
  have hascii : ∀ c ∈ pre ++ T ++ tail, isAscii c = true ∧ c ≠ '\n' := fun c hc => by
    rw [List.mem_append, List.mem_append] at hc
    rcases hc with (hc | hc) | hc
    · exact hqa c (hq c (by simp [hc]))
    · exact hTa c hc
    · exact hqa c (hq c (by simp [hc]))
  have hstrip := strip_token (s := pre) (t := tail) (fun h => absurd (hp _ h) (by decide)) hT (fun h => absurd (ht _ h) (by decide))
  have hauth : finditer Rx.RE_AUTH (stripTags (pre ++ T ++ tail)) = [] := by
    rw [hstrip]
    refine barren_finditer (A := quietUnder) (by decide) (by decide +kernel) ?_
    intro c hc
    rw [List.mem_append, List.mem_append] at hc
    rcases hc with (hc | hc) | hc
    · exact List.mem_cons_of_mem _ (hq c (by simp [hc]))
    · rw [List.eq_of_mem_replicate hc]; decide
    · exact List.mem_cons_of_mem _ (hq c (by simp [hc]))
  unfold tagReferenceLine
  rw [hfix, okBind, h1, okBind]
  dsimp only
  have hs : sumDicts [] ([] : List (Str × Nat)) = .ok [] := rfl
  rw [hs, okBind]
  unfold processLine rebuildTagged
  rw [if_pos (by rw [h2, h3, h4]; rfl), okBind, tagAuthors_none ?_ (hu _ fun c hc => (hascii c hc).1) hauth, okBind, tagCollaborations_none ?_, okBind]
  · have : (pre ++ T ++ tail).filter (· != '\n') = pre ++ T ++ tail := by
      rw [List.filter_eq_self]
      intro c hc
      simpa using (hascii c hc).2
    rw [this]
    rfl
  · intro q hq
    rw [hstrip]
    exact h.collaborations q hq
  · intro q hq hi
    obtain ⟨c, hc, hn⟩ := h.authors q hq
    rw [(hascii c (hi.subset hc)).1] at hn
    cases hn

end Py
