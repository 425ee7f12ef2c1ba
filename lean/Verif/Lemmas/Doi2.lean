import Verif.Lemmas.Doi
import Verif.Lemmas.Calm

/-!
# Helper lemmas: the one DOI of a line
-/

namespace Py
open Spec
open scoped List

variable [UnicodeDB]

theorem match_doi_longest {pre post : Str} {m : Match} (h : matchHere Rx.re_doi false pre post = some m) :
    ∃ lead raw d r, m.txt = lead ++ raw ∧ post = m.txt ++ r ∧ (lead = [] ∨ DoiWord lead ∨ DoiUrl lead) ∧ DoiText raw d ∧ m.tgroup G.doi = raw ∧
      ∀ e f, r = e ++ f → e ≠ [] → (∀ c ∈ e, DoiChar c) → e.getLast? = some '.' := by
  obtain ⟨t, ht, h1, h2, h3⟩ := matchHere_first h
  rw [re_doi_eq] at ht
  obtain ⟨u, lead, hl, ht⟩ := first_seq ht
  obtain ⟨v, raw, hv, hs, -, e2, e3, -⟩ := first_group ht
  obtain ⟨d, raw', e4, hd, hmax⟩ := first_doiBody hv
  have hr : raw' = raw := List.append_cancel_right (e4.symm.trans hs.post)
  subst hr
  refine ⟨lead, raw', d, t.post, ?_, h1, sem_doiLead.1 hl.sem, hd, ?_, by rw [e2]; exact hmax⟩
  · have := hl.post
    rw [e4, h1, e2, ← List.append_assoc] at this
    exact List.append_cancel_right this
  · rw [Match.tgroup, h3, e3]; rfl

/-- Every replaced text is as long as possible. -/
theorem longest_dois {lib : Lib} (hu : Decodes lib.unquote) {pre line : Str} {ps : List Piece} (h : Scanned Rx.re_doi pre line ps) :
    ∃ gaps ws, gaps.length = ws.length + 1 ∧ line = interleave gaps ws ∧
      ps.flatMap (Piece.out fun _ => py! "<cds.DOI />") = interleave gaps (ws.map fun _ => py! "<cds.DOI />") ∧
      All2 CitesDoi ws ((ps.filterMap Piece.match?).map (doiOf lib)) ∧ NoneGoesOn gaps ws := by
  induction h with
  | nil => exact ⟨[[]], [], rfl, rfl, rfl, .nil, trivial⟩
  | @ch pre c t ps hn _ ih =>
    obtain ⟨gaps, ws, h1, h2, h3, h4, h5⟩ := ih
    match gaps, h1 with
    | g :: gs, h1 =>
      refine ⟨(c :: g) :: gs, ws, h1, by cases ws <;> simp [interleave, h2], ?_, by rw [List.filterMap_cons]; exact h4, ?_⟩
      · rw [List.flatMap_cons, h3]
        cases ws <;> simp [interleave, Piece.out]
      · cases ws with
        | nil => trivial
        | cons w ws => exact h5
  | @hit pre t ps m hm _ _ ih =>
    obtain ⟨gaps, ws, h1, h2, h3, h4, h5⟩ := ih
    refine ⟨[] :: gaps, m.txt :: ws, by simp [h1], by simp [interleave, h2], ?_, by rw [List.filterMap_cons]; exact .cons (match_doi hu hm) h4, ?_, h5⟩
    · rw [List.flatMap_cons, h3]
      simp [interleave, Piece.out]
    · obtain ⟨lead, raw, d, r, -, e, -, -, -, hmax⟩ := match_doi_longest hm
      rw [List.append_cancel_left e] at h2
      rw [← h2]
      exact hmax

/-! ### Nothing in calm text -/

theorem doi_point {w d : Str} (h : DoiText w d) : ∃ c, isDec c = true ∧ ['0', '.', c] <:+: w := by
  obtain ⟨ds, ps, sl, t, rfl, d1, -, d3, -⟩ := h
  match ds, d1 with
  | c :: ds, _ => exact ⟨c, d3 c (by simp), ['1'], ds ++ (ps.flatMap ('.' :: ·) ++ (sl ++ t)), by simp⟩

theorem calm_dec {c : Char} (h : c ∈ calmChars) (hd : isDec c = true) : c ∈ py! "0123456789" := by
  have : (calmChars.all fun c => !isDec c || (py! "0123456789").contains c) = true := rfl
  have := List.all_eq_true.1 this c h
  rw [hd] at this
  simpa using this

theorem calm_noDoi {s w d : Str} (h : Calm s) (hw : w <:+: s) : ¬ CitesDoi w d := by
  rintro ⟨lead, raw, rfl, -, hr⟩
  obtain ⟨c, hc, hi⟩ := doi_point hr
  have hi' : ['0', '.', c] <:+: s := (hi.trans (List.suffix_append lead raw).isInfix).trans hw
  exact h.points '0' (by decide) c (calm_dec (h.chars c (hi'.subset (by simp))) hc) hi'

/-! ### The words in front of a DOI -/

theorem one_doiWord {x : Str} (h : DoiWord x) : '1' ∉ x := by
  obtain ⟨o, d, s1, c, k, s2, rfl, ho, hd, hs1, hc, hk, hs2⟩ := h
  have hsp : ∀ {s : Str}, Spaces s → '1' ∉ s := fun h hm => absurd (h _ hm) (by decide)
  have hd' : '1' ∉ d := by
    obtain ⟨x, y, z, hf, hx, hy, hz⟩ := hd
    cases hf with
    | cons f1 hf => cases hf with
      | cons f2 hf => cases hf with
        | cons f3 hf =>
          cases hf
          simp only [List.mem_cons, List.not_mem_nil, or_false, not_or]
          have no : ∀ {a b z : Char}, @CSet.mem asciiDB ⟨false, true, [.ch a, .ch b]⟩ '1' = false → z ∈ [a, b] → ¬ z ∈ caseVariants '1' := by
            intro a b z h hz hc
            have := either_mem.2 ⟨z, hz, hc⟩
            rw [mem_ascii (by decide), h] at this
            cases this
          refine ⟨?_, ?_, ?_⟩
          · rintro rfl; exact no (by decide +kernel) hx f1
          · rintro rfl; exact no (by decide +kernel) hy f2
          · rintro rfl; exact no (by decide +kernel) hz f3
  simp only [List.mem_append, not_or]
  refine ⟨⟨⟨⟨⟨?_, hd'⟩, hsp hs1⟩, ?_⟩, ?_⟩, hsp hs2⟩
  · rcases ho with rfl | rfl <;> decide
  · rcases hc with rfl | rfl <;> decide
  · rcases hk with rfl | rfl <;> decide

theorem slash_doiWord {x : Str} (h : DoiWord x) : '/' ∉ x := by
  obtain ⟨o, d, s1, c, k, s2, rfl, ho, hd, hs1, hc, hk, hs2⟩ := h
  have hsp : ∀ {s : Str}, Spaces s → '/' ∉ s := fun h hm => absurd (h _ hm) (by decide)
  have hd' : '/' ∉ d := by
    obtain ⟨x, y, z, hf, hx, hy, hz⟩ := hd
    cases hf with
    | cons f1 hf => cases hf with
      | cons f2 hf => cases hf with
        | cons f3 hf =>
          cases hf
          simp only [List.mem_cons, List.not_mem_nil, or_false, not_or]
          have no : ∀ {a b z : Char}, @CSet.mem asciiDB ⟨false, true, [.ch a, .ch b]⟩ '/' = false → z ∈ [a, b] → ¬ z ∈ caseVariants '/' := by
            intro a b z h hz hc
            have := either_mem.2 ⟨z, hz, hc⟩
            rw [mem_ascii (by decide), h] at this
            cases this
          refine ⟨?_, ?_, ?_⟩
          · rintro rfl; exact no (by decide +kernel) hx f1
          · rintro rfl; exact no (by decide +kernel) hy f2
          · rintro rfl; exact no (by decide +kernel) hz f3
  simp only [List.mem_append, not_or]
  refine ⟨⟨⟨⟨⟨?_, hd'⟩, hsp hs1⟩, ?_⟩, ?_⟩, hsp hs2⟩
  · rcases ho with rfl | rfl <;> decide
  · rcases hc with rfl | rfl <;> decide
  · rcases hk with rfl | rfl <;> decide

theorem folds_count {x w : Str} (h : FoldsTo x w) : w.count '/' ≤ x.count '/' := by
  induction h with
  | nil => exact Nat.le_refl _
  | @cons c d x w hc _ ih =>
    rw [List.count_cons, List.count_cons]
    by_cases hd : d = '/'
    · subst hd
      rw [caseVariants_plain (by decide) (by decide) hc]
      omega
    · have : (d == '/') = false := by simpa using hd
      rw [this]
      simp only [Bool.false_eq_true, if_false]
      omega

/-- A text with at most one slash is not the beginning of a link. -/
theorem not_doiUrl {x : Str} (h : x.count '/' ≤ 1) : ¬ DoiUrl x := by
  rintro ⟨y, hy, hf⟩
  have h1 := folds_count hf
  have h2 : ∀ y ∈ [py! "http://doi.org/", py! "https://doi.org/", py! "http://dx.doi.org/", py! "https://dx.doi.org/"], 2 ≤ y.count '/' := by decide
  have := h2 y hy
  omega

/-! ### The line -/

/-- The match at the place of the DOI. -/
theorem match_doiLine {n : Nat} {pre lead d tail b : Str} (h : DoiLine n pre lead d tail) {m : Match} (hm : matchHere Rx.re_doi false b ((lead ++ d) ++ tail) = some m) :
    m.txt = lead ++ d ∧ m.tgroup G.doi = d := by
  obtain ⟨lead', raw, d', r, e1, e2, hl, hd, hg, hmax⟩ := match_doi_longest hm
  have hp : '%' ∉ d := fun hc => absurd (h.chars '%' (by simp [hc])) (by decide)
  have hc1 : ((lead ++ d) ++ tail).count '/' ≤ 1 := by
    have h0 : lead.count '/' = 0 := by
      rw [List.count_eq_zero]
      intro hm
      rcases h.word with hw | ⟨o, d, s1, c, k, s2, rfl, ho, hd, hs1, hc, hk, hs2⟩
      · rw [hw] at hm; cases hm
      · have hsp : ∀ {s : Str}, Spaces s → '/' ∉ s := fun h hm => absurd (h _ hm) (by decide)
        simp only [List.mem_append] at hm
        rcases hm with ((((hm | hm) | hm) | hm) | hm) | hm
        · rcases ho with rfl | rfl <;> revert hm <;> decide
        · obtain ⟨x, y, z, hf, hx, hy, hz⟩ := hd
          have no : ∀ {a b z : Char}, @CSet.mem asciiDB ⟨false, true, [.ch a, .ch b]⟩ '/' = false → z ∈ [a, b] → ¬ z ∈ caseVariants '/' := by
            intro a b z h hz hc
            have := either_mem.2 ⟨z, hz, hc⟩
            rw [mem_ascii (by decide), h] at this
            cases this
          cases hf with
          | cons f1 hf => cases hf with
            | cons f2 hf => cases hf with
              | cons f3 hf =>
                cases hf
                simp only [List.mem_cons, List.not_mem_nil, or_false] at hm
                rcases hm with rfl | rfl | rfl
                · exact no (by decide +kernel) hx f1
                · exact no (by decide +kernel) hy f2
                · exact no (by decide +kernel) hz f3
        · exact hsp hs1 hm
        · rcases hc with rfl | rfl <;> revert hm <;> decide
        · rcases hk with rfl | rfl <;> revert hm <;> decide
        · exact hsp hs2 hm
    have h1 : tail.count '/' = 0 := List.count_eq_zero.2 fun hm => absurd (h.back.chars _ hm) (by decide)
    rw [List.count_append, List.count_append, h0, h1, h.slash]
    decide
  have hl' : '1' ∉ lead' := by
    rcases hl with rfl | hl | hl
    · simp
    · exact one_doiWord hl
    · refine absurd hl (not_doiUrl (Nat.le_trans ?_ hc1))
      rw [e2, e1, List.append_assoc, List.count_append]
      exact Nat.le_add_right _ _
  have hl0 : '1' ∉ lead := by
    rcases h.word with hw | hw
    · rw [hw]; simp
    · exact one_doiWord hw
  have st : ∀ {x y : Str}, DoiText x y → ∃ x', x = '1' :: x' := by
    rintro x y ⟨ds, ps, sl, t, rfl, -⟩
    exact ⟨_, rfl⟩
  obtain ⟨x, hx⟩ := st h.doi
  obtain ⟨x', hx'⟩ := st hd
  obtain ⟨rfl, -, e3⟩ := doi_split (p := fun c => c == '1') (a := lead) (a' := lead') (x := '1') (x' := '1') (r := x ++ tail) (r' := x' ++ r)
    (fun c hc => by simpa using fun e : c = '1' => hl0 (e ▸ hc)) (fun c hc => by simpa using fun e : c = '1' => hl' (e ▸ hc)) rfl rfl (by
      rw [e1, hx, hx'] at e2
      simpa using e2)
  obtain ⟨e5, -, -⟩ := doiText_unique h.doi hd hp (r := tail) (r' := r) (by rw [hx, hx']; simp [e3]) h.last hmax
  exact ⟨by rw [e1, e5], by rw [hg, e5]⟩

theorem calm_scan {b t : Str} {ps : List Piece} (hc : Calm t) (h : Scanned Rx.re_doi b t ps) : ps = t.map .ch := by
  induction h with
  | nil => rfl
  | @ch pre c t ps _ _ ih =>
    rw [ih (calm_suffix' hc)]
    rfl
  | @hit pre t ps m hm _ _ _ =>
    obtain ⟨lead', raw, d', r, e1, e2, hl, hd, -, -⟩ := match_doi_longest hm
    exact absurd ⟨lead', raw, e1, hl, hd⟩ (calm_noDoi hc (w := m.txt) ⟨[], t, rfl⟩)
where
  calm_suffix' {c : Char} {t : Str} (h : Calm (c :: t)) : Calm t :=
    ⟨fun d hd => h.chars d (by simp [hd]), fun w hw hi => h.words w hw (by rw [List.map_cons]; exact hi.trans (List.suffix_cons _ _).isInfix),
      fun w hw hi => h.tidy w hw (hi.trans (List.suffix_cons _ _).isInfix), fun x hx => h.digits x (hx.trans (List.suffix_cons _ _).isInfix),
      fun a ha b hb hi => h.points a ha b hb (hi.trans (List.suffix_cons _ _).isInfix)⟩

/-- The pieces of the line. -/
theorem scan_doiLine {n : Nat} {pre lead d tail : Str} (h : DoiLine n pre lead d tail) : ∀ {a b q : Str} {ps : List Piece}, pre = a ++ b →
    Scanned Rx.re_doi q (b ++ (lead ++ d) ++ tail) ps → ∃ m : Match, m.tgroup G.doi = d ∧ ps = b.map .ch ++ (.hit m :: tail.map .ch)
  | a, [], q, ps, _, hs => by
    rw [List.nil_append] at hs
    have hne : lead ++ d ≠ [] := by
      intro e
      have : d = [] := (List.append_eq_nil_iff.1 e).2
      have h1 := h.slash
      rw [this] at h1
      cases h1
    generalize hX : (lead ++ d) ++ tail = X at hs
    cases hs with
    | nil => exact absurd (List.append_eq_nil_iff.1 hX).1 hne
    | @ch _ c t ps hn _ =>
      refine absurd ⟨lead ++ d, tail, hX.symm, sem_doi.2 ⟨d, lead, d, rfl, ?_, h.doi⟩⟩ ((matchHere_none _ _ _).1 hn)
      rcases h.word with hw | hw
      · exact .inl hw
      · exact .inr (.inl hw)
    | @hit _ t ps m hm hmn hs =>
      have hm' := hm
      rw [← hX] at hm'
      obtain ⟨e1, e2⟩ := match_doiLine h hm'
      have et : t = tail := by
        rw [e1] at hX
        exact (List.append_cancel_left hX).symm
      subst et
      exact ⟨m, e2, by rw [calm_scan h.back hs]; rfl⟩
  | a, c :: b, q, ps, e, hs => by
    generalize hX : (c :: b) ++ (lead ++ d) ++ tail = X at hs
    cases hs with
    | nil => simp at hX
    | @ch _ c' t ps hn hs =>
      simp only [List.cons_append, List.cons.injEq] at hX
      obtain ⟨rfl, rfl⟩ := hX
      obtain ⟨m, h1, h2⟩ := scan_doiLine h (a := a ++ [c]) (b := b) (by rw [e]; simp) hs
      exact ⟨m, h1, by rw [h2]; rfl⟩
    | @hit _ t ps m hm hmn hs =>
      obtain ⟨lead', raw, d', r, e1, e2, hl, hd, -, -⟩ := match_doi_longest hm
      exact absurd ⟨lead', raw, e1, hl, hd⟩ (h.first a (c :: b) m.txt t d' e (by simp) hX)

/-- The DOI is taken out of the line. -/
theorem dois_doiLine {lib : Lib} (hu : ∀ s, '%' ∉ s → lib.unquote s = s) {n : Nat} {pre lead d tail : Str} (h : DoiLine n pre lead d tail) :
    tagDois lib (pre ++ (lead ++ d) ++ tail) = (pre ++ doiMark ++ tail, [d]) := by
  obtain ⟨m, h1, h2⟩ := scan_doiLine h (a := []) (b := pre) rfl (scan_scanned' doi_minLen _)
  have hd : doiOf lib m = d := by
    have hp : '%' ∉ d := fun hc => absurd (h.chars '%' (by simp [hc])) (by decide)
    unfold doiOf
    rw [h1, hu d hp]
    split <;> rfl
  have e1 : ∀ s : Str, (s.map Piece.ch).flatMap (Piece.out fun _ => doiMark) = s := by
    intro s
    induction s with
    | nil => rfl
    | cons c s ih => rw [List.map_cons, List.flatMap_cons, ih]; rfl
  have e2 : ∀ s : Str, (s.map Piece.ch).filterMap Piece.match? = [] := by
    intro s
    induction s with
    | nil => rfl
    | cons c s ih => rw [List.map_cons, List.filterMap_cons]; exact ih
  rw [tagDois_eq, sub, finditer, h2, List.flatMap_append, List.filterMap_append, List.flatMap_cons, e1, e1, e2, List.filterMap_cons]
  simp only [Piece.match?, e2, List.nil_append, List.map_cons, List.map_nil, hd]
  simp [Piece.out, doiMark]

end Py
