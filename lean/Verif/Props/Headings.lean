import Verif.Lemmas.Headings
import Verif.Props.Find

/-!
# C100: where the reference section begins
-/

open Py Spec

namespace Props

/-- No line of the document is a heading for one of the patterns. -/
abbrev NoHeading [UnicodeDB] (rs : List Re) (doc : List Str) : Prop := ∀ r ∈ rs, ∀ n t, ¬ IsHeading r doc n t

theorem outer_chosen [UnicodeDB] {doc : List Str} {rs : List Re} : match sectionOuter doc rs with
    | none => NoHeading rs doc
    | some d => ∃ before r after, rs = before ++ r :: after ∧ NoHeading before doc ∧ Chosen r doc d.start ∧
        ∃ t, IsHeading r doc d.start t ∧ DetailsOf doc d.start t d := by
  induction rs with
  | nil => exact fun r hr => by cases hr
  | cons q rs ih =>
    unfold sectionOuter
    have hi := inner_chosen (doc := doc) (r := q)
    cases h : sectionInner doc q doc.length none with
    | some d =>
      rw [h] at hi
      exact ⟨[], q, rs, rfl, (fun r hr => (by cases hr)), hi⟩
    | none =>
      rw [h] at hi
      dsimp only at hi ⊢
      cases h2 : sectionOuter doc rs with
      | none =>
        rw [h2] at ih
        intro r hr
        rcases List.mem_cons.1 hr with rfl | hr
        · exact hi
        · exact ih r hr
      | some d =>
        rw [h2] at ih
        obtain ⟨b, r, a, e, h3, h4⟩ := ih
        refine ⟨q :: b, r, a, by rw [e]; rfl, fun r hr => ?_, h4⟩
        rcases List.mem_cons.1 hr with rfl | hr
        · exact hi
        · exact h3 r hr

/-- **C100.** If a document has a heading then the section begins at one: the patterns for headings are tried in
order, and of the headings for the first pattern that has any, the last one with the number one in its own
line is taken, or else the first one with a mark in the lines below, or else the first one. The mark reported is
the one that belongs to this heading. -/
theorem C100_heading [UnicodeDB] (doc : List Str) (h : ¬ NoHeading Rx.section_title_patterns doc) :
    ∃ before r after d, Rx.section_title_patterns = before ++ r :: after ∧ NoHeading before doc ∧ sectionBeginning doc = some d ∧
      Chosen r doc d.start ∧ ∃ t, IsHeading r doc d.start t ∧ DetailsOf doc d.start t d := by
  have ho := outer_chosen (doc := doc) (rs := Rx.section_title_patterns)
  unfold sectionBeginning findSection
  cases e : sectionOuter doc Rx.section_title_patterns with
  | none => rw [e] at ho; exact absurd ho h
  | some d =>
    rw [e] at ho
    obtain ⟨b, r, a, h1, h2, h3, h4⟩ := ho
    exact ⟨b, r, a, d, h1, h2, rfl, h3, h4⟩

/-- The kinds of numbers that open the references of a list without heading, in the order in which they are tried. -/
def numberKinds : List Re :=
  [Rx.re_reference_line_bracket_markers, Rx.re_reference_line_dot_markers, Rx.re_reference_line_number_markers]

/-- **C100.** If a document has no heading then the section begins where a numbered list does: of the lines with the number
one that are followed by the number two soon or stand near the end of the document, the last one is taken, for
the first kind of numbers that has any. -/
theorem C100_list [UnicodeDB] (doc : List Str) (h : NoHeading Rx.section_title_patterns doc) :
    match sectionBeginning doc with
    | none => ∀ r ∈ numberKinds, ∀ n, ¬ ListBegins r doc n
    | some d => ∃ before r after, numberKinds = before ++ r :: after ∧ (∀ q ∈ before, ∀ n, ¬ ListBegins q doc n) ∧
        ListBegins r doc d.start ∧ (∀ k, d.start < k → ¬ ListBegins r doc k) ∧ d.title = none ∧ d.sameLine = false ∧ d.pattern = some r := by
  have ho := outer_chosen (doc := doc) (rs := Rx.section_title_patterns)
  have lt : ∀ {r k}, ListBegins r doc k → k < doc.length := by
    rintro r k ⟨l, h, -⟩
    rcases Nat.lt_or_ge k doc.length with h' | h'
    · exact h'
    · rw [List.getElem?_eq_none h'] at h; cases h
  unfold sectionBeginning findSection
  cases e : sectionOuter doc Rx.section_title_patterns with
  | some d =>
    rw [e] at ho
    obtain ⟨b, r, a, h1, -, -, t, h2, -⟩ := ho
    exact absurd h2 (h r (by rw [h1]; simp) _ t)
  | none =>
    dsimp only
    have n1 := noTitle_chosen (doc := doc) (r := Rx.re_reference_line_bracket_markers) doc.length (Nat.le_refl _)
    have n2 := noTitle_chosen (doc := doc) (r := Rx.re_reference_line_dot_markers) doc.length (Nat.le_refl _)
    have n3 := noTitle_chosen (doc := doc) (r := Rx.re_reference_line_number_markers) doc.length (Nat.le_refl _)
    cases e1 : noTitleLoop doc Rx.re_reference_line_bracket_markers doc.length with
    | some d =>
      rw [e1] at n1
      obtain ⟨-, h2, h3, h4⟩ := n1
      exact ⟨[], _, _, rfl, by simp, h2, fun k hk hb => h3 k hk (lt hb) hb, h4⟩
    | none =>
      rw [e1] at n1
      dsimp only at n1 ⊢
      cases e2 : noTitleLoop doc Rx.re_reference_line_dot_markers doc.length with
      | some d =>
        rw [e2] at n2
        obtain ⟨-, h2, h3, h4⟩ := n2
        refine ⟨[_], _, _, rfl, fun q hq n hb => ?_, h2, fun k hk hb => h3 k hk (lt hb) hb, h4⟩
        rw [List.mem_singleton.1 hq] at hb
        exact n1 n (lt hb) hb
      | none =>
        rw [e2] at n2
        dsimp only at n2 ⊢
        cases e3 : noTitleLoop doc Rx.re_reference_line_number_markers doc.length with
        | some d =>
          rw [e3] at n3
          obtain ⟨-, h2, h3, h4⟩ := n3
          refine ⟨[_, _], _, [], rfl, fun q hq n hb => ?_, h2, fun k hk hb => h3 k hk (lt hb) hb, h4⟩
          simp only [List.mem_cons, List.not_mem_nil, or_false] at hq
          rcases hq with rfl | rfl
          · exact n1 n (lt hb) hb
          · exact n2 n (lt hb) hb
        | none =>
          rw [e3] at n3
          dsimp only at n3 ⊢
          intro q hq n hb
          simp only [numberKinds, List.mem_cons, List.not_mem_nil, or_false] at hq
          rcases hq with rfl | rfl | rfl
          · exact n1 n (lt hb) hb
          · exact n2 n (lt hb) hb
          · exact n3 n (lt hb) hb

/-- **C100.** What is extracted from a document with lines of at most 4300 characters are the lines behind this beginning. -/
theorem C100_extract [UnicodeDB] (fulltext : List Str) (hl : ∀ l ∈ fulltext, l.length ≤ 4300) :
    ∃ doc refs st, removeBoundary fulltext = .ok doc ∧ extractFulltext fulltext = .ok (refs, st) ∧
      match sectionBeginning doc with
      | none => refs = [] ∧ st = 4
      | some d => ∃ e lines pss groups, d.start ≤ e ∧ e ≤ doc.length ∧ st = 0 ∧
          SectionOf doc d.start e d.title d.sameLine lines ∧ All2 Cut lines pss ∧ groups.flatten = pss.flatten ∧ All2 RefOf groups refs := by
  obtain ⟨doc, hd, -⟩ := C37 fulltext
  have hs := C37_sublist hd
  obtain ⟨refs, st, h1, h2⟩ := extractDoc_spec (doc := doc) fun l hm => hl l (hs.subset hm)
  refine ⟨doc, refs, st, hd, by rw [extractFulltext, hd, okBind, h1], ?_⟩
  rcases h2 with ⟨h3, h4, h5⟩ | ⟨d, e, lines, h0, hf, h3, h4, -, h5, h6, h7⟩
  · rw [h3]
    exact ⟨h4, h5⟩
  · rw [h0]
    obtain ⟨pss, groups, a, b, c⟩ := rebuild_groups h6
    exact ⟨e, lines, pss, groups, h3, h4, h7, h5, a, b, c⟩

/-- **C100**, if of the headings for the first pattern that has any exactly one is followed by a mark: this one begins the section. -/
theorem C100_partial [UnicodeDB] (doc : List Str) (before after : List Re) (r : Re) (hr : Rx.section_title_patterns = before ++ r :: after)
    (hb : NoHeading before doc) (n : Nat) (hn : Marked r doc n) (hu : ∀ k, Marked r doc k → k = n) :
    ∃ d, sectionBeginning doc = some d ∧ d.start = n := by
  obtain ⟨t, own, p, mark, ht, -⟩ := id hn
  obtain ⟨b', r', a', d, h1, h2, h3, h4, t', h5, -⟩ := C100_heading doc fun h => h r (by rw [hr]; simp) n t ht
  have e : r' = r := by
    rw [hr] at h1
    rcases List.append_eq_append_iff.1 h1 with ⟨x, e1, e2⟩ | ⟨x, e1, e2⟩
    · cases x with
      | nil => cases e2; rfl
      | cons y x => cases e2; exact absurd ht (h2 r (by rw [e1]; simp) n t)
    · cases x with
      | nil => cases e2; rfl
      | cons y x => cases e2; exact absurd h5 (hb r' (by rw [e1]; simp) _ t')
  subst e
  refine ⟨d, h3, ?_⟩
  rcases h4 with ⟨h4, -⟩ | ⟨-, h4, -⟩ | ⟨h4, -⟩
  · exact hu _ (ownFirst_marked h4)
  · exact hu _ h4
  · exact absurd hn (h4 n)

/-- **C100 fails** for a document with a table of contents: the number of the first section below the entry for the references is taken
for the mark of a first reference, and the whole document becomes the reference section. -/
theorem C100_refuted :
    (@sectionBeginning asciiDB [py! "Contents", py! "References", py! "1 Introduction", py! "Text", py! "2 Results", py! "Text", py! "Text", py! "References",
      py! "[1] A. Smith, Nature", py! "[2] B. Jones, Science"]).map (·.start) = some 1 ∧
    @extractFulltext asciiDB [py! "Contents", py! "References", py! "1 Introduction", py! "Text", py! "2 Results", py! "Text", py! "Text", py! "References",
      py! "[1] A. Smith, Nature", py! "[2] B. Jones, Science"] = .ok ([py! "1 Introduction Text", py! "2 Results Text Text [1] A. Smith, Nature [2] B. Jones, Science"], 0) := by
  decide +kernel

/-- The heading in the table of contents is not taken if no number follows it. -/
example : (@sectionBeginning asciiDB [py! "Contents", py! "Results", py! "References", py! "Introduction", py! "Text", py! "Text", py! "Text", py! "Text", py! "Text",
    py! "References", py! "[1] A. Smith, Nature", py! "[2] B. Jones, Science"]).map (·.start) = some 9 := by
  decide +kernel

/-- Of two headings with marks the first is taken. -/
example : (@sectionBeginning asciiDB [py! "References", py! "[1] A. Smith, Nature", py! "[2] B. Jones, Science", py! "Appendix", py! "Text",
    py! "References", py! "[1] C. Brown, Nature"]).map (·.start) = some 0 := by
  decide +kernel

/-- Of two with the number one in their own lines the last is taken. -/
example : (@sectionBeginning asciiDB [py! "References [1] A. Smith, Nature", py! "[2] B. Jones, Science", py! "Appendix", py! "Text",
    py! "References [1] C. Brown, Nature"]).map (·.start) = some 4 := by
  decide +kernel

/-- Without heading the last list is taken. -/
example : (@sectionBeginning asciiDB [py! "[1] First point", py! "[2] Second point", py! "Text", py! "Text", py! "Text", py! "Text", py! "Text",
    py! "[1] A. Smith, Nature", py! "[2] B. Jones, Science", py! "Text", py! "Text", py! "Text", py! "Text", py! "Text", py! "[1] see above", py! "Text", py! "Text", py! "Text", py! "Text", py! "Text"]).map (·.start) = some 7 := by
  decide +kernel

end Props
