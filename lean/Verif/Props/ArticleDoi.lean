import Verif.Lemmas.ArticleDoi2
import Verif.Props.DoiList

/-!
# An article with its DOI (C119)
-/

open Py Spec
open scoped List

namespace Props

/-- **C119.** A numbered line of plain text with an article in a known journal and, behind it, a DOI, and with nothing else that is known, is reported as exactly one
reference. The values in it are exactly the number, the line, the text in front, the standard title of the journal, volume with series, year and page as they are
written, the article in one text, the text between the article and the DOI, the DOI behind `doi:`, the text behind, and the year of the article; one title and one DOI are counted. -/
theorem C119 [UnicodeDB] (undesirable : Str → Str) (lib : Lib) (kbs : Kbs) (n : Nat) (pre b p lead w mid word d tail K J : Str) (t : Told)
    (hl : ArticleDoiLine n pre b p lead w mid word d tail t) (hK : reading b = K) (hj : KnownJournal kbs K J)
    (ho : NothingFurther kbs.tag K pre b [(p ++ (lead ++ w ++ mid), doiMark)] tail) (hc : NoCollaborations kbs.tag pre [(mid, doiMark)] tail)
    (hd : ∀ s, '%' ∉ s → lib.unquote s = s) (hu : ∀ s, (∀ c ∈ s, isAscii c = true) → lib.unidecode s = s)
    (hw : undesirable (bracketed n ++ ' ' :: articleDoiText pre b p lead w mid word d tail) = bracketed n ++ ' ' :: articleDoiText pre b p lead w mid word d tail) :
    ∃ r, parseReferences undesirable lib kbs defaultFormat none [bracketed n ++ ' ' :: articleDoiText pre b p lead w mid word d tail] =
        .ok ([r], [0, 0, 1, 0, 0, 1, if LeftOver tail then 1 else 0]) ∧
      ∀ k, vals r k = under k (articleWithRecord n (bracketed n ++ ' ' :: articleDoiText pre b p lead w mid word d tail) pre J mid (py! "doi", py! "doi:" ++ d) tail t) :=
  references_with_doi hl hK hj ho hc hd hu hw

/-! ### An instance -/

attribute [local instance] asciiDB in
/-- With what a text that cites a DOI does not begin. -/
theorem cites_start {w d : Str} (h : CitesDoi w d) : (∀ c ∈ py! "sealont, Nure432067)", w.head? ≠ some c) ∧ ∀ w', w ≠ '(' :: '2' :: w' := by
  have no : ∀ c ∈ py! "2sealont, Nure432067)", ∀ x ∈ py! "dDh", x ∉ caseVariants c := by decide +kernel
  have nopar : 'h' ∉ caseVariants '(' := by decide +kernel
  obtain ⟨lead, raw, rfl, hl, ds, parts, sl, t, rfl, -⟩ := h
  refine ⟨fun c hc he => ?_, fun w' e => ?_⟩
  · rcases hl with rfl | ⟨o, x, s1, k, q, s2, rfl, ho, ⟨x1, y1, z1, hf, hx, -, -⟩, -⟩ | ⟨y, hy, hf⟩
    · rw [← Option.some.inj he] at hc; exact absurd hc (by decide)
    · rcases ho with rfl | rfl
      · cases hf with
        | cons f1 hf =>
          rw [Option.some.inj he] at f1
          exact no c (by simp [hc]) x1 (by simp only [List.mem_cons, List.not_mem_nil, or_false] at hx ⊢; rcases hx with h | h <;> simp [h]) f1
      · rw [← Option.some.inj he] at hc; exact absurd hc (by decide)
    · have : ∃ y', y = 'h' :: y' := by
        simp only [List.mem_cons, List.not_mem_nil, or_false] at hy
        rcases hy with rfl | rfl | rfl | rfl <;> exact ⟨_, rfl⟩
      obtain ⟨y', rfl⟩ := this
      cases hf with
      | cons f1 hf =>
        rw [Option.some.inj he] at f1
        exact no c (by simp [hc]) 'h' (by simp) f1
  · rcases hl with rfl | ⟨o, x, s1, k, q, s2, rfl, ho, ⟨x1, y1, z1, hf, hx, -, -⟩, -⟩ | ⟨y, hy, hf⟩
    · simp at e
    · have hx' : x1 ∈ py! "dDh" := by simp only [List.mem_cons, List.not_mem_nil, or_false] at hx ⊢; rcases hx with h | h <;> simp [h]
      have nopar' : ∀ x ∈ py! "dDh", x ∉ caseVariants '(' := by decide +kernel
      rcases ho with rfl | rfl
      · cases hf with
        | cons f1 hf =>
          simp only [List.nil_append, List.cons_append, List.cons.injEq] at e
          rw [e.1] at f1
          exact nopar' x1 hx' f1
      · cases hf with
        | cons f1 hf =>
          simp only [List.nil_append, List.cons_append, List.cons.injEq] at e
          rw [e.2.1] at f1
          exact no '2' (by simp) x1 hx' f1
    · have : ∃ y', y = 'h' :: y' := by
        simp only [List.mem_cons, List.not_mem_nil, or_false] at hy
        rcases hy with rfl | rfl | rfl | rfl <;> exact ⟨_, rfl⟩
      obtain ⟨y', rfl⟩ := this
      cases hf with
      | cons f1 hf =>
        simp only [List.cons_append, List.cons.injEq] at e
        rw [e.1] at f1
        exact nopar f1

/-- The volume 432, the year 2004 and the page 27. -/
def natureTold : Told := ⟨none, py! "432", py! "2004", py! "27", none⟩

theorem nature_front : ArticleFront (py! "see also a note, ") (py! "Nature") [] (py! " ") (py! "432 (2004) 27") (py! ", ") natureTold where
  front := calm_of (by decide +kernel)
  quiet := by decide
  blank := by decide
  first := ⟨'N', by decide, rfl⟩
  last := ⟨'e', by decide, rfl⟩
  skip := by decide
  gap := by decide
  lead := by decide
  num := .volYearPage (py! "432") (py! "2004") (py! "27") (by decide) ⟨_, '0', '4', rfl, Or.inr rfl, by decide⟩ (by decide)
  stops := ⟨by decide, by rintro c hc; cases hc; decide⟩

attribute [local instance] asciiDB in
theorem nature_line : ArticleDoiLine 4 (py! "see also a note, ") (py! "Nature") [] (py! " ") (py! "432 (2004) 27") (py! ", ") (py! "doi: ") (py! "10.1000/xyz")
    (py! ", with a table.") natureTold where
  article := nature_front
  back := calm_of (by decide +kernel)
  quiet := by decide
  year := ⟨notIn (by decide), notIn (by decide), notIn (by decide)⟩
  word := doi_line.word
  doi := doi_line.doi
  chars := by decide
  slash := rfl
  tidy := notIn (by decide +kernel)
  only := by
    have key : ∀ x : Str, ∀ a b w r d, (∀ c ∈ x, c ∈ py! "sealont, Nure432067)") → ∀ rest, x = a ++ b → b ≠ [] → b ++ rest = w ++ r → ¬ CitesDoi w d := by
      intro x a b w r d hx rest e hb e2 hc
      cases b with
      | nil => exact hb rfl
      | cons c b =>
        cases w with
        | nil =>
          obtain ⟨lead, raw, e3, -, ds, parts, sl, t, e4, -⟩ := hc
          rw [e4] at e3
          simp at e3
        | cons y w =>
          have : c = y := (List.cons.inj e2).1
          exact (cites_start hc).1 c (hx c (by rw [e]; simp)) (by rw [this]; rfl)
    intro a b w r d e hb e2
    have e' : py! "see also a note, Nature 432 " ++ '(' :: py! "2004) 27, " = a ++ b := e
    rw [List.append_assoc] at e2
    rcases List.append_eq_append_iff.1 e' with ⟨z, h1, h2⟩ | ⟨z, h1, h2⟩
    · cases z with
      | nil =>
        rw [List.nil_append] at h2
        subst h2
        intro hc
        cases w with
        | nil =>
          obtain ⟨lead, raw, e3, -, ds, parts, sl, t, e4, -⟩ := hc
          rw [e4] at e3
          simp at e3
        | cons y w =>
          cases w with
          | nil =>
            obtain ⟨lead, raw, e3, -, ds, parts, sl, t, e4, -⟩ := hc
            have := congrArg List.length e3
            rw [e4] at this
            simp at this
            omega
          | cons y' w =>
            simp only [List.cons_append, List.cons.injEq] at e2
            exact (cites_start hc).2 w (by rw [← e2.1, ← e2.2.1])
      | cons y z =>
        rw [List.cons_append, List.cons.injEq] at h2
        exact key _ z b w r d (by decide) _ h2.2 hb e2
    · by_cases hz : z = []
      · subst hz
        rw [List.nil_append] at h2
        subst h2
        intro hc
        cases w with
        | nil =>
          obtain ⟨lead, raw, e3, -, ds, parts, sl, t, e4, -⟩ := hc
          rw [e4] at e3
          simp at e3
        | cons y w =>
          cases w with
          | nil =>
            obtain ⟨lead, raw, e3, -, ds, parts, sl, t, e4, -⟩ := hc
            have := congrArg List.length e3
            rw [e4] at this
            simp at this
            omega
          | cons y' w =>
            simp only [List.cons_append, List.cons.injEq] at e2
            exact (cites_start hc).2 w (by rw [← e2.1, ← e2.2.1])
      · rw [h2, List.append_assoc] at e2
        exact key _ a z w r d (by decide) _ h1 hz e2
  ends := last_of

attribute [local instance] asciiDB in
theorem nature_journal : KnownJournal knownKbs (py! "NATURE") (py! "Nature") where
  titles := ⟨_, rfl, rfl, by decide +kernel⟩
  known := by decide +kernel
  std := by decide +kernel
  byRe := by decide +kernel
  ascii := by decide
  plain := by decide
  special := by decide

attribute [local instance] asciiDB in
theorem nature_only : NothingFurther knownKbs.tag (py! "NATURE") (py! "see also a note, ") (py! "Nature") [(py! " 432 (2004) 27, ", doiMark)] (py! ", with a table.") where
  titles := by decide +kernel
  reports := by
    intro p hp
    rw [List.mem_singleton.1 hp]
    exact ⟨_, rfl, by decide +kernel⟩
  ibid := notIn (by decide +kernel)
  publishers := by decide +kernel
  byRe := by decide +kernel
  authors := by decide +kernel

attribute [local instance] asciiDB in
theorem nature_collaborations : NoCollaborations knownKbs.tag (py! "see also a note, ") [(py! ", ", doiMark)] (py! ", with a table.") := by
  intro p hp g hg
  rw [List.mem_singleton.1 hp]
  refine @barren_finditer asciiDB (py! "_sealont, withb.") (by decide) _ (by decide +kernel) _ ?_
  intro c hc
  rw [List.mem_append, List.mem_append] at hc
  rcases hc with (hc | hc) | hc
  · revert hc; revert c; decide
  · rcases hg c hc with rfl | rfl <;> decide
  · revert hc; revert c; decide

example : ∃ r, @parseReferences asciiDB id plainLib knownKbs defaultFormat none
        [py! "[4] see also a note, Nature 432 (2004) 27, doi: 10.1000/xyz, with a table."] = .ok ([r], [0, 0, 1, 0, 0, 1, 1]) ∧
    ∀ k, vals r k = under k [(py! "linemarker", py! "4"),
      (py! "raw_ref", py! "[4] see also a note, Nature 432 (2004) 27, doi: 10.1000/xyz, with a table."),
      (py! "misc", py! "see also a note"), (py! "journal_title", py! "Nature"), (py! "journal_volume", py! "432"),
      (py! "journal_year", py! "2004"), (py! "journal_page", py! "27"), (py! "journal_reference", py! "Nature 432 (2004) 27"),
      (py! "doi", py! "doi:10.1000/xyz"), (py! "misc", py! "with a table"), (py! "year", py! "2004")] := by
  obtain ⟨r, h1, h2⟩ := @C119 asciiDB id plainLib knownKbs 4 _ _ _ _ _ _ _ _ _ _ _ _ nature_line (by decide +kernel) nature_journal nature_only nature_collaborations
    (fun _ _ => rfl) (fun _ _ => rfl) rfl
  refine ⟨r, ?_, ?_⟩
  · have : LeftOver (py! ", with a table.") := by decide
    rw [if_pos this] at h1
    exact h1
  · intro k
    rw [h2 k]
    exact congrArg (under k) (by decide +kernel)

end Props
