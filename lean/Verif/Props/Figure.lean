import Verif.Lemmas.Figure
import Verif.Props.Find

/-!
# Properties of the end of the reference section at a figure (C118)
-/

open Py Spec

namespace Props

variable [UnicodeDB]

/-- **C118**, part: the section does not go past the first of four lines of numbers that follow each other; and it ends at the end of the
document, before a heading of a following section, or with the first of four such lines. Missing: the first line of the numbers is not kept
out, nor are numbers with blank lines between them. -/
theorem C118_partial {doc : List Str} {d : Details} (h : sectionBeginning doc = some d) :
    ∃ e, findEnd doc d = .ok (some e) ∧ (∀ k, d.start ≤ k → FigureAt doc k → e ≤ k + 1) ∧
      (e = doc.length ∨ (∃ l, doc[e]? = some l ∧ NextHeading l) ∨ ∃ k, d.start ≤ k ∧ e = k + 1 ∧ FigureAt doc k) := by
  have hf := sectionBeginning_found h
  obtain ⟨e, h1, -⟩ := findEnd_total hf
  refine ⟨e, h1, ?_⟩
  have at_drop : ∀ k, FigureAt (doc.drop d.start) k ↔ FigureAt doc (d.start + k) := by
    intro k
    unfold FigureAt
    simp only [List.getElem?_drop, Nat.add_assoc]
  unfold findEnd at h1
  split at h1
  · cases h1
  · obtain ⟨n, hn, h1⟩ := bind_ok h1
    cases h1
    obtain ⟨h2, h3⟩ := endLoop_figure hn
    constructor
    · intro k hk hfig
      refine Nat.le_of_not_lt fun hlt => h2 (k - d.start) (by omega) ?_
      rw [at_drop, show d.start + (k - d.start) = k by omega]
      exact hfig
    · rcases h3 with h3 | ⟨l, h3, h4⟩ | ⟨k, rfl, h4⟩
      · left
        rw [h3, List.length_drop]
        have := hf.start
        omega
      · right; left
        exact ⟨l, by rw [List.getElem?_drop] at h3; exact h3, h4⟩
      · right; right
        exact ⟨d.start + k, by omega, by omega, (at_drop k).1 h4⟩

/-- A document with neither a heading behind the references nor four lines of numbers below each other is read to its end. -/
theorem C118_end {doc : List Str} {d : Details} (h : sectionBeginning doc = some d) (h1 : ∀ l ∈ doc.drop d.start, ¬ NextHeading l)
    (h2 : ∀ k, d.start ≤ k → ¬ FigureAt doc k) : ∃ e, findEnd doc d = .ok (some e) ∧ e = doc.length := by
  obtain ⟨e, he, -, h3⟩ := C118_partial h
  refine ⟨e, he, ?_⟩
  obtain ⟨e', he', h5, -⟩ := findEnd_total (sectionBeginning_found h)
  rw [he] at he'
  cases he'
  rcases h3 with h3 | ⟨l, hl, h4⟩ | ⟨k, h4, -, h6⟩
  · exact h3
  · exact absurd h4 (h1 l (List.mem_of_getElem? (by rw [List.getElem?_drop, show d.start + (e - d.start) = e by omega]; exact hl)))
  · exact absurd h6 (h2 k h4)

/-- A document with the numbers of a figure behind the references; `gap` are the lines between the lines of numbers. -/
def figureDoc (gap : List Str) : List Str :=
  [py! "References", py! "[1] A. Smith, Phys. Rev. D 1 (1999) 2", py! "[2] B. Jones, Nucl. Phys. B 3 (1998) 4", py! "0.0 0.5 1.0 1.5 2.0 2.5"] ++ gap ++
    [py! "10 20 30 40 50 60"] ++ gap ++ [py! "10 20 30 40 50 70"] ++ gap ++ [py! "10 20 30 40 50 80"]

/-- The numbers of the figure are four lines of numbers below each other, from line 3 on. -/
example : @FigureAt asciiDB (figureDoc []) 3 := by
  have h : @FigureAt asciiDB ((figureDoc []).drop 3) 0 := (@figure_iff asciiDB _ _).1 (by decide +kernel)
  intro i hi
  have := h i hi
  rwa [List.getElem?_drop, Nat.zero_add] at this

/-- Three lines of numbers do not end the section. -/
example : @extractFulltext asciiDB ((figureDoc []).take 6) =
    .ok ([py! "[1] A. Smith, Phys. Rev. D 1 (1999) 2", py! "[2] B. Jones, Nucl. Phys. B 3 (1998) 4 0.0 0.5 1.0 1.5 2.0 2.5 10 20 30 40 50 60 10 20 30 40 50 70"], 0) := by
  decide +kernel

omit [UnicodeDB] in
/-- **C118** is violated: the first line of the numbers of a figure becomes part of the last reference; and in a document with double line
spacing the whole figure does, although blank lines shall not count. -/
theorem C118_refuted :
    @extractFulltext asciiDB (figureDoc []) =
        .ok ([py! "[1] A. Smith, Phys. Rev. D 1 (1999) 2", py! "[2] B. Jones, Nucl. Phys. B 3 (1998) 4 0.0 0.5 1.0 1.5 2.0 2.5"], 0) ∧
      @extractFulltext asciiDB (figureDoc [[]]) =
        .ok ([py! "[1] A. Smith, Phys. Rev. D 1 (1999) 2", py! "[2] B. Jones, Nucl. Phys. B 3 (1998) 4 0.0 0.5 1.0 1.5 2.0 2.5 10 20 30 40 50 60 10 20 30 40 50 70 10 20 30 40 50 80"], 0) :=
  ⟨by decide +kernel, by decide +kernel⟩

end Props
