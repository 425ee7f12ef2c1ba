import Verif.Lemmas.Section3
import Verif.Props.Numbered

/-!
# Documents with a numbered list of references: C96
-/

namespace Props
open Py Spec
open scoped List

/-- **C96.** The reference lines of a document whose reference section is a list numbered in square brackets, under a line with a title
and up to four empty lines, are exactly the references of that list. Missing: documents with page breaks, in which another line opens with the title of a reference section,
or in which the last reference has a line that opens like the title of another section. -/
theorem C96_lines_partial [UnicodeDB] (body : List Str) (heading : Str) (gap : Nat) (entries : List Entry) (after : List Str)
    (h : PlainDocument body heading gap entries after) (source : Str) (hs : LinesOf source (documentLines body heading gap entries after)) :
    ∃ lines, stringLines false source = .ok lines ∧
      All2 (fun p line => RefOf (solidPieces (entryLines p)) line) (numbered 1 entries) lines := by
  obtain ⟨h1, h2, rfl⟩ := hs
  refine ⟨(numbered 1 entries).map fun p => prepareRef (solidPieces (entryLines p)), ?_, ?_⟩
  · simp only [stringLines, Bool.false_eq_true, if_false, splitOn_lines h1 h2, plainDocument_lines h, okBind]
    rfl
  generalize numbered 1 entries = ps
  induction ps with
  | nil => exact .nil
  | cons p ps ih =>
    refine .cons (refOf_prepare ?_) ih
    rw [entryLines, solid_cons]
    simp [unlessEmpty, bracketed]

/-- **C96.** The references extracted from such a document are made of one block for each reference of the list, in their order: every
reference in the block carries the number of the list as its marker, and as its text exactly the lines of the reference. Nothing
in front of the title and nothing behind the list is in them. -/
theorem C96_partial [UnicodeDB] (undesirable : Str → Str) (hu : KeepsNumber undesirable) (lib : Lib) (kbs : Kbs) (fmt : List FmtPart)
    (link : Option Linker) (body : List Str) (heading : Str) (gap : Nat) (entries : List Entry) (after : List Str)
    (h : PlainDocument body heading gap entries after) (source : Str) (hs : LinesOf source (documentLines body heading gap entries after))
    (refs : List Field) (hr : fromString undesirable lib kbs fmt link false source = .ok refs) :
    ∃ blocks : List (List Field), refs = blocks.flatten ∧
      All2 (fun p block => block ≠ [] ∧ ∃ text, RefOf (solidPieces (entryLines p)) text ∧
        ∀ r ∈ block, vals r (py! "raw_ref") = [text] ∧ vals r (py! "linemarker") = [decimal p.1]) (numbered 1 entries) blocks := by
  obtain ⟨lines, h1, hr⟩ := bind_ok hr
  obtain ⟨⟨rs, stats⟩, h2, hr⟩ := bind_ok hr
  have e : refs = rs := by simpa [Pure.pure, Except.pure] using hr.symm
  subst e
  obtain ⟨g1, g2, rfl⟩ := hs
  simp only [stringLines, Bool.false_eq_true, if_false, splitOn_lines g1 g2, plainDocument_lines h, okBind] at h1
  cases h1
  exact entry_blocks hu h2

/-- The text before the references, which mentions one of them. -/
def shortBody : List Str := [py! "Introduction", py! "As is known [1], and from the references [2],", py! "this holds."]

example : @PlainDocument asciiDB shortBody (py! " REFERENCES ") 2 threeEntries [py! "Appendix", py! "Figures are here"] := by
  letI := asciiDB
  refine ⟨by unfold Heading; decide +kernel, by decide, by simp [threeEntries], by decide +kernel, ?_, by decide +kernel, ?_, by decide +kernel, ?_, ?_, ?_⟩
  · intro b hb l hl
    apply bareBrackets_free
    revert b l
    decide +kernel
  · intro l hl
    have key : ∀ l ∈ shortBody ++ listLines threeEntries ++ [py! "Appendix", py! "Figures are here"],
        ∃ c ∈ l, isSpace c = false := by decide +kernel
    obtain ⟨c, hc, hn⟩ := key l hl
    rintro ⟨h1, -⟩
    rw [h1 c hc] at hn
    cases hn
  · intro b hb l hl
    have key : ∀ b ∈ threeEntries, ∀ l ∈ b.more, ∃ c ∈ l, isSpace c = false ∧ isDigitC c = false ∧ c ∉ ['.', '-', '+', '×', '−'] := by
      decide +kernel
    obtain ⟨c, hc, hn⟩ := key b hb l hl
    exact axis_not hc hn
  · intro b hb
    have : b = ⟨py! " C. Doe", []⟩ := by simpa [threeEntries] using hb.symm
    subst this
    decide +kernel
  · rintro l rest ⟨⟩
    refine ⟨by unfold Closing; decide +kernel, fun x hx => bareBrackets_free ?_⟩
    revert x
    decide +kernel

example : @stringLines asciiDB false (py! "Introduction\nAs is known [1], and from the references [2],\nthis holds.\n REFERENCES \n\n\n[1] A. Smith, foo\n[2] B. Jones,\n  bar [a] (3)\n[3] C. Doe\nAppendix\nFigures are here") =
    .ok [py! "[1] A. Smith, foo", py! "[2] B. Jones, bar [a] (3)", py! "[3] C. Doe"] := by decide +kernel

/-- The references of a document: their markers and their texts. -/
def documentTexts (source : Str) : Py (List (List Str × List Str)) :=
  (@fromString asciiDB id plainLib emptyKbs defaultFormat none false source).map fun rs =>
    rs.map fun r => (vals r (py! "linemarker"), vals r (py! "raw_ref"))

/-- **C96 fails** when the last reference begins like the title of another section: it is lost. -/
theorem C96_refuted : documentTexts (py! "Introduction\nReferences\n[1] A. Smith, foo\n[2] B. Jones\n[3] Tables of integrals") =
    .ok [([py! "1"], [py! "[1] A. Smith, foo"]), ([py! "2"], [py! "[2] B. Jones"])] := by
  decide +kernel

/-- **C96 fails** when a further line of the last reference begins like such a title: the reference is cut there. A letter in
front of the word makes no difference. -/
theorem C96_refuted_cut : documentTexts (py! "Introduction\nReferences\n[1] A. Smith, foo\n[2] B. Jones, Solutions in the\nstable case") =
    .ok [([py! "1"], [py! "[1] A. Smith, foo"]), ([py! "2"], [py! "[2] B. Jones, Solutions in the"])] := by
  decide +kernel

end Props
