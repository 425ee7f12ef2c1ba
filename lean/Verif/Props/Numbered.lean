import Verif.Lemmas.Numbered4
import Verif.Props.Strings

/-!
# Numbered lists of references: C95
-/

namespace Props
open Py Spec
open scoped List

/-- **C95.** The reference lines of a list numbered in square brackets are its references: one for each, in their order,
made of exactly its lines. Missing: further lines in which a number in square brackets stands, lines that open with the title of a
section behind at most thirteen characters, and a first reference of more than ten lines. -/
theorem C95_lines_partial [UnicodeDB] (entries : List Entry) (h : PlainList entries) (source : Str) (hs : LinesOf source (listLines entries)) :
    ∃ lines, stringLines true source = .ok lines ∧
      All2 (fun p line => RefOf (solidPieces (entryLines p)) line) (numbered 1 entries) lines := by
  refine ⟨_, plainList_lines h hs, ?_⟩
  generalize numbered 1 entries = ps
  induction ps with
  | nil => exact .nil
  | cons p ps ih =>
    refine .cons (refOf_prepare ?_) ih
    rw [entryLines, solid_cons]
    simp [unlessEmpty, bracketed]

/-- **C95.** The references extracted from such a list are made of one block for each, in their order: every reference in
the block carries the number of the list as its marker, and as its text exactly the lines of the reference. -/
theorem C95_partial [UnicodeDB] (undesirable : Str → Str) (hu : KeepsNumber undesirable) (lib : Lib) (kbs : Kbs) (fmt : List FmtPart)
    (link : Option Linker) (entries : List Entry) (h : PlainList entries) (source : Str) (hs : LinesOf source (listLines entries))
    (refs : List Field) (hr : fromString undesirable lib kbs fmt link true source = .ok refs) :
    ∃ blocks : List (List Field), refs = blocks.flatten ∧
      All2 (fun p block => block ≠ [] ∧ ∃ text, RefOf (solidPieces (entryLines p)) text ∧
        ∀ r ∈ block, vals r (py! "raw_ref") = [text] ∧ vals r (py! "linemarker") = [decimal p.1]) (numbered 1 entries) blocks := by
  obtain ⟨lines, h1, hr⟩ := bind_ok hr
  obtain ⟨⟨rs, stats⟩, h2, hr⟩ := bind_ok hr
  have e : refs = rs := by simpa [Pure.pure, Except.pure] using hr.symm
  subst e
  rw [plainList_lines h hs] at h1
  cases h1
  exact entry_blocks hu h2

/-- Three references, the second on two lines. -/
def threeEntries : List Entry := [⟨py! " A. Smith, foo", []⟩, ⟨py! " B. Jones,", [py! "  bar [a] (3)"]⟩, ⟨py! " C. Doe", []⟩]

/-- No opening bracket of the text is followed by white space or by a digit. -/
def bareBrackets [UnicodeDB] : Str → Bool
  | [] => true
  | c :: s => !(c == '[' && s.head?.any fun d => isSpace d || isDec d) && bareBrackets s

theorem bareBrackets_free [UnicodeDB] {l : Str} (h : bareBrackets l = true) : NoBracketNumber l := by
  have key : ∀ x d y, l = x ++ '[' :: d :: y → isSpace d = false ∧ isDec d = false := by
    intro x
    induction x generalizing l with
    | nil =>
      rintro d y rfl
      simp [bareBrackets] at h
      exact h.1
    | cons z x ih =>
      rintro d y rfl
      refine ih ?_ d y rfl
      rw [List.cons_append, bareBrackets, Bool.and_eq_true] at h
      exact h.2
  intro a n c ha hn hc hi
  obtain ⟨x, y, rfl⟩ := hi
  obtain ⟨hn0, hn⟩ := hn
  cases a with
  | cons z a =>
    have := (key x z (a ++ n ++ c ++ [']'] ++ y) (by simp)).1
    rw [ha z (by simp)] at this
    cases this
  | nil =>
    cases n with
    | nil => exact hn0 rfl
    | cons z n =>
      have := (key x z (n ++ c ++ [']'] ++ y) (by simp)).2
      rw [hn z (by simp)] at this
      cases this

example : @PlainList asciiDB threeEntries := by
  letI := asciiDB
  refine ⟨by simp [threeEntries], by decide +kernel, ?_, by decide +kernel, .inl (by decide +kernel)⟩
  intro b hb l hl
  apply bareBrackets_free
  revert b l
  decide +kernel

example : @stringLines asciiDB true (py! "[1] A. Smith, foo\n[2] B. Jones,\n  bar [a] (3)\n[3] C. Doe") =
    .ok [py! "[1] A. Smith, foo", py! "[2] B. Jones, bar [a] (3)", py! "[3] C. Doe"] := by decide +kernel

/-- The references of a text: their markers and their texts. -/
def marksAndTexts (source : Str) : Py (List (List Str × List Str)) :=
  (@fromString asciiDB id plainLib emptyKbs defaultFormat none true source).map fun rs =>
    rs.map fun r => (vals r (py! "linemarker"), vals r (py! "raw_ref"))

/-- **C95 fails** when the number that comes next is mentioned in a further line: the reference is cut there. -/
theorem C95_refuted : marksAndTexts (py! "[1] A. Smith, foo,\nsee also [2] and bar\n[2] B. Jones") =
    .ok [([py! "1"], [py! "[1] A. Smith, foo, see also"]), ([py! "2"], [py! "[2] and bar [2] B. Jones"])] := by
  decide +kernel

/-- **C95 fails** when a further line is the title of a section: that line is taken for a reference of its own. -/
theorem C95_refuted_title : marksAndTexts (py! "[1] A. Smith, On\nReferences\n[2] B. Jones,\nGesammelte Werke") =
    .ok [([py! "1"], [py! "[1] A. Smith, On"]), ([], [py! "References"]), ([py! "2"], [py! "[2] B. Jones, Gesammelte Werke"])] := by
  decide +kernel

/-- **C95 fails** with the title in front of the list: it is a reference as well. -/
theorem C95_refuted_heading : marksAndTexts (py! "References\n[1] A. Smith, foo\n[2] B. Jones") =
    .ok [([], [py! "References"]), ([py! "1"], [py! "[1] A. Smith, foo"]), ([py! "2"], [py! "[2] B. Jones"])] := by
  decide +kernel

end Props
