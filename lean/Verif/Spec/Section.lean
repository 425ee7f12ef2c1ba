import Verif.Spec.Numbered
import Verif.Spec.Boundary
import Verif.Spec.Find

/-!
# Specification vocabulary for documents with a numbered list of references
-/

open Py

namespace Spec
open scoped List

/-- Titles of a reference section that fill a line, in lower case. -/
def headings : List Str :=
  [py! "references", py! "bibliography", py! "bibliographie", py! "literaturverzeichnis", py! "citations", py! "refs", py! "reference"]

/-- A line with a title of a reference section, in any case, and nothing else but white space around it. -/
def Heading (l : Str) : Prop := (strip l).map Char.toLower ∈ headings

/-- Titles of a section behind the references that fill a line, in lower case. -/
def closings : List Str :=
  [py! "appendix", py! "appendices", py! "acknowledgement", py! "acknowledgements", py! "acknowledgment", py! "acknowledgments",
   py! "table", py! "tables", py! "figure", py! "figures", py! "annex", py! "discussion", py! "index", py! "summary"]

/-- A line with the title of a section behind the references, in any case, and nothing else but white space around it. -/
def Closing (l : Str) : Prop := (strip l).map Char.toLower ∈ closings

/-- The words with which a line is taken for the title of a section behind the references. -/
def closingWords : List Str :=
  [py! "appendi", py! "Appendi", py! "acknowledg", py! "tab", py! "fig", py! "list of figure", py! "annex", py! "discussion", py! "remercie",
   py! "index", py! "summary", py! "onclusion"]

/-- The lines of a document: the text before the title, the line with the title, empty lines, the references, and the text behind them. -/
def documentLines (body : List Str) (heading : Str) (gap : Nat) (entries : List Entry) (after : List Str) : List Str :=
  body ++ heading :: (List.replicate gap [] ++ (listLines entries ++ after))

/-- A document from which the reference section can be taken. There are at most four empty lines behind the title; there is no page break; no
other line opens with a title of a reference section; numbers in square brackets do not stand in further lines of the references;
references but the last have less than 200 lines; no line of the last reference opens with a word of `closingWords` and no further line is
made of numbers only; the text behind, if any, begins with a closing title and has no number in square brackets. -/
structure PlainDocument [UnicodeDB] (body : List Str) (heading : Str) (gap : Nat) (entries : List Entry) (after : List Str) : Prop where
  heading : Heading heading
  gap : gap ≤ 4
  nonempty : entries ≠ []
  short : ∀ l ∈ listLines entries, l.length ≤ 4300
  free : ∀ b ∈ entries, ∀ l ∈ b.more, NoBracketNumber l
  untitled : ∀ l ∈ body ++ listLines entries ++ after, ∀ t ∈ sectionTitles, opensWith t l 13 = false
  unbroken : ∀ l ∈ body ++ listLines entries ++ after, ¬ BreakLine l
  near : ∀ b ∈ entries.dropLast, b.more.length < 199
  worded : ∀ b ∈ entries, ∀ l ∈ b.more, ¬ AxisLine l
  last : ∀ b, entries.getLast? = some b → ∀ l ∈ entryLines (entries.length, b), ∀ t ∈ closingWords, opensWith t l 3 = false
  closed : ∀ l rest, after = l :: rest → Closing l ∧ ∀ x ∈ rest, NoBracketNumber x

end Spec
