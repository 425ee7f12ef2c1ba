import Verif.Spec.Document
import Verif.Spec.Boundary
import Verif.Spec.Section
import Verif.Model.PdfFile

/-!
# Specification vocabulary for the text of a PDF file
-/

open Py

namespace Spec

/-- A line with its page break in front of its text: white space, a form feed, the text, which is not empty, and the end of the line if there is one. -/
def BreakAndText (l t : Str) : Prop :=
  t ≠ [] ∧ '\n' ∉ t ∧ ∃ w e, l = w ++ '\u000c' :: t ++ e ∧ (∀ c ∈ w, isSpace c = true) ∧ (e = [] ∨ e = ['\n'])

/-- What `pdftotext` writes for these pages: their lines, and a form feed behind every page. -/
def pagesText (pages : List (List Str)) : Str := pages.flatMap fun p => fileText ['\n'] p ++ ['\u000c']

/-- A page with text in its first line, and without page breaks in its lines. -/
structure TextPage (p : List Str) : Prop where
  first : ∃ l ls, p = l :: ls ∧ l ≠ []
  lines : ∀ l ∈ p, OneLine l ∧ '\u000c' ∉ l

/-- A page as it stands below its page break: the end of its first line is gone. -/
def belowBreak : List Str → List Str
  | [] => []
  | l :: ls => l :: ls.map fun x => x ++ ['\n']

/-- The bytes of a text in UTF-8. -/
def utf8 (t : Str) : Bytes := t.flatMap String.utf8EncodeChar

/-- The text of a string without its white space. -/
def solidText (s : Str) : Str := s.filter fun c => !isSpace c

end Spec
