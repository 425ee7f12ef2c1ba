import Verif.Spec.Section
import Verif.Spec.PdfFile

/-!
# Specification vocabulary for documents in files
-/

open Py

namespace Spec

/-- The content of a text file with these lines, each ended by `nl`. -/
def fileText (nl : Str) (lines : List Str) : Str := lines.flatMap fun l => l ++ nl

/-- The ends of lines in text files. -/
def lineEnds : List Str := [['\n'], ['\r', '\n'], ['\r']]

/-- Lines: there is no end of line in them. -/
def OneLine (l : Str) : Prop := '\n' ∉ l ∧ '\r' ∉ l

/-- No line in front of an empty line ends with a hyphen. -/
def Unhyphenated : List Str → Prop
  | a :: b :: ls => (b = [] → (strip a).getLast? ≠ some '-') ∧ Unhyphenated (b :: ls)
  | _ => True

/-- The lines of a reference among which empty lines do not matter: there is none, or there are at most 25 lines, those of white space are
empty, and no line in front of an empty one ends with a hyphen. -/
def Airy (ls : List Str) : Prop :=
  (∀ l ∈ ls, l ≠ []) ∨ (ls.length ≤ 25 ∧ (∀ l ∈ ls, strip l = [] → l = []) ∧ Unhyphenated ls)

end Spec
