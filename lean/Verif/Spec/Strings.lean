import Verif.Spec.Rebuild
import Verif.Spec.Parse
import Verif.Spec.Record

/-!
# Vocabulary for the references of a string
-/

open Py
open scoped List

namespace Spec

/-- The characters that neither are white space nor hyphens, which join the lines of a word. -/
def body (s : Str) : Str := s.filter fun c => !isSpace c && c != '-'

/-- The lines of a text: without line feeds, and the text when joined by them. -/
def LinesOf (source : Str) (lines : List Str) : Prop :=
  lines ≠ [] ∧ (∀ l ∈ lines, '\n' ∉ l) ∧ source = join ['\n'] lines

/-- What an entry of the list says about its raw reference: it carries a single text, and this is, but for white
space and hyphens, part of the raw reference, its beginning if there are at most twenty-five lines, and all of it
if there is only one line that does not begin with white space. -/
def Accounts (line : Str) (entry : Field) : Prop :=
  ∃ t, vals entry (py! "raw_ref") = [t] ∧ body t <+ body line ∧ (line.count '\n' < 25 → body t <+: body line) ∧
    (line ≠ [] → NoSpaceFirst line → '\n' ∉ line → line.length ≤ 4300 → t = line ∨ Stripped line t)

end Spec
