import Verif.Spec.Parse
import Verif.Spec.Post
import Verif.Spec.Plain
import Verif.Spec.Document
import Verif.Spec.Rebuild

/-!
# Specification vocabulary for the rows of a knowledge base file (C112, C113)
-/

open Py
open scoped List

namespace Spec

/-- The line `l` is a row with the search term `p.1` and the replacement `p.2`: white space, the term, three hyphens, white space, the
replacement. The hyphens are the last ones with something behind them. -/
def KbRow (l : Str) (p : Str × Str) : Prop :=
  ∃ sp g, l = sp ++ p.1 ++ py! "---" ++ g ++ p.2 ∧ Spaces sp ∧ Spaces g ∧ p.1 ≠ [] ∧ NoSpaceFirst p.1 ∧ p.2 ≠ [] ∧ NoSpaceFirst p.2 ∧
    ∀ x y, py! "---" ++ g ++ p.2 = x ++ py! "---" ++ y → x ≠ [] → Spaces y

/-- The text of a file has these lines: each is ended by a line feed, a carriage return or both, the last one perhaps by nothing. -/
inductive FileLines : Str → List Str → Prop
  | nil : FileLines [] []
  | last {b} : OneLine b → b ≠ [] → FileLines b [b]
  | cons {b nl t ls} : OneLine b → nl ∈ lineEnds → (nl = ['\r'] → t.head? ≠ some '\n') → FileLines t ls → FileLines (b ++ nl ++ t) (b :: ls)

/-- The lines that are not comments. -/
def DataLines (ls : List Str) : List Str := ls.filter fun l => l.head? ≠ some '#'

/-- The row of a line, if it is one. -/
def RowOf (l : Str) : Option (Str × Str) → Prop
  | some p => KbRow l p
  | none => ∀ p, ¬ KbRow l p

/-- A pair of terms that can be written as a row of a file. -/
structure Writable (p : Str × Str) : Prop where
  lines : OneLine p.1 ∧ OneLine p.2
  term : p.1 ≠ [] ∧ NoSpaceFirst p.1 ∧ p.1.head? ≠ some '#'
  repl : p.2 ≠ [] ∧ NoSpaceFirst p.2
  hyphens : ∀ x y, py! "---" ++ p.2 = x ++ py! "---" ++ y → x ≠ [] → Spaces y

/-- The row. -/
def rowText (p : Str × Str) : Str := p.1 ++ py! "---" ++ p.2

end Spec
