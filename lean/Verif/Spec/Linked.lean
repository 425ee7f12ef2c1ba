import Verif.Spec.Record
import Verif.Model.Transform

/-!
# Specification of linked records (C122)
-/

namespace Spec
open Py

/-- A linker that does not look at earlier answers and raises nothing but `KeyError` and `IndexError`. -/
structure Steady (link : Linker) : Prop where
  pure : ∀ e r, link { e with recid := r } = link e
  calm : ∀ e x, link e = .error x → x = .keyError ∨ x = .indexError

/-- A linker that finds a record for whatever it is asked. -/
def Finds (link : Linker) : Prop := ∀ e, ∃ id, link e = .ok (some id) ∧ id.truthy = true ∧ id.txt ≠ []

/-- The record holds the line and its marker only. -/
def OnlyLine (r : Field) : Prop := ∀ p ∈ r, p.1 = py! "linemarker" ∨ p.1 = py! "raw_ref"

/-- The record has no record id. -/
def Unlinked (r : Field) : Prop := ∀ p ∈ r, p.1 ≠ py! "recid"

/-- The second record is the first one, or the first one with one record id that the linker gave. -/
def SameButLinked (link : Linker) (r r' : Field) : Prop :=
  r' = r ∨ ∃ e id, link e = .ok (some id) ∧ id.truthy = true ∧ r' = r ++ [(py! "recid", [id.txt])]

end Spec
