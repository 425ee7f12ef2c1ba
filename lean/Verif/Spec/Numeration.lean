import Verif.Spec.Transform

/-!
# Specification vocabulary for journal numeration (C57)
-/

namespace Spec
open Py

/-- A year from 1900 to 2099, with at most one letter in front. -/
def YearText [UnicodeDB] (y : Str) : Prop :=
  ∃ l c a b, y = l ++ c ++ [a, b] ∧ (l = [] ∨ ∃ x, l = [x] ∧ Letter x) ∧ (c = py! "19" ∨ c = py! "20") ∧
    isDec a = true ∧ isDec b = true

/-- A volume number: decimal digits, or letters of a roman numeral. -/
def VolumeText [UnicodeDB] (v : Str) : Prop :=
  Decimals v ∨ (v ≠ [] ∧ ∀ c ∈ v, c ∈ py! "IVXivx")

/-- A page: a text with a decimal digit. -/
def PageText [UnicodeDB] (p : Str) : Prop := ∃ c ∈ p, isDec c = true

/-- The text `x` is a contiguous part of `s`. -/
def PartOf (x s : Str) : Prop := ∃ a b, s = a ++ x ++ b

end Spec
