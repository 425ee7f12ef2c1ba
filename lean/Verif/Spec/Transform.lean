import Verif.Spec.Basic
import Verif.Py.Basic

/-!
# Specification vocabulary for the element transformations
-/

namespace Spec
open Py

/-- The roman numeral of a number below ten; empty for zero. -/
def romanUnit : Nat → Str
  | 1 => py! "I" | 2 => py! "II" | 3 => py! "III" | 4 => py! "IV" | 5 => py! "V"
  | 6 => py! "VI" | 7 => py! "VII" | 8 => py! "VIII" | 9 => py! "IX" | _ => []

/-- The roman numeral of `n` written with I, V and X. For `n < 40` it is the usual one. -/
def roman (n : Nat) : Str := List.replicate (n / 10) 'X' ++ romanUnit (n % 10)

/-- `v` is `w` with each letter in upper or lower case; `w` is written in upper case. -/
def AnyCase (v w : Str) : Prop := All2 (fun c d => c = d ∨ c = d.toLower) v w

/-- The text consists of letters I, V, X, in any case, up to one final line feed. -/
def LooksRoman (v : Str) : Prop :=
  ∃ w, w ≠ [] ∧ (∀ c ∈ w, c ∈ py! "IVXivx") ∧ (v = w ∨ v = w ++ ['\n'])

/-- A letter of the English alphabet, in either case. -/
def Letter (c : Char) : Prop := ('a' ≤ c ∧ c ≤ 'z') ∨ ('A' ≤ c ∧ c ≤ 'Z')

/-- The decimal number `n`. -/
def decimal (n : Nat) : Str := (toString n).toList

/-- Value of a string of decimal digits of any script. -/
def value [UnicodeDB] (s : Str) : Nat := s.foldl (fun n c => n * 10 + (decVal c).getD 0) 0

/-- Non-empty string of decimal digits of any script. -/
def Decimals [UnicodeDB] (s : Str) : Prop := s ≠ [] ∧ ∀ c ∈ s, isDec c = true

/-- Non-empty string of the digits 0 to 9. -/
def Digits (s : Str) : Prop := s ≠ [] ∧ ∀ c ∈ s, c.isDigit = true

/-- `t` is `s` with one hyphen inserted between the letters and hyphens at its start and
the digits and hyphens at its end. -/
def HyphenInserted [UnicodeDB] (s t : Str) : Prop :=
  ∃ a b, s = a ++ b ∧ t = a ++ '-' :: b ∧ a ≠ [] ∧ b ≠ [] ∧
    (∀ c ∈ a, ('A' ≤ c ∧ c ≤ 'Z') ∨ c = '-') ∧ (∀ c ∈ b, isDec c = true ∨ c = '-')

/-- The six archive names whose separator is replaced. -/
def archives : List Str :=
  [py! "astro-ph", py! "hep-th", py! "hep-ph", py! "hep-ex", py! "hep-lat", py! "math-ph"]

/-- `t` is `s` with the hyphen after the archive name at its start replaced by a slash. -/
def SlashForHyphen (s t : Str) : Prop :=
  ∃ a ∈ archives, ∃ b, s = a ++ '-' :: b ∧ t = a ++ '/' :: b

end Spec
