import Verif.Py.Basic
import Verif.Spec.Basic

/-!
# Vocabulary for finding book titles
-/

open Py

namespace Spec

/-- A letter from A to Z or a digit from 0 to 9. -/
def Alnum (c : Char) : Prop := c ∈ py! "ABCDEFGHIJKLMNOPQRSTUVWXYZ0123456789"

instance (c : Char) : Decidable (Alnum c) := inferInstanceAs (Decidable (c ∈ _))

/-- The letters and digits of a text. -/
def alnums (s : Str) : Str := s.filter fun c => decide (Alnum c)

/-- The text begins with a letter or digit. -/
def AlnumFirst (s : Str) : Prop := ∃ c r, s = c :: r ∧ Alnum c

/-- The text ends with a letter or digit. -/
def AlnumLast (s : Str) : Prop := ∃ r c, s = r ++ [c] ∧ Alnum c

/-- A blank, an opening bracket, a letter or a digit, where the punctuation behind a title ends. -/
def EndsPunct (c : Char) : Prop :=
  c ∈ py! " [{(" ∨ c ∈ py! "ABCDEFGHIJKLMNOPQRSTUVWXYZ0123456789" ∨ c ∈ py! "abcdefghijklmnopqrstuvwxyz"

instance (c : Char) : Decidable (EndsPunct c) := inferInstanceAs (Decidable (_ ∨ _))

/-- Putting the text in upper case changes no position. -/
def EvenUpper [UnicodeDB] (s : Str) : Prop := ∀ c ∈ s, (upperC c).length = 1

end Spec
