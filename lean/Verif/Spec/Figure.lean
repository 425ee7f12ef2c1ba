import Verif.Spec.Find

/-!
# Specification vocabulary for the numbers at the axes of a figure
-/

open Py

namespace Spec

/-- Points, signs and crosses. -/
def signs : List Char := ['.', '-', '+', '×', '−']

/-- A digit. -/
def numeral [UnicodeDB] (c : Char) : Bool := isDigitC c && !signs.contains c

/-- A line of numbers: digits, more than ten of them, white space, points, signs and crosses. Only blanks may stand between digits, no other
white space. -/
structure NumbersLine [UnicodeDB] (l : Str) : Prop where
  chars : ∀ c ∈ l, isSpace c = true ∨ numeral c = true ∨ c ∈ signs
  many : 10 < l.countP numeral
  blanks : ∀ a c b, l = a ++ c :: b → isSpace c = true → c ≠ ' ' → (∀ x ∈ a, numeral x = false) ∨ ∀ x ∈ b, numeral x = false

/-- Four lines of numbers, one below the other, from line `k` of the document on. -/
def FigureAt [UnicodeDB] (doc : List Str) (k : Nat) : Prop := ∀ i < 4, ∃ l, doc[k + i]? = some l ∧ NumbersLine l

end Spec
