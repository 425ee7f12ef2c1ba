import Verif.Py.Basic

/-!
# Specification vocabulary for written numerations (C61)
-/

namespace Spec
open Py

/-- A number written with the digits from 0 to 9. -/
abbrev AsciiDigits (v : Str) : Prop := v ≠ [] ∧ ∀ c ∈ v, c ∈ py! "0123456789"

/-- A year from 1900 to 2099. -/
abbrev AsciiYear (y : Str) : Prop := ∃ c a b, y = c ++ [a, b] ∧ (c = py! "19" ∨ c = py! "20") ∧ AsciiDigits [a, b]

/-- What a numeration tells. -/
structure Told where
  series : Option Str
  volume : Str
  year : Str
  page : Str
  last : Option Str
deriving DecidableEq, Repr

/-- Ways to write a numeration: a volume with or without a series letter in front, a year in
brackets and a page or a range of pages. -/
inductive Written : Str → Told → Prop
  | volYearPage (v y p : Str) : AsciiDigits v → AsciiYear y → AsciiDigits p → Written (v ++ py! " (" ++ y ++ py! ") " ++ p) ⟨none, v, y, p, none⟩
  | volYearPageTight (v y p : Str) : AsciiDigits v → AsciiYear y → AsciiDigits p → Written (v ++ py! "(" ++ y ++ py! ")" ++ p) ⟨none, v, y, p, none⟩
  | volYearPages (v y p q : Str) : AsciiDigits v → AsciiYear y → AsciiDigits p → AsciiDigits q →
      Written (v ++ py! " (" ++ y ++ py! ") " ++ p ++ py! "-" ++ q) ⟨none, v, y, p, some q⟩
  | volPageYear (v y p : Str) : AsciiDigits v → AsciiYear y → AsciiDigits p → Written (v ++ py! ", " ++ p ++ py! " (" ++ y ++ py! ")") ⟨none, v, y, p, none⟩
  | volPageYearBlank (v y p : Str) : AsciiDigits v → AsciiYear y → AsciiDigits p → Written (v ++ py! " " ++ p ++ py! " (" ++ y ++ py! ")") ⟨none, v, y, p, none⟩
  | volPageYearColon (v y p : Str) : AsciiDigits v → AsciiYear y → AsciiDigits p → Written (v ++ py! ":" ++ p ++ py! " (" ++ y ++ py! ")") ⟨none, v, y, p, none⟩
  | volPagesYear (v y p q : Str) : AsciiDigits v → AsciiYear y → AsciiDigits p → AsciiDigits q →
      Written (v ++ py! ", " ++ p ++ py! "-" ++ q ++ py! " (" ++ y ++ py! ")") ⟨none, v, y, p, some q⟩
  | seriesYearPage (x : Char) (v y p : Str) : x ∈ py! "ABCDEFGH" → AsciiDigits v → AsciiYear y → AsciiDigits p →
      Written (x :: v ++ py! " (" ++ y ++ py! ") " ++ p) ⟨some [x], v, y, p, none⟩
  | seriesBlankYearPage (x : Char) (v y p : Str) : x ∈ py! "ABCDEFGH" → AsciiDigits v → AsciiYear y → AsciiDigits p →
      Written (x :: ' ' :: v ++ py! " (" ++ y ++ py! ") " ++ p) ⟨some [x], v, y, p, none⟩
  | seriesPageYear (x : Char) (v y p : Str) : x ∈ py! "ABCDEFGH" → AsciiDigits v → AsciiYear y → AsciiDigits p →
      Written (x :: v ++ py! ", " ++ p ++ py! " (" ++ y ++ py! ")") ⟨some [x], v, y, p, none⟩

/-- The end of a text, or punctuation and anything. -/
def Stops (rest : Str) : Prop := ∀ c, rest.head? = some c → c ∈ py! ".,;)]"

end Spec
