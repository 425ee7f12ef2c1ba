import Verif.Py.Basic

/-!
# Vocabulary for knowledge bases
-/

open Py

namespace Spec

/-- Worker of `simultaneous`: `skip` characters of a token remain to be dropped. -/
def simGo (table : List (Str × Str)) : Nat → Str → Str
  | _, [] => []
  | k + 1, _ :: s => simGo table k s
  | 0, c :: s =>
    match table.find? fun p => p.1.isPrefixOf (c :: s) with
    | some p => p.2 ++ simGo table (p.1.length - 1) s
    | none => c :: simGo table 0 s

/-- Replace every token of the table, from left to right and all at once; where several tokens begin,
the first one in the table counts. -/
def simultaneous (table : List (Str × Str)) (s : Str) : Str := simGo table 0 s

/-- The tokens of a mask for report numbers and what they stand for. -/
def maskTable : List (Str × Str) :=
  [(py! "9", py! "\\d"), (py! "w+", py! "\\w+"), (py! "a", py! "[A-Za-z]"), (py! "v", py! "[Vv]"),
   (py! "mm", py! "(0[1-9]|1[0-2])"), (py! "yyyy", py! "[12]\\d{3}"), (py! "yy", py! "\\d\\d"), (py! "s", py! "\\s*"),
   (py! "/", py! "\\/")]

/-- No token begins in `a` and ends in `b`. -/
def NoStraddle (table : List (Str × Str)) (a b : Str) : Prop :=
  ∀ p ∈ table, ∀ x y, p.1 = x ++ y → x ≠ [] → y ≠ [] → ¬ (x <:+ a ∧ y <+: b)

/-- A class of characters, in square brackets. -/
def IsClass (w : Str) : Prop := ∃ body, w = '[' :: body ++ [']'] ∧ body ≠ [] ∧ ']' ∉ body

/-- The width of a mask: a class of characters counts as one character. -/
inductive Width : Str → Nat → Prop
  | nil : Width [] 0
  | cls {w s n} : IsClass w → Width s n → Width (w ++ s) (n + 1)
  | chr {c s n} : (∀ w s', c :: s = w ++ s' → ¬ IsClass w) → Width s n → Width (c :: s) (n + 1)

/-! ### Institutes -/

/-- The lines of a knowledge base of report numbers. -/
inductive ReportLine
  | institute
  | categ (raw std : Str)
  | mask (m : Str)
  | other

/-- The categories and masks of each institute; the lines before the first name count as one, too. -/
def institutes : List (Str × Str) → List Str → List ReportLine → List (List (Str × Str) × List Str)
  | cs, ms, [] => [(cs, ms)]
  | cs, ms, .institute :: r => (cs, ms) :: institutes [] [] r
  | cs, ms, .categ a b :: r => institutes (cs ++ [(a, b)]) ms r
  | cs, ms, .mask m :: r => institutes cs (ms ++ [m]) r
  | cs, ms, .other :: r => institutes cs ms r

/-- An institute counts if it has a category and a mask. -/
def Usable (p : List (Str × Str) × List Str) : Bool := !p.1.isEmpty && !p.2.isEmpty

/-- The last standard form given for a category. -/
def LastFor (c s : Str) (l : List (Str × Str)) : Prop := ∃ a b, l = a ++ (c, s) :: b ∧ c ∉ b.map (·.1)

end Spec
