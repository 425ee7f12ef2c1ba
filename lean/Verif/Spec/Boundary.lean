import Verif.Spec.Basic
import Verif.Py.Basic

/-!
# Specification vocabulary for page headers and footers
-/

open Py

namespace Spec

/-- A page break: a line of white space with a form feed. -/
def BreakLine (l : Str) : Prop := (∀ c ∈ l, isSpace c = true) ∧ Char.ofNat 12 ∈ l

/-- A document cut into pages: the first page, then page breaks each followed by a page. -/
structure Paged (doc first : List Str) (rest : List (Str × List Str)) : Prop where
  whole : doc = first ++ rest.flatMap fun p => p.1 :: p.2
  breaks : ∀ p ∈ rest, BreakLine p.1
  first : ∀ l ∈ first, ¬ BreakLine l
  pages : ∀ p ∈ rest, ∀ l ∈ p.2, ¬ BreakLine l

/-- A page without its first `nh` and last `nf` lines. -/
def trimPage (nh nf : Nat) (p : List Str) : List Str := (p.drop nh).take (p.length - nh - nf)

/-- A character of a word. -/
def wordChar (c : Char) : Bool := c.isAlphanum || c == '-'

/-- The words of a line, from left to right. -/
inductive Words : Str → List Str → Prop
  | nil : Words [] []
  | other {c s ws} : wordChar c = false → Words s ws → Words (c :: s) ws
  | word {w s ws} : w ≠ [] → (∀ c ∈ w, wordChar c = true) → (∀ c, s.head? = some c → wordChar c = false) →
      Words s ws → Words (w ++ s) (w :: ws)

/-- Two numbers, or two words with the same first and the same last letter up to case. -/
def wordAlike (a b : Str) : Bool :=
  (a.all Char.isDigit && b.all Char.isDigit) ||
    (a.head?.map Char.toLower == b.head?.map Char.toLower && a.getLast?.map Char.toLower == b.getLast?.map Char.toLower)

/-- A line of white space. -/
def Blank (l : Str) : Prop := l ≠ [] ∧ ∀ c ∈ l, isSpace c = true

/-- How alike two lines have to be to count as repeated: the first is blank and the second has
no words, or both have the same number of words, nine tenths of which are alike. -/
def Repeats (a b : Str) : Prop :=
  ∃ ws vs, Words a ws ∧ Words b vs ∧ (Blank a → vs = []) ∧
    (¬ Blank a → ws.length = vs.length ∧ ws ≠ [] ∧
      9 * ws.length ≤ 10 * ((ws.zip vs).countP fun p => wordAlike p.1 p.2))

/-- The lines below the `j`-th page break. -/
def below (rest : List (Str × List Str)) (j : Nat) : List Str := ((rest.drop j).flatMap fun p => p.1 :: p.2).tail

/-- The lines above the `j`-th page break, from the bottom up. -/
def above (first : List Str) (rest : List (Str × List Str)) (j : Nat) : List Str :=
  (first ++ (rest.take j).flatMap fun p => p.1 :: p.2).reverse

/-- The `k`-th line below the second page break belongs to the page header: it repeats below the
later page breaks (every second one of them if there are more than four), the last excepted. -/
def HeadLine (rest : List (Str × List Str)) (k : Nat) : Prop :=
  4 ≤ rest.length ∧ ∃ p a, rest[1]? = some p ∧ p.2[k]? = some a ∧
    ∀ j, 1 < j → j + 1 < rest.length → (rest.length = 4 ∨ j % 2 = 1) → ∃ b, (below rest j)[k]? = some b ∧ Repeats a b

/-- The `k`-th line above the second page break belongs to the page footer: it repeats above all
later page breaks. -/
def FootLine (first : List Str) (rest : List (Str × List Str)) (k : Nat) : Prop :=
  3 ≤ rest.length ∧ ∃ a, (above first rest 1)[k]? = some a ∧
    ∀ j, 1 < j → j < rest.length → ∃ b, (above first rest j)[k]? = some b ∧ Repeats a b

/-- The number of header or footer lines: the first line that does not belong to them. -/
def Count (P : Nat → Prop) (n : Nat) : Prop := (∀ k < n, P k) ∧ ¬ P n

end Spec
