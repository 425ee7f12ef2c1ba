import Verif.Py.Re
import Verif.Spec.Tag
import Verif.Spec.Lines

/-!
# Vocabulary for recognised titles
-/

open Py

namespace Spec

/-- The text `t` stands at position `i` of `l`. -/
def StandsAt (t l : Str) (i : Nat) : Prop := ∃ a b, l = a ++ t ++ b ∧ a.length = i

/-- The text `t` stands at position `i` of `l` and no word character is next to it on either side;
it is not at the end of the line and not after a slash. -/
def Alone [UnicodeDB] (t l : Str) (i : Nat) : Prop :=
  ∃ a c b, l = a ++ t ++ c :: b ∧ a.length = i ∧ (∀ x, a.getLast? = some x → isWord x = false ∧ x ≠ '/') ∧ isWord c = false

/-- Position `k` lies in one of the recorded texts. -/
def Covered (found : List (Nat × Str)) (k : Nat) : Prop := ∃ p ∈ found, p.1 ≤ k ∧ k < p.1 + p.2.length

/-- `l` is `line` with the recorded texts overwritten by underscores. -/
def Overwritten (found : List (Nat × Str)) (line l : Str) : Prop :=
  l.length = line.length ∧ (∀ k < line.length, Covered found k → l[k]? = some '_') ∧ (∀ k, ¬ Covered found k → l[k]? = line[k]?)

/-- No two of the recorded texts overlap. -/
def Disjoint (found : List (Nat × Str)) : Prop :=
  found.Pairwise fun p q => p.1 + p.2.length ≤ q.1 ∨ q.1 + q.2.length ≤ p.1

/-- A search term as it is compared with the line: capital letters, full stops made blanks. -/
def searchTerm [UnicodeDB] (s : Str) : Str := upper (s.map fun c => if c = '.' then ' ' else c)

/-- `t` is the standard title `s` as it is compared with the line: capital letters, punctuation made
blanks, no runs of white space, none at the ends. -/
def PlainTitle [UnicodeDB] (s t : Str) : Prop :=
  ∃ u, Squeezes ((upper s).map fun c => if c ∈ py! ".,;'()-" then ' ' else c) u ∧ NoDoubleSpace u ∧ t = strip u

/-- How `ibid.` is written in the working line. -/
def ReadsIbid (w : Str) : Prop :=
  ∃ a b c, w = a ++ py! "IBID" ++ b ++ c ∧ (a = [] ∨ a = ['-']) ∧ (b = [] ∨ b = py! "EM") ∧ (c = [] ∨ c = ['.'])

end Spec
