import Verif.Py.Re
import Verif.Spec.Basic
import Verif.Spec.Lines

/-!
# Specification vocabulary for the rebuilding of reference lines
-/

open Py

namespace Spec

/-- The characters of a text that are not white space. -/
def ink (s : Str) : Str := s.filter fun c => !isSpace c

/-- `t` is `s` without white space at its ends. -/
def Stripped (s t : Str) : Prop :=
  ∃ a b, s = a ++ t ++ b ∧ (∀ c ∈ a ++ b, isSpace c = true) ∧ (∀ c, t.head? = some c → isSpace c = false) ∧
    ∀ c, t.getLast? = some c → isSpace c = false

/-- The text of lines joined one after the other (see `Glued`). -/
inductive Joins : List Str → Str → Prop
  | nil : Joins [] []
  | snoc {ps : List Str} {x g p t : Str} : Joins ps x → Glued x g → Stripped p t → Joins (ps ++ [p]) (g ++ t)

/-- What is left of a piece: the characters that are not white space, without final hyphens. -/
def Rest (p q : Str) : Prop := ∃ k, ink p = q ++ List.replicate k '-'

/-- Like `Rest`, with at most one hyphen. -/
def Rest1 (p q : Str) : Prop := ink p = q ∨ ink p = q ++ ['-']

/-- A reference made of pieces: at most the first twenty-five are used. -/
def RefOf (ps : List Str) (ref : Str) : Prop :=
  ps ≠ [] ∧ ∃ x b, Joins (ps.take 25) x ∧ x = ref ++ b ∧ (∀ c ∈ b, isSpace c = true) ∧
    ∀ c, ref.getLast? = some c → isSpace c = false

/-- A line cut into at most two pieces. -/
def Cut (line : Str) (ps : List Str) : Prop := ps.flatten = line ∧ ps.length ≤ 2

/-- The lines of a reference: the line in which it starts, the position of its marker there, and
the lines up to the start of the next reference. -/
structure Block where
  head : Str
  pos : Nat
  rest : List Str

/-- The pieces of the references: what stands before the first marker, and what stands from each
marker up to the next. -/
def blockPieces : List Str → List Block → List (List Str)
  | w, [] => [w]
  | w, b :: bs => (w ++ [b.head.take b.pos]) :: blockPieces (b.head.drop b.pos :: b.rest) bs

/-- A list of pieces without empty ones. -/
def solidPieces (ps : List Str) : List Str := ps.filter fun p => !p.isEmpty

/-- The first match of the pattern in the line starts at `k` and its number (group `g`) is `n`. -/
def MarkAt [UnicodeDB] (re : Re) (g : Nat) (line : Str) (k n : Nat) : Prop :=
  ∃ m t, search re line = some m ∧ m.start = k ∧ m.group g = some t ∧ pyInt t = .ok n

/-- The blocks carry the numbers `c + 1`, `c + 2`, …, and none of the other lines of a block carries
the number that comes next. -/
def NumberedFrom [UnicodeDB] (re : Re) (g : Nat) (c : Nat) (bs : List Block) : Prop :=
  ∀ i b, bs[i]? = some b → MarkAt re g b.head b.pos (c + i + 1) ∧ ∀ l ∈ b.rest, ∀ k, ¬ MarkAt re g l k (c + i + 2)

/-- Lines separated by runs of blank lines. -/
inductive Blocks : List Str → List (List Str) → Prop
  | nil : Blocks [] []
  | blank {l : Str} {ls : List Str} {bs : List (List Str)} : isspace l = true → Blocks ls bs → Blocks (l :: ls) bs
  | last {b : List Str} : b ≠ [] → (∀ l ∈ b, isspace l = false) → Blocks b [b]
  | block {b ls : List Str} {l : Str} {bs : List (List Str)} : b ≠ [] → (∀ l ∈ b, isspace l = false) →
      isspace l = true → Blocks ls bs → Blocks (b ++ l :: ls) (b :: bs)

end Spec
