import Verif.Model.KbCache

/-!
# Specification vocabulary for the knowledge-base cache
-/

open Py

namespace Spec

/-- One thing that happens to the program: a request for knowledge bases with some overrides
while the objects have the contents `st`, or the tagging of a line. -/
inductive Act (α : Type) where
  | request (st : Store α) (o : Overrides)
  | tag

/-- The environment of a run. -/
structure Env (α L : Type) where
  ld : Loader α L
  empty : α → Bool
  dir : Str
  upd : L → L → L

variable {α L : Type}

/-- An override that is present and not empty. -/
def Given (E : Env α L) (st : Store α) (o : Overrides) (k : Str) (kb : KbArg) : Prop :=
  (k, some kb) ∈ o ∧ match kb with
    | .path s => s ≠ []
    | .obj i => E.empty (st i) = false

/-- The knowledge base of kind `k` that a request with overrides `o` asks for: the override when
one is given, the file of the distribution otherwise. -/
def Wanted (E : Env α L) (st : Store α) (o : Overrides) (k : Str) (kb : KbArg) : Prop :=
  Given E st o k kb ∨ ((∀ kb', ¬ Given E st o k kb') ∧ (k, kb) ∈ defaultKbs E.dir)

/-- The keys of the overrides are distinct, as in any dictionary. -/
def Dict (o : Overrides) : Prop := (o.map (·.1)).Nodup

/-- The objects have the contents `st` at every request of the run. -/
def Fixed (st : Store α) (acts : List (Act α)) : Prop := ∀ st' o, Act.request st' o ∈ acts → st' = st

/-- No line is tagged during the run. -/
def RequestsOnly (acts : List (Act α)) : Prop := ∀ a ∈ acts, a ≠ Act.tag

/-- A run in which kind `k` is always wanted from a file. -/
def AlwaysPath (E : Env α L) (k : Str) (acts : List (Act α)) : Prop :=
  ∀ st o, Act.request st o ∈ acts → Dict o ∧ ∀ kb, Wanted E st o k kb → ∃ s, kb = .path s

variable [DecidableEq α]

/-- What the acts leave behind. -/
def play (E : Env α L) (c : KbCache L) : List (Act α) → KbCache L
  | [] => c
  | .request st o :: r => play E (getKbs E.ld E.empty E.dir st o c).2 r
  | .tag :: r => play E (tagEffect E.upd c) r

/-- Every request of the run succeeds. -/
def AllOk (E : Env α L) (c : KbCache L) : List (Act α) → Prop
  | [] => True
  | .request st o :: r =>
    (getKbs E.ld E.empty E.dir st o c).1 = .ok () ∧ AllOk E (getKbs E.ld E.empty E.dir st o c).2 r
  | .tag :: r => AllOk E (tagEffect E.upd c) r

/-- A small environment: sources are numbers, a knowledge base is a list of numbers, the loaders
take the number, 13 cannot be loaded, and tagging adds the second list to the first. -/
def toy : Env Nat (List Nat) where
  ld := fun _ s => match s with
    | .path _ => .ok [0]
    | .data 13 => .error .valueError
    | .data n => .ok [n]
  empty := fun n => n == 0
  dir := py! "d"
  upd := fun j r => j ++ r

/-- The objects 0, 1, 2, … have the contents 1, 2, 3, … -/
def toyStore : Store Nat := fun i => i + 1

def toyRequest (o : Overrides) (c : KbCache (List Nat)) : Py Unit × KbCache (List Nat) :=
  getKbs toy.ld toy.empty toy.dir toyStore o c

end Spec
