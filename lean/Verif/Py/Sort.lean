import Verif.Py.Basic

/-! # Stable sorting (`list.sort`, `sorted`) -/

namespace Py

/-- Insert before the first element that is not smaller. -/
def insertBy {α : Type} (le : α → α → Bool) (x : α) : List α → List α
  | [] => [x]
  | y :: ys => if le x y then x :: y :: ys else y :: insertBy le x ys

/-- `sorted(l, key=…)`: stable. Python leaves the algorithm open; every stable sort gives this
result. -/
def sortBy {α : Type} (le : α → α → Bool) (l : List α) : List α := l.foldr (insertBy le) []

variable {α : Type} {le : α → α → Bool}

theorem insertBy_perm (x : α) : ∀ l : List α, (insertBy le x l).Perm (x :: l)
  | [] => .refl _
  | y :: ys => by
    rw [insertBy]
    split
    · exact .refl _
    · exact ((insertBy_perm x ys).cons y).trans (.swap x y ys)

theorem sortBy_perm : ∀ l : List α, (sortBy le l).Perm l
  | [] => .refl _
  | x :: xs => (insertBy_perm x _).trans ((sortBy_perm xs).cons x)

theorem insertBy_sorted (ht : ∀ a b, (le a b || le b a) = true) (htr : ∀ a b c, le a b = true → le b c = true → le a c = true)
    (x : α) : ∀ {l : List α}, l.Pairwise (fun a b => le a b = true) → (insertBy le x l).Pairwise (fun a b => le a b = true)
  | [], _ => by simp [insertBy]
  | y :: ys, h => by
    rw [insertBy]
    split
    · rename_i hxy
      refine List.Pairwise.cons (fun z hz => ?_) h
      rcases List.mem_cons.1 hz with rfl | hz
      · exact hxy
      · exact htr _ _ _ hxy (List.rel_of_pairwise_cons h hz)
    · rename_i hxy
      refine List.Pairwise.cons (fun z hz => ?_) (insertBy_sorted ht htr x h.of_cons)
      rcases List.mem_cons.1 ((insertBy_perm x ys).mem_iff.1 hz) with rfl | hz
      · have := ht z y
        simp only [Bool.or_eq_true] at this
        rcases this with h1 | h1
        · exact absurd h1 hxy
        · exact h1
      · exact List.rel_of_pairwise_cons h hz

theorem sortBy_sorted (ht : ∀ a b, (le a b || le b a) = true)
    (htr : ∀ a b c, le a b = true → le b c = true → le a c = true) :
    ∀ l : List α, (sortBy le l).Pairwise (fun a b => le a b = true)
  | [] => .nil
  | x :: xs => insertBy_sorted ht htr x (sortBy_sorted ht htr xs)

theorem insertBy_sublist (x : α) : ∀ l : List α, l.Sublist (insertBy le x l)
  | [] => List.nil_sublist _
  | y :: ys => by
    rw [insertBy]
    split
    · exact List.sublist_cons_self _ _
    · exact (insertBy_sublist x ys).cons_cons y

/-- A smaller element is inserted before. -/
theorem insertBy_before {x b : α} (hb : le x b = true) (htr : ∀ a b c, le a b = true → le b c = true → le a c = true) :
    ∀ {l : List α}, b ∈ l → [x, b].Sublist (insertBy le x l)
  | y :: ys, h => by
    rw [insertBy]
    split
    · rcases List.mem_cons.1 h with rfl | h
      · exact ((List.nil_sublist ys).cons_cons b).cons_cons x
      · exact ((List.singleton_sublist.2 h).cons y).cons_cons x
    · rename_i hxy
      rcases List.mem_cons.1 h with rfl | h
      · exact absurd hb hxy
      · exact (insertBy_before hb htr h).cons y

theorem sortBy_stable (htr : ∀ a b c, le a b = true → le b c = true → le a c = true) {a b : α} (hab : le a b = true) :
    ∀ {l : List α}, [a, b].Sublist l → [a, b].Sublist (sortBy le l)
  | [], h => by cases h
  | x :: xs, h => by
    show [a, b].Sublist (insertBy le x (sortBy le xs))
    cases h with
    | cons _ h => exact (sortBy_stable htr hab h).trans (insertBy_sublist x _)
    | cons_cons _ h =>
      exact insertBy_before hab htr ((sortBy_perm xs).mem_iff.2 (List.singleton_sublist.1 h))

theorem sortBy_map {β : Type} {le' : β → β → Bool} (f : α → β) (h : ∀ a b, le' (f a) (f b) = le a b) :
    ∀ l : List α, sortBy le' (l.map f) = (sortBy le l).map f := by
  have hi : ∀ (x : α) (l : List α), insertBy le' (f x) (l.map f) = (insertBy le x l).map f := by
    intro x l
    induction l with
    | nil => rfl
    | cons y ys ih =>
      rw [List.map_cons, insertBy, insertBy, h, ih]
      split <;> rfl
  intro l
  induction l with
  | nil => rfl
  | cons x xs ih =>
    show insertBy le' (f x) (sortBy le' (xs.map f)) = (insertBy le x (sortBy le xs)).map f
    rw [ih, hi]

end Py
