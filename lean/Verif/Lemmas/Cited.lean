import Verif.Spec.Cited
import Verif.Lemmas.Rebuild

/-!
# Lemmas for lists of references (C121)
-/

open Spec
open scoped List

namespace Py

theorem front_unique {P : Char → Bool} {a b t u : Str} (e : a ++ t = b ++ u) (ha : ∀ c ∈ a, P c = true) (hb : ∀ c ∈ b, P c = true)
    (ht : ∀ c, t.head? = some c → P c = false) (hu : ∀ c, u.head? = some c → P c = false) : t = u := by
  induction a generalizing b with
  | nil =>
    cases b with
    | nil => exact e
    | cons c b =>
      have := ht c (by rw [List.nil_append] at e; rw [e]; rfl)
      rw [hb c (by simp)] at this
      cases this
  | cons c a ih =>
    cases b with
    | nil =>
      have := hu c (by rw [List.nil_append] at e; rw [← e]; rfl)
      rw [ha c (by simp)] at this
      cases this
    | cons d b => exact ih (List.cons.inj e).2 (fun x hx => ha x (by simp [hx])) fun x hx => hb x (by simp [hx])

theorem back_unique {P : Char → Bool} {a b t u : Str} (e : t ++ a = u ++ b) (ha : ∀ c ∈ a, P c = true) (hb : ∀ c ∈ b, P c = true)
    (ht : ∀ c, t.getLast? = some c → P c = false) (hu : ∀ c, u.getLast? = some c → P c = false) : t = u := by
  have := front_unique (P := P) (a := a.reverse) (b := b.reverse) (t := t.reverse) (u := u.reverse)
    (by simpa using congrArg List.reverse e) (by simpa using ha) (by simpa using hb)
    (by simpa using ht) (by simpa using hu)
  simpa using this

theorem stripped_unique {s t u : Str} (h : Stripped s t) (h' : Stripped s u) : u = t := by
  obtain ⟨a, b, e, hs, h1, h2⟩ := h
  obtain ⟨a', b', e', hs', h1', h2'⟩ := h'
  have empty : ∀ {x y : Str}, x ++ y = [] → x = [] ∧ y = [] := fun h => by simpa using h
  by_cases ht : t = []
  · subst ht
    by_cases hu : u = []
    · exact hu
    · obtain ⟨c, u, rfl⟩ := List.exists_cons_of_ne_nil hu
      have : c ∈ a ++ [] ++ b := by rw [← e, e']; simp
      have := hs c (by simpa using this)
      rw [h1' c rfl] at this
      cases this
  · by_cases hu : u = []
    · subst hu
      obtain ⟨c, t, rfl⟩ := List.exists_cons_of_ne_nil ht
      have : c ∈ a' ++ [] ++ b' := by rw [← e', e]; simp
      have := hs' c (by simpa using this)
      rw [h1 c rfl] at this
      cases this
    · have e1 : t ++ b = u ++ b' := by
        refine front_unique (P := isSpace) (a := a) (b := a') (by rw [← List.append_assoc, ← List.append_assoc, ← e, ← e']) (fun c hc => hs c (by simp [hc]))
          (fun c hc => hs' c (by simp [hc])) ?_ ?_
        · intro c hc
          obtain ⟨x, t, rfl⟩ := List.exists_cons_of_ne_nil ht
          exact h1 c hc
        · intro c hc
          obtain ⟨x, u, rfl⟩ := List.exists_cons_of_ne_nil hu
          exact h1' c hc
      exact (back_unique (P := isSpace) e1 (fun c hc => hs c (by simp [hc])) (fun c hc => hs' c (by simp [hc])) h2 h2').symm

theorem joins_unique {ps : List Str} {x y : Str} (h : Joins ps x) (h' : Joins ps y) : y = x := by
  induction h generalizing y with
  | nil =>
    generalize hp : ([] : List Str) = ps at h'
    cases h' with
    | nil => rfl
    | snoc => simp at hp
  | snoc hj hg hs ih =>
    rename_i ps x g p t
    generalize hp : ps ++ [p] = qs at h'
    cases h' with
    | nil => simp at hp
    | snoc hj' hg' hs' =>
      have := List.append_inj' hp rfl
      obtain ⟨rfl, hq⟩ := this
      have hq := (List.cons.inj hq).1
      subst hq
      have := ih hj'
      subst this
      rw [glued_unique hg' hg, stripped_unique hs hs']

theorem refOf_unique {ps : List Str} {l l' : Str} (h : RefOf ps l) (h' : RefOf ps l') : l' = l := by
  obtain ⟨-, x, b, hj, e, hb, hl⟩ := h
  obtain ⟨-, x', b', hj', e', hb', hl'⟩ := h'
  have := joins_unique hj hj'
  subst this
  exact (back_unique (P := isSpace) (e.symm.trans e') hb hb' hl hl').symm

theorem all2_in {α β : Type} {R : α → β → Prop} {as : List α} {bs : List β} (h : All2 R as bs) : ∀ b ∈ bs, ∃ a ∈ as, R a b := by
  induction h with
  | nil => simp
  | cons h _ ih =>
    rename_i a b as bs hr
    intro x hx
    rcases List.mem_cons.1 hx with rfl | hx
    · exact ⟨a, by simp, h⟩
    · obtain ⟨y, hy, hr⟩ := ih x hx
      exact ⟨y, by simp [hy], hr⟩

theorem all2_concat {α β : Type} {R : α → β → Prop} {as cs : List α} {bs ds : List β} (h : All2 R as bs) (h' : All2 R cs ds) : All2 R (as ++ cs) (bs ++ ds) := by
  induction h with
  | nil => exact h'
  | cons h _ ih => exact .cons h ih

end Py
