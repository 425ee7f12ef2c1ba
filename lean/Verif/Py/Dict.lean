import Verif.Py.Basic

/-!
# Python dictionaries

Association lists in insertion order with distinct keys. Like `Verif.Py.Basic` this models the
language, not a file of `/repo`.
-/

namespace Py

variable {κ α : Type} [DecidableEq κ]

/-- `d.get(k)` -/
def dget (d : List (κ × α)) (k : κ) : Option α :=
  match d with
  | [] => none
  | (k', v) :: r => if k' = k then some v else dget r k

/-- `d[k] = v`: in place when the key exists, at the end otherwise. -/
def dset (d : List (κ × α)) (k : κ) (v : α) : List (κ × α) :=
  match d with
  | [] => [(k, v)]
  | (k', w) :: r => if k' = k then (k', v) :: r else (k', w) :: dset r k v

/-- `d.update(u)`, also `dict(u)` from pairs: the last value given for a key counts. -/
def dupdate (d u : List (κ × α)) : List (κ × α) := u.foldl (fun d p => dset d p.1 p.2) d

theorem dget_dset (d : List (κ × α)) (k k' : κ) (v : α) : dget (dset d k v) k' = if k = k' then some v else dget d k' := by
  induction d with
  | nil => simp [dset, dget]
  | cons p d ih =>
    obtain ⟨j, w⟩ := p
    by_cases h : j = k
    · subst h
      by_cases h' : j = k' <;> simp [dset, dget, h']
    · by_cases h' : j = k'
      · subst h'
        simp [dset, dget, h, Ne.symm h]
      · simp [dset, dget, h, h', ih]

theorem dset_keys (d : List (κ × α)) (k : κ) (v : α) :
    (dset d k v).map (·.1) = if (dget d k).isSome then d.map (·.1) else d.map (·.1) ++ [k] := by
  induction d with
  | nil => simp [dset, dget]
  | cons p d ih =>
    obtain ⟨j, w⟩ := p
    by_cases h : j = k
    · simp [dset, dget, h]
    · simp only [dset, dget, h, if_false, List.map_cons, ih]
      split <;> rfl

theorem dget_isSome (d : List (κ × α)) (k : κ) : (dget d k).isSome ↔ k ∈ d.map (·.1) := by
  induction d with
  | nil => simp [dget]
  | cons p d ih =>
    obtain ⟨j, w⟩ := p
    by_cases h : j = k
    · simp [dget, h]
    · simp only [dget, h, if_false, ih, List.map_cons, List.mem_cons, Ne.symm h, false_or]

theorem dset_nodup (d : List (κ × α)) (k : κ) (v : α) (h : (d.map (·.1)).Nodup) : ((dset d k v).map (·.1)).Nodup := by
  rw [dset_keys]
  split
  · exact h
  · rename_i hn
    rw [dget_isSome] at hn
    rw [List.nodup_append]
    refine ⟨h, by simp, ?_⟩
    intro a ha b hb
    rw [List.mem_singleton] at hb
    subst hb
    rintro rfl
    exact hn ha

theorem dget_mem (d : List (κ × α)) (k : κ) (v : α) (h : dget d k = some v) : (k, v) ∈ d := by
  induction d with
  | nil => cases h
  | cons p d ih =>
    obtain ⟨j, w⟩ := p
    by_cases hj : j = k
    · subst hj
      simp only [dget, if_true, Option.some.injEq] at h
      simp [h]
    · simp only [dget, hj, if_false] at h
      exact List.mem_cons_of_mem _ (ih h)

theorem dget_of_mem (d : List (κ × α)) (k : κ) (v : α) (hn : (d.map (·.1)).Nodup) (h : (k, v) ∈ d) : dget d k = some v := by
  induction d with
  | nil => cases h
  | cons p d ih =>
    obtain ⟨j, w⟩ := p
    simp only [List.map_cons, List.nodup_cons] at hn
    rcases List.mem_cons.1 h with e | h
    · cases e
      simp [dget]
    · have : j ≠ k := by
        rintro rfl
        exact hn.1 (List.mem_map.2 ⟨_, h, rfl⟩)
      simp only [dget, this, if_false]
      exact ih hn.2 h

end Py
