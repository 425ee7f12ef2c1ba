import Verif.Model.Record
import Verif.Lemmas.Str

/-!
# Lemmas about the record builder
-/

namespace Py

/-- The values stored under a key; none when the key is absent. -/
def Field.values (f : Field) (k : Str) : List Str := (f.get k).getD []

theorem Field.get_append (f : Field) (k v k' : Str) :
    (f.append k v).get k' = if k' = k then some (f.values k ++ [v]) else f.get k' := by
  induction f with
  | nil =>
    by_cases h : k' = k
    · simp [Field.append, Field.get, Field.values, List.lookup, h]
    · simp [Field.append, Field.get, List.lookup, h, beq_false_of_ne h]
  | cons x xs ih =>
    obtain ⟨k0, vs⟩ := x
    unfold Field.append
    by_cases h0 : k0 = k
    · subst h0
      by_cases h : k' = k0
      · subst h; simp [Field.get, Field.values]
      · simp [Field.get, h, List.lookup_cons, beq_false_of_ne h]
    · simp only [h0, if_false]
      by_cases h : k' = k0
      · subst h; simp [Field.get, h0]
      · simp only [Field.get, List.lookup_cons, beq_false_of_ne h]
        rw [show List.lookup k' (Field.append xs k v) = Field.get (Field.append xs k v) k' from rfl, ih]
        have : Field.values ((k0, vs) :: xs) k = Field.values xs k := by
          simp [Field.values, Field.get, List.lookup_cons, beq_false_of_ne (Ne.symm h0)]
        rw [this]; rfl

theorem Field.values_append (f : Field) (k v k' : Str) :
    (f.append k v).values k' = f.values k' ++ (if k' = k then [v] else []) := by
  unfold Field.values
  rw [Field.get_append]
  by_cases h : k' = k
  · subst h; simp [Field.values]
  · simp [h]

/-- What one call of `add_subfield` adds to the values of a key. -/
def addedVals (v : Val) : List Str := v.toList.filter (· ≠ [])

theorem values_addSubfield (f : Field) (k k' : Str) (v : Val) :
    (addSubfield f k v).values k' = f.values k' ++ (if k' = k then addedVals v else []) := by
  cases v with
  | none => simp [addSubfield, addedVals]
  | some s =>
    by_cases h : truthy s
    · have h' : s ≠ [] := truthy_iff.1 h
      simp [addSubfield, h, Field.values_append, addedVals, h']
    · have h' : s = [] := by
        cases s with
        | nil => rfl
        | cons => simp [truthy] at h
      simp [addSubfield, h', truthy, addedVals]

theorem Field.get_set (f : Field) (k k' : Str) (v : List Str) :
    (f.set k v).get k' = if k' = k then some v else f.get k' := by
  induction f with
  | nil =>
    by_cases h : k' = k
    · simp [Field.set, Field.get, h]
    · simp [Field.set, Field.get, h]
  | cons x xs ih =>
    obtain ⟨k0, vs⟩ := x
    unfold Field.set
    by_cases h0 : k0 = k
    · subst h0
      by_cases h : k' = k0
      · subst h; simp [Field.get]
      · simp [Field.get, h, List.lookup_cons, beq_false_of_ne h]
    · simp only [h0, if_false]
      by_cases h : k' = k0
      · subst h; simp [Field.get, h0]
      · simp only [Field.get, List.lookup_cons, beq_false_of_ne h]
        exact ih

/-- Shape invariant of records: distinct keys from a set `K`, non-empty lists of
non-empty strings except under `raw_ref`. -/
structure Field.Ok (K : List Str) (f : Field) : Prop where
  nodup : (f.map (·.1)).Nodup
  keys : ∀ p ∈ f, p.1 ∈ K
  vals : ∀ p ∈ f, p.1 ≠ py! "raw_ref" → p.2 ≠ [] ∧ ∀ v ∈ p.2, v ≠ []

theorem Field.mem_append {f : Field} {k v : Str} {p : Str × List Str} (h : p ∈ f.append k v) :
    (p ∈ f) ∨ (p.1 = k ∧ ((p.2 = [v]) ∨ ∃ vs, (k, vs) ∈ f ∧ p.2 = vs ++ [v])) := by
  induction f with
  | nil => simp [Field.append] at h; right; simp [h]
  | cons x xs ih =>
    obtain ⟨k0, vs⟩ := x
    unfold Field.append at h
    split at h
    · rename_i h0
      subst h0
      rcases List.mem_cons.1 h with rfl | h
      · right; exact ⟨rfl, .inr ⟨vs, by simp, rfl⟩⟩
      · left; simp [h]
    · rcases List.mem_cons.1 h with rfl | h
      · left; simp
      · rcases ih h with h | ⟨h1, h2 | ⟨ws, h2, h3⟩⟩
        · left; simp [h]
        · right; exact ⟨h1, .inl h2⟩
        · right; exact ⟨h1, .inr ⟨ws, by simp [h2], h3⟩⟩

theorem Field.mem_keys_append {f : Field} {k v : Str} {x : Str}
    (h : x ∈ (f.append k v).map (·.1)) : x ∈ f.map (·.1) ∨ x = k := by
  obtain ⟨p, hp, rfl⟩ := List.mem_map.1 h
  rcases Field.mem_append hp with h | ⟨h, _⟩
  · left; exact List.mem_map_of_mem h
  · right; exact h

theorem Field.nodup_append {f : Field} (k v : Str) (h : (f.map (·.1)).Nodup) :
    ((f.append k v).map (·.1)).Nodup := by
  induction f with
  | nil => simp [Field.append]
  | cons x xs ih =>
    obtain ⟨k0, vs⟩ := x
    simp only [List.map_cons, List.nodup_cons] at h
    unfold Field.append
    split
    · simpa using h
    · rename_i h0
      simp only [List.map_cons, List.nodup_cons]
      refine ⟨?_, ih h.2⟩
      intro hm
      rcases Field.mem_keys_append hm with hm | hm
      · exact h.1 hm
      · exact h0 hm

theorem Field.Ok.append {K : List Str} {f : Field} (h : f.Ok K) {k v : Str} (hk : k ∈ K)
    (hr : k ≠ py! "raw_ref") (hv : v ≠ []) : (f.append k v).Ok K := by
  refine ⟨Field.nodup_append _ _ h.nodup, ?_, ?_⟩
  · intro p hp
    rcases Field.mem_append hp with hp | ⟨hp, _⟩
    · exact h.keys p hp
    · rw [hp]; exact hk
  · intro p hp hne
    rcases Field.mem_append hp with hp | ⟨hp, h2 | ⟨vs, h2, h3⟩⟩
    · exact h.vals p hp hne
    · rw [h2]; simpa using hv
    · have := h.vals _ h2 hr
      rw [h3]
      refine ⟨by simp, ?_⟩
      intro w hw
      rcases List.mem_append.1 hw with hw | hw
      · exact this.2 w hw
      · simp at hw; rw [hw]; exact hv

theorem Field.Ok.addSubfield {K : List Str} {f : Field} (h : f.Ok K) {k : Str} (v : Val) (hk : k ∈ K)
    (hr : k ≠ py! "raw_ref") : (addSubfield f k v).Ok K := by
  cases v with
  | none => exact h
  | some s =>
    by_cases ht : truthy s
    · simp only [Py.addSubfield, ht, if_true]; exact h.append hk hr (truthy_iff.1 ht)
    · simp only [Py.addSubfield, ht]; exact h

theorem Field.set_of_notMem {f : Field} {k : Str} (v : List Str) (h : k ∉ f.map (·.1)) :
    f.set k v = f ++ [(k, v)] := by
  induction f with
  | nil => rfl
  | cons x xs ih =>
    obtain ⟨k0, vs⟩ := x
    simp only [List.map_cons, List.mem_cons, not_or] at h
    simp only [Field.set, if_neg (Ne.symm h.1), List.cons_append, ih h.2]

/-- Inversion of a successful `do` block. -/
theorem Py.bind_ok {α β : Type} {x : Py α} {f : α → Py β} {b : β} (h : (x >>= f) = .ok b) :
    ∃ a, x = .ok a ∧ f a = .ok b := by
  cases x with
  | error e => cases h
  | ok a => exact ⟨a, rfl, h⟩

theorem getKey_ok {α : Type} {o : Option α} {a : α} (h : getKey o = .ok a) : o = some a := by
  cases o with
  | none => cases h
  | some b => simpa [getKey] using h

end Py
