import Verif.Spec.Collab
import Verif.Py.Dict

/-!
# Tables built row by row
-/

open Spec

namespace Py

variable {ρ κ α ε : Type} [DecidableEq κ]

/-- A table made with one assignment per row, where a row may be refused. -/
theorem table_rows (key : ρ → κ) (val : ρ → Except ε α) : ∀ (rows : List ρ),
    (∀ e, rows.foldlM (fun d r => (val r).map fun v => dset d (key r) v) ([] : List (κ × α)) = .error e →
      ∃ a r b, rows = a ++ r :: b ∧ val r = .error e ∧ ∀ q ∈ a, ∃ v, val q = .ok v) ∧
    (∀ d, rows.foldlM (fun d r => (val r).map fun v => dset d (key r) v) [] = .ok d →
      (∀ r ∈ rows, ∃ v, val r = .ok v) ∧ Firsts (rows.map key) (d.map (·.1)) ∧
      ∀ k v, dget d k = some v ↔ ∃ r, LastRow key rows k r ∧ val r = .ok v) := by
  intro rows
  generalize hn : rows.length = n
  induction n generalizing rows with
  | zero =>
    have := List.length_eq_zero_iff.1 hn
    subst this
    refine ⟨fun e h => (by cases h), fun d h => ?_⟩
    cases h
    refine ⟨by simp, .nil, fun k v => ⟨fun h => (by cases h), ?_⟩⟩
    rintro ⟨r, ⟨a, b, h, _⟩, _⟩
    simp at h
  | succ n ih =>
    obtain ⟨rs, r, rfl⟩ : ∃ rs r, rows = rs ++ [r] := ⟨rows.dropLast, rows.getLast (by intro h; subst h; cases hn), (List.dropLast_concat_getLast _).symm⟩
    have ih := ih rs (by simpa using hn)
    rw [List.foldlM_append]
    cases h1 : rs.foldlM (fun d r => (val r).map fun v => dset d (key r) v) ([] : List (κ × α)) with
    | error e =>
      refine ⟨fun e' h => ?_, fun d h => by cases h⟩
      cases h
      obtain ⟨a, q, b, rfl, h2, h3⟩ := ih.1 e h1
      exact ⟨a, q, b ++ [r], by simp, h2, h3⟩
    | ok d =>
      obtain ⟨i1, i2, i3⟩ := ih.2 d h1
      have hb : ((Except.ok d : Except ε (List (κ × α))) >>= fun s => List.foldlM (fun d r => (val r).map fun v => dset d (key r) v) s [r]) =
          (val r).map fun v => dset d (key r) v := by
        simp only [bind, Except.bind]
        simp only [List.foldlM_cons, List.foldlM_nil]
        cases val r <;> rfl
      rw [hb]
      cases h2 : val r with
      | error e =>
        refine ⟨fun e' h => ?_, fun d h => by cases h⟩
        cases h
        exact ⟨rs, r, [], by simp, h2, i1⟩
      | ok v =>
        refine ⟨fun e' h => (by cases h), fun d' h => ?_⟩
        cases h
        refine ⟨?_, ?_, ?_⟩
        · intro q hq
          rcases List.mem_append.1 hq with hq | hq
          · exact i1 q hq
          · rw [List.mem_singleton] at hq
            subst hq
            exact ⟨v, h2⟩
        · rw [List.map_append, dset_keys]
          split
          · rename_i h; exact .old i2 ((dget_isSome _ _).1 h)
          · rename_i h; exact .new i2 (fun hm => h ((dget_isSome _ _).2 hm))
        · intro k v'
          rw [dget_dset]
          split
          · rename_i hk
            constructor
            · intro e
              cases e
              exact ⟨r, ⟨rs, [], rfl, hk, by simp⟩, h2⟩
            · rintro ⟨q, ⟨a, b, e1, e2, e3⟩, e4⟩
              rcases List.eq_nil_or_concat b with rfl | ⟨b', x, rfl⟩
              · obtain ⟨-, e5⟩ := List.append_inj' e1 rfl
                cases e5
                rw [h2] at e4
                cases e4
                rfl
              · rw [List.concat_eq_append] at e1 e3
                have : rs ++ [r] = (a ++ q :: b') ++ [x] := by simpa using e1
                obtain ⟨-, e5⟩ := List.append_inj' this rfl
                cases e5
                exact absurd hk (e3 r (by simp))
          · rename_i hk
            rw [i3]
            constructor
            · rintro ⟨q, ⟨a, b, e1, e2, e3⟩, e4⟩
              refine ⟨q, ⟨a, b ++ [r], by simp [e1], e2, ?_⟩, e4⟩
              intro x hx
              rcases List.mem_append.1 hx with hx | hx
              · exact e3 x hx
              · rw [List.mem_singleton] at hx
                subst hx
                exact hk
            · rintro ⟨q, ⟨a, b, e1, e2, e3⟩, e4⟩
              rcases List.eq_nil_or_concat b with rfl | ⟨b', x, rfl⟩
              · obtain ⟨-, e5⟩ := List.append_inj' e1 rfl
                cases e5
                exact absurd e2 hk
              · rw [List.concat_eq_append] at e1 e3
                have : rs ++ [r] = (a ++ q :: b') ++ [x] := by simpa using e1
                obtain ⟨e5, e6⟩ := List.append_inj' this rfl
                exact ⟨q, ⟨a, b', e5, e2, fun y hy => e3 y (by simp [hy])⟩, e4⟩

/-- Without repeated keys the table is the list of the rows. -/
theorem table_distinct (key : ρ → κ) (val : ρ → α) : ∀ (rows : List ρ) (d : List (κ × α)), (d.map (·.1) ++ rows.map key).Nodup →
    rows.foldlM (fun d r => (Except.ok (dset d (key r) (val r)) : Except ε _)) d = .ok (d ++ rows.map fun r => (key r, val r))
  | [], d, _ => by simp; rfl
  | r :: rows, d, h => by
    have h' := h
    rw [List.nodup_append] at h'
    have hk : key r ∉ d.map (·.1) := fun hm => h'.2.2 _ hm (key r) (by simp) rfl
    have hd : dset d (key r) (val r) = d ++ [(key r, val r)] := by
      clear h h'
      induction d with
      | nil => rfl
      | cons p d ih =>
        obtain ⟨j, w⟩ := p
        simp only [List.map_cons, List.mem_cons, not_or] at hk
        simp [dset, Ne.symm hk.1, ih hk.2]
    rw [List.foldlM_cons, hd]
    show List.foldlM _ (d ++ [(key r, val r)]) rows = _
    rw [table_distinct key val rows (d ++ [(key r, val r)]) (by simpa using h)]
    simp

end Py
