import Verif.Spec.Api
import Verif.Lemmas.Record2

/-! # Lemmas on the entry points -/

open Spec

namespace Py

theorem dedupe_first (l : List Str) : FirstOccurrences l (dedupeList l) := by
  have hmem : ∀ (l : List Str) (x : Str), x ∈ dedupeList l ↔ x ∈ l := by
    intro l
    induction l with
    | nil => intro x; rfl
    | cons y l ih =>
      intro x
      simp only [dedupeList, List.mem_cons, List.mem_filter, ih, bne_iff_ne, ne_eq]
      by_cases h : x = y <;> simp [h]
  have htake : ∀ (f : Str → Bool) (d : List Str) (m : Nat), ∃ m', (d.filter f).take m' = (d.take m).filter f := by
    intro f d m
    refine ⟨((d.take m).filter f).length, ?_⟩
    have : d.filter f = (d.take m).filter f ++ (d.drop m).filter f := by
      rw [← List.filter_append, List.take_append_drop]
    rw [this, List.take_left]
  induction l with
  | nil => exact ⟨List.nodup_nil, fun n => ⟨0, by simp⟩⟩
  | cons y l ih =>
    obtain ⟨h1, h2⟩ := ih
    constructor
    · simp only [dedupeList, List.nodup_cons, List.mem_filter, bne_self_eq_false, Bool.false_eq_true, and_false,
        not_false_eq_true, true_and]
      exact h1.filter _
    · intro n
      cases n with
      | zero => exact ⟨0, by simp⟩
      | succ n =>
        obtain ⟨m, hm⟩ := h2 n
        obtain ⟨m', hm'⟩ := htake (· != y) (dedupeList l) m
        refine ⟨m' + 1, fun x => ?_⟩
        simp only [dedupeList, List.take_succ_cons, List.mem_cons, hm', List.mem_filter, hm, bne_iff_ne, ne_eq]
        by_cases h : x = y <;> simp [h]

theorem updateWithUrls_vals (urls : List Str) : ∀ (f : Field) (k : Str),
    vals (updateWithUrls f urls) k = vals f k ++ (if k = py! "url" then nonEmpty urls else []) := by
  induction urls with
  | nil => intro f k; simp [updateWithUrls, nonEmpty]
  | cons u urls ih =>
    intro f k
    show vals (updateWithUrls (addSubfield f (py! "url") (some u)) urls) k = _
    rw [ih, vals_eq, values_addSubfield, ← vals_eq]
    by_cases h : k = py! "url"
    · by_cases hu : u = [] <;> simp [h, addedVals, nonEmpty, hu]
    · simp [h]

end Py
