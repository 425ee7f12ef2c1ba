import Verif.Py.Basic

/-!
# Lemmas about the string primitives
-/

namespace Py

theorem lstripP_split (p : Char → Bool) (s : Str) :
    ∃ a, s = a ++ lstripP p s ∧ (∀ c ∈ a, p c = true) ∧ ∀ c ∈ (lstripP p s).head?, p c = false := by
  induction s with
  | nil => exact ⟨[], by simp [lstripP]⟩
  | cons x xs ih =>
    by_cases h : p x
    · obtain ⟨a, h1, h2, h3⟩ := ih
      have e : lstripP p (x :: xs) = lstripP p xs := by simp [lstripP, h]
      refine ⟨x :: a, ?_, ?_, ?_⟩
      · rw [e, List.cons_append, ← h1]
      · intro c hc; rcases List.mem_cons.1 hc with rfl | hc
        · exact h
        · exact h2 c hc
      · rw [e]; exact h3
    · refine ⟨[], ?_, by simp, ?_⟩
      · simp [lstripP, h]
      · simp [lstripP, h]

theorem rstripP_split (p : Char → Bool) (s : Str) :
    ∃ b, s = rstripP p s ++ b ∧ (∀ c ∈ b, p c = true) ∧ ∀ c ∈ (rstripP p s).getLast?, p c = false := by
  obtain ⟨a, h1, h2, h3⟩ := lstripP_split p s.reverse
  refine ⟨a.reverse, ?_, ?_, ?_⟩
  · have := congrArg List.reverse h1
    rw [List.reverse_reverse, List.reverse_append] at this
    simpa [rstripP, lstripP] using this
  · intro c hc; exact h2 c (List.mem_reverse.1 hc)
  · intro c hc; apply h3 c
    simpa [rstripP, lstripP] using hc

/-- A string is emptied by `strip` exactly when all its characters are strippable. -/
theorem truthy_stripP (p : Char → Bool) (s : Str) :
    truthy (stripP p s) = true ↔ ∃ c ∈ s, p c = false := by
  constructor
  · intro h
    obtain ⟨a, h1, _, _⟩ := lstripP_split p s
    obtain ⟨b, h4, _, h6⟩ := rstripP_split p (lstripP p s)
    have hne : stripP p s ≠ [] := by intro e; simp [e, truthy] at h
    have : ∃ c, (rstripP p (lstripP p s)).getLast? = some c := by
      cases hh : (rstripP p (lstripP p s)).getLast? with
      | none => exact absurd (List.getLast?_eq_none_iff.1 hh) hne
      | some c => exact ⟨c, rfl⟩
    obtain ⟨c, hc⟩ := this
    refine ⟨c, ?_, h6 c (by simp [hc])⟩
    have hm : c ∈ rstripP p (lstripP p s) := List.mem_of_getLast? hc
    rw [h1, h4]; simp [hm]
  · rintro ⟨c, hc, hp⟩
    obtain ⟨a, h1, h2, _⟩ := lstripP_split p s
    obtain ⟨b, h4, h5, _⟩ := rstripP_split p (lstripP p s)
    have : c ∈ stripP p s := by
      rw [h1, h4] at hc
      simp only [List.mem_append] at hc
      rcases hc with hc | hc | hc
      · rw [h2 c hc] at hp; cases hp
      · exact hc
      · rw [h5 c hc] at hp; cases hp
    cases hs : stripP p s with
    | nil => rw [hs] at this; cases this
    | cons x xs => simp [truthy]

theorem stripP_split (p : Char → Bool) (s : Str) :
    ∃ a b, s = a ++ stripP p s ++ b ∧ (∀ c ∈ a, p c = true) ∧ (∀ c ∈ b, p c = true) ∧
      (∀ c ∈ (stripP p s).head?, p c = false) ∧ ∀ c ∈ (stripP p s).getLast?, p c = false := by
  obtain ⟨a, h1, h2, h3⟩ := lstripP_split p s
  obtain ⟨b, h4, h5, h6⟩ := rstripP_split p (lstripP p s)
  refine ⟨a, b, ?_, h2, h5, ?_, h6⟩
  · rw [List.append_assoc]; unfold stripP; rw [← h4, ← h1]
  · intro c hc
    apply h3 c
    rw [h4]
    have : (stripP p s).head? = some c := by simpa using hc
    unfold stripP at this
    cases hh : rstripP p (lstripP p s) with
    | nil => rw [hh] at this; cases this
    | cons x xs => rw [hh] at this; simpa using this

theorem mem_inSet {cs : Str} {c : Char} : inSet cs c = true ↔ c ∈ cs := by
  simp [inSet]

theorem truthy_iff {s : Str} : truthy s = true ↔ s ≠ [] := by
  cases s <;> simp [truthy]

end Py
