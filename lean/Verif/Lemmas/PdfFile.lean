import Verif.Spec.PdfFile

/-! # Lemmas on finding byte sequences -/

open Spec

namespace Py

theorem header_eq : "%PDF-".toUTF8.toList = pdfHeader := by decide +kernel

theorem eof_eq : "%%EOF".toUTF8.toList = pdfEof := by decide +kernel

theorem occurs_cons {sub f a : Bytes} (c : UInt8) (h : OccursAfter sub f a) : OccursAfter sub (c :: f) (c :: a) := by
  obtain ⟨b, rfl⟩ := h
  exact ⟨b, rfl⟩

theorem occurs_nil_iff {sub f : Bytes} : OccursAfter sub f [] ↔ sub.isPrefixOf f = true := by
  rw [List.isPrefixOf_iff_prefix]
  constructor
  · rintro ⟨b, rfl⟩
    exact ⟨b, rfl⟩
  · rintro ⟨b, rfl⟩
    exact ⟨b, rfl⟩

theorem occurs_uncons {sub f a : Bytes} {c d : UInt8} (h : OccursAfter sub (c :: f) (d :: a)) :
    c = d ∧ OccursAfter sub f a := by
  obtain ⟨b, h⟩ := h
  simp only [List.cons_append, List.cons.injEq] at h
  exact ⟨h.1, b, h.2⟩

theorem findB_none {sub : Bytes} (hs : sub ≠ []) : ∀ {f : Bytes}, findB sub f = none ↔ Absent sub f := by
  have hsub : ∀ f, Absent sub f ↔ ∀ a, ¬ OccursAfter sub f a := fun f =>
    ⟨fun h a ⟨b, e⟩ => h a b e, fun h a b e => h a ⟨b, e⟩⟩
  intro f
  rw [hsub]
  induction f with
  | nil =>
    simp only [findB, List.isEmpty_iff, hs, if_false, true_iff]
    rintro a ⟨b, e⟩
    simp [hs] at e
  | cons c f ih =>
    rw [findB]
    split
    · rename_i h
      simp only [reduceCtorEq, false_iff]
      exact fun hn => hn [] (occurs_nil_iff.2 h)
    · rename_i h
      rw [Option.map_eq_none_iff, ih]
      constructor
      · intro hn a ha
        cases a with
        | nil => exact h (occurs_nil_iff.1 ha)
        | cons d a => exact hn a (occurs_uncons ha).2
      · exact fun hn a ha => hn (c :: a) (occurs_cons c ha)

theorem findB_some {sub : Bytes} : ∀ {f : Bytes} {i : Nat}, findB sub f = some i →
    BeforeFirst sub f (f.take i) ∧ i ≤ f.length := by
  intro f
  induction f with
  | nil =>
    intro i h
    simp only [findB] at h
    split at h
    · rename_i hs
      cases h
      rw [List.isEmpty_iff] at hs
      subst hs
      exact ⟨⟨⟨[], rfl⟩, fun _ _ => Nat.zero_le _⟩, Nat.le_refl _⟩
    · cases h
  | cons c f ih =>
    intro i h
    rw [findB] at h
    split at h
    · rename_i hp
      cases h
      exact ⟨⟨occurs_nil_iff.2 hp, fun _ _ => Nat.zero_le _⟩, Nat.zero_le _⟩
    · rename_i hp
      rw [Option.map_eq_some_iff] at h
      obtain ⟨j, hj, rfl⟩ := h
      obtain ⟨⟨h1, h2⟩, h3⟩ := ih hj
      refine ⟨⟨by simpa using occurs_cons c h1, ?_⟩, by simpa using h3⟩
      intro a ha
      cases a with
      | nil => exact absurd (occurs_nil_iff.1 ha) hp
      | cons d a =>
        have := h2 a (occurs_uncons ha).2
        simpa using this

theorem rfind_none {sub : Bytes} (hs : sub ≠ []) : ∀ {f : Bytes}, rfind sub f = none ↔ Absent sub f := by
  have hsub : ∀ f, Absent sub f ↔ ∀ a, ¬ OccursAfter sub f a := fun f =>
    ⟨fun h a ⟨b, e⟩ => h a b e, fun h a b e => h a ⟨b, e⟩⟩
  intro f
  rw [hsub]
  induction f with
  | nil =>
    simp only [rfind, List.isEmpty_iff, hs, if_false, true_iff]
    rintro a ⟨b, e⟩
    simp [hs] at e
  | cons c f ih =>
    rw [rfind]
    split
    · rename_i i h
      simp only [reduceCtorEq, false_iff]
      intro hn
      have : rfind sub f = none := ih.2 fun a ha => hn (c :: a) (occurs_cons c ha)
      rw [this] at h
      cases h
    · rename_i h
      rw [ih] at h
      split
      · rename_i hp
        simp only [reduceCtorEq, false_iff]
        exact fun hn => hn [] (occurs_nil_iff.2 hp)
      · rename_i hp
        simp only [true_iff]
        intro a ha
        cases a with
        | nil => exact hp (occurs_nil_iff.1 ha)
        | cons d a => exact h a (occurs_uncons ha).2

theorem rfind_some {sub : Bytes} (hs : sub ≠ []) : ∀ {f : Bytes} {i : Nat}, rfind sub f = some i →
    BeforeLast sub f (f.take i) ∧ i ≤ f.length := by
  intro f
  induction f with
  | nil =>
    intro i h
    simp only [rfind, List.isEmpty_iff, hs, if_false] at h
    cases h
  | cons c f ih =>
    intro i h
    rw [rfind] at h
    split at h
    · rename_i j hj
      cases h
      obtain ⟨⟨h1, h2⟩, h3⟩ := ih hj
      refine ⟨⟨by simpa using occurs_cons c h1, ?_⟩, by simpa using h3⟩
      intro a ha
      cases a with
      | nil => exact Nat.zero_le _
      | cons d a =>
        have := h2 a (occurs_uncons ha).2
        simpa using this
    · rename_i hj
      split at h
      · rename_i hp
        cases h
        refine ⟨⟨occurs_nil_iff.2 hp, ?_⟩, Nat.zero_le _⟩
        intro a ha
        cases a with
        | nil => exact Nat.le_refl _
        | cons d a => exact absurd (occurs_uncons ha).2 fun ⟨b, e⟩ => (rfind_none hs).1 hj a b e
      · cases h

/-- The prefix before an occurrence is determined by its length. -/
theorem occurs_take {sub f a : Bytes} (h : OccursAfter sub f a) : f.take a.length = a := by
  obtain ⟨b, rfl⟩ := h
  simp [List.append_assoc]

theorem findB_first {sub f a : Bytes} (hs : sub ≠ []) (h : BeforeFirst sub f a) : findB sub f = some a.length := by
  cases hf : findB sub f with
  | none =>
    obtain ⟨b, e⟩ := h.1
    exact absurd e ((findB_none hs).1 hf a b)
  | some i =>
    obtain ⟨⟨h1, h2⟩, h3⟩ := findB_some hf
    have e1 := h.2 _ h1
    have e2 := h2 _ h.1
    rw [List.length_take, Nat.min_eq_left h3] at e1 e2
    rw [Nat.le_antisymm e1 e2]

theorem rfind_last {sub f a : Bytes} (hs : sub ≠ []) (h : BeforeLast sub f a) : rfind sub f = some a.length := by
  cases hf : rfind sub f with
  | none =>
    obtain ⟨b, e⟩ := h.1
    exact absurd e ((rfind_none hs).1 hf a b)
  | some i =>
    obtain ⟨⟨h1, h2⟩, h3⟩ := rfind_some hs hf
    have e1 := h.2 _ h1
    have e2 := h2 _ h.1
    rw [List.length_take, Nat.min_eq_left h3] at e1 e2
    rw [Nat.le_antisymm e1 e2]

end Py
