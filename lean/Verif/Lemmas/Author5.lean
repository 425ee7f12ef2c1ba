import Verif.Lemmas.Author4

/-!
# Marking authors puts no semicolon where there was none
-/

open Spec

namespace Py

theorem etAl_mem {b s t : Str} (h : Rewritten EtAl b s t) : ∀ c ∈ t, c ∈ s ∨ c ∈ py! "et al." := by
  induction h with
  | nil => simp
  | ch _ _ ih =>
    intro c hc
    rcases List.mem_cons.1 hc with rfl | hc
    · exact .inl (by simp)
    · exact (ih c hc).imp (List.mem_cons_of_mem _) id
  | hit _ hP _ ih =>
    intro c hc
    obtain ⟨e, t, s, a, l, p, -, -, -, -, -, -, -, -, rfl⟩ := hP
    rcases List.mem_append.1 hc with hc | hc
    · exact .inr hc
    · exact (ih c hc).imp (List.mem_append_right _) id

theorem trimmed_mem {l r s v : Str} (h : Trimmed l r s v) : ∀ c ∈ v, c ∈ s := by
  obtain ⟨a, b, rfl, -⟩ := h.cut
  intro c hc
  simp [hc]

variable [UnicodeDB]

theorem authorMark_semi {b w r v t x : Str} {g : AuthorGroup} (hA : AuthorHere b w r g) (hx : AuthorMark g (v ++ w) t x) (hw : ';' ∉ v ++ w) (ht : ';' ∉ t) :
    ';' ∉ x := by
  obtain ⟨kind, y, semi, rfl, hs, h⟩ := hx
  have hsemi : semi = [] := by
    rw [hs, if_neg]
    intro e
    cases t with
    | nil => cases e
    | cons c t => simp at e; exact ht (by simp [e])
  subst hsemi
  have hk : kind ∈ [py! "incl", py! "etal", py! "stnd"] := by
    rcases h with ⟨-, rfl, -⟩ | ⟨-, rfl, -⟩
    · decide
    · cases g.etal <;> decide
  have hy : ';' ∉ y := by
    rcases h with ⟨-, -, n, n', h1, h2, rfl⟩ | ⟨-, -, w', d, u, v', h1, rfl, -, -, h2, h3⟩
    · intro hc
      rcases List.mem_append.1 hc with hc | hc
      · rcases etAl_mem h1 _ (trimmed_mem h2 _ hc) with hc | hc
        · obtain ⟨o, es, ee, c, hS⟩ := authorHere_shape hA
          exact hw (by rw [hS.text]; simp [hc])
        · exact absurd hc (by decide)
      · exact absurd hc (by decide)
    · intro hc
      have hc : ';' ∈ v' := by
        rcases h3 with ⟨-, rfl⟩ | ⟨-, h3⟩
        · exact hc
        · exact trimmed_mem h3 _ hc
      rcases etAl_mem h1 _ (List.mem_append_right _ (trimmed_mem h2 _ hc)) with hc | hc
      · exact hw hc
      · exact absurd hc (by decide)
  have hk' : ∀ k ∈ [py! "incl", py! "etal", py! "stnd"], ';' ∉ k := by decide
  have := hk' _ hk
  simp [this, hy]

theorem authorsMarked_semi {N : Str → Prop} {b s l t : Str} (h : AuthorsMarked AuthorHere N b s l t) : ';' ∉ l → ';' ∉ t := by
  induction h with
  | rest => exact id
  | keep _ _ _ _ _ _ _ ih =>
    intro hl hc
    simp only [List.mem_append, not_or] at hl hc
    rcases hc with hc | hc | hc
    · exact hl.1 hc
    · exact hl.2.1 hc
    · exact ih hl.2.2 hc
  | mark _ _ hA _ _ _ hx _ ih =>
    intro hl hc
    simp only [List.mem_append, not_or] at hl hc
    rcases hc with hc | hc | hc
    · exact hl.1 hc
    · exact authorMark_semi (v := []) hA hx (by simpa using hl.2.1) (ih hl.2.2) hc
    · exact ih hl.2.2 hc
  | wide _ _ hA _ _ hx _ ih =>
    intro hl hc
    simp only [List.mem_append, not_or] at hl hc
    rcases hc with hc | hc
    · exact authorMark_semi hA hx (by simp [hl.1, hl.2.1]) (ih hl.2.2) hc
    · exact ih hl.2.2 hc

end Py
