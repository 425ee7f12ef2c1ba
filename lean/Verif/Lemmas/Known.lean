import Verif.Spec.Known
import Verif.Lemmas.Calm
import Verif.Lemmas.Places

/-!
# How a plain line is compared with titles
-/

open Py Spec
open scoped List

namespace Py

/-! ### Runs of blanks -/

theorem squeezed_append {a b : Str} (h : a.getLast? ≠ some ' ' ∨ b.head? ≠ some ' ') : squeezed (a ++ b) = squeezed a ++ squeezed b := by
  induction a with
  | nil => rfl
  | cons c a ih =>
    have h' : a.getLast? ≠ some ' ' ∨ b.head? ≠ some ' ' := by
      rcases h with h | h
      · cases a with
        | nil => left; simp
        | cons d a => left; simpa using h
      · exact .inr h
    rw [List.cons_append, squeezed, squeezed, ih h']
    cases a with
    | nil =>
      rw [if_neg (by rintro ⟨rfl, hb⟩; exact h.elim (fun h => h (by simp)) (fun h => h hb)), if_neg (by simp)]
      rfl
    | cons d a =>
      by_cases hc : c = ' ' ∧ d = ' '
      · rw [if_pos ⟨hc.1, by rw [hc.2]; rfl⟩, if_pos ⟨hc.1, by rw [hc.2]; rfl⟩]
      · rw [if_neg (fun h => hc ⟨h.1, by simpa using h.2⟩), if_neg (fun h => hc ⟨h.1, by simpa using h.2⟩)]
        rfl

theorem squeezed_head (s : Str) : (squeezed s).head? = s.head? := by
  induction s with
  | nil => rfl
  | cons c s ih =>
    rw [squeezed]
    split
    · rename_i h
      rw [ih, h.2, h.1]; rfl
    · rfl

theorem squeezed_last (s : Str) : (squeezed s).getLast? = s.getLast? := by
  induction s with
  | nil => rfl
  | cons c s ih =>
    rw [squeezed]
    split
    · rename_i h
      rw [ih]
      cases s with
      | nil => simp at h
      | cons d s => simp
    · cases s with
      | nil => rfl
      | cons d s =>
        have : squeezed (d :: s) ≠ [] := by
          intro e
          have := squeezed_head (d :: s)
          rw [e] at this; cases this
        rw [List.getLast?_cons, List.getLast?_cons, ih]

theorem squeezed_mem {s : Str} {c : Char} (h : c ∈ squeezed s) : c ∈ s := by
  induction s with
  | nil => exact h
  | cons d s ih =>
    rw [squeezed] at h
    split at h
    · exact .tail _ (ih h)
    · rcases List.mem_cons.1 h with rfl | h
      · exact .head _
      · exact .tail _ (ih h)

theorem squeezed_blanks {w : Str} (hw : ∀ c ∈ w, c = ' ') (hn : w ≠ []) : squeezed w = [' '] := by
  induction w with
  | nil => exact absurd rfl hn
  | cons c w ih =>
    have hc := hw c (by simp)
    subst hc
    cases w with
    | nil => rfl
    | cons d w =>
      have hd := hw d (by simp)
      subst hd
      rw [squeezed, if_pos ⟨rfl, rfl⟩]
      exact ih (fun c hc => hw c (by simp [hc])) (by simp)

theorem noDouble_tail {c : Char} {s : Str} (h : NoDoubleSpace (c :: s)) : NoDoubleSpace s := by
  rintro ⟨a, w, v, b, rfl, h1, h2⟩
  exact h ⟨c :: a, w, v, b, rfl, h1, h2⟩

/-- In a text whose only white space is the blank, making every run one blank is the only way to squeeze it. -/
theorem squeezes_squeezed {s t : Str} (h : Squeezes s t) (hn : NoDoubleSpace t) (hs : ∀ c ∈ s, isSpace c = true → c = ' ') : t = squeezed s := by
  induction h with
  | nil => rfl
  | @ch c s t h ih =>
    have ht : NoDoubleSpace t := noDouble_tail hn
    have e := ih ht (fun c hc => hs c (by simp [hc]))
    rw [squeezed, if_neg, ← e]
    rintro ⟨rfl, h2⟩
    have : t.head? = some ' ' := by rw [e, squeezed_head]; exact h2
    cases t with
    | nil => cases this
    | cons d t =>
      cases this
      exact hn ⟨[], ' ', ' ', t, rfl, rfl, rfl⟩
  | @run w s t h2 hw h ih =>
    have ht : NoDoubleSpace t := noDouble_tail hn
    have e := ih ht (fun c hc => hs c (by simp [hc]))
    have hb : ∀ c ∈ w, c = ' ' := fun c hc => hs c (by simp [hc]) (hw c hc)
    rw [squeezed_append, squeezed_blanks hb (by intro e; rw [e] at h2; simp at h2), ← e]
    · rfl
    · right
      intro h3
      have : t.head? = some ' ' := by rw [e, squeezed_head]; exact h3
      cases t with
      | nil => cases this
      | cons d t =>
        cases this
        exact hn ⟨[], ' ', ' ', t, rfl, rfl, rfl⟩

/-- Squeezing keeps the characters that are no white space. -/
theorem squeezes_solid {s t : Str} (h : Squeezes s t) : t.filter (fun c => !isSpace c) = s.filter (fun c => !isSpace c) := by
  induction h with
  | nil => rfl
  | ch c _ ih => simp only [List.filter_cons, ih]
  | @run w s t h2 hw h ih =>
    rw [List.filter_append, List.filter_eq_nil_iff (l := w).2 (fun c hc => by simp [hw c hc]), List.nil_append, ← ih]
    rfl

theorem squeezes_head {s t : Str} (h : Squeezes s t) {c : Char} (hc : t.head? = some c) (hs : isSpace c = false) : s.head? = some c := by
  cases h with
  | nil => exact hc
  | ch d _ => exact hc
  | run _ _ _ => cases hc; cases hs

theorem squeezes_append {s t s' t' : Str} (h : Squeezes s t) (h' : Squeezes s' t') : Squeezes (s ++ s') (t ++ t') := by
  induction h with
  | nil => exact h'
  | ch c _ ih => exact .ch c ih
  | run h2 hw _ ih => rw [List.append_assoc]; exact .run h2 hw ih

theorem squeezes_rev {s t : Str} (h : Squeezes s t) : Squeezes s.reverse t.reverse := by
  induction h with
  | nil => exact .nil
  | ch c _ ih => rw [List.reverse_cons, List.reverse_cons]; exact squeezes_append ih (.ch c .nil)
  | @run w s t h2 hw _ ih =>
    rw [List.reverse_append, List.reverse_cons]
    have := squeezes_append ih (.run (w := w.reverse) (s := []) (by simpa using h2) (fun c hc => hw c (by simpa using hc)) .nil)
    simpa using this

theorem squeezes_last {s t : Str} (h : Squeezes s t) {c : Char} (hc : t.getLast? = some c) (hs : isSpace c = false) : s.getLast? = some c := by
  rw [← List.head?_reverse]
  exact squeezes_head (squeezes_rev h) (by rw [List.head?_reverse]; exact hc) hs

/-- Two ways to cut a text where solid characters stand on the side of the second part. -/
theorem solid_cut {a b A B : Str} (e : a ++ b = A ++ B) (hs : a.filter (fun c => !isSpace c) = A.filter (fun c => !isSpace c))
    (hb : ∃ c, b.head? = some c ∧ isSpace c = false) (hB : ∃ c, B.head? = some c ∧ isSpace c = false) : a = A ∧ b = B := by
  have key : ∀ {a b A B d : Str}, A = a ++ d → b = d ++ B → a.filter (fun c => !isSpace c) = A.filter (fun c => !isSpace c) →
      (∃ c, b.head? = some c ∧ isSpace c = false) → d = [] := by
    intro a b A B d e1 e2 hs hb
    subst e1 e2
    cases d with
    | nil => rfl
    | cons x d =>
      obtain ⟨c, h1, h2⟩ := hb
      cases h1
      rw [List.filter_append, List.filter_cons, if_pos (by simp [h2])] at hs
      have := congrArg List.length hs
      simp at this
  rcases List.append_eq_append_iff.1 e with ⟨d, e1, e2⟩ | ⟨d, e1, e2⟩
  · have := key e1 e2 hs hb
    subst this
    simp at e1 e2
    exact ⟨e1.symm, e2⟩
  · have := key e1 e2 hs.symm hB
    subst this
    simp at e1 e2
    exact ⟨e1, e2.symm⟩

theorem solid_cut' {a b A B : Str} (e : a ++ b = A ++ B) (hs : a.filter (fun c => !isSpace c) = A.filter (fun c => !isSpace c))
    (ha : ∃ c, a.getLast? = some c ∧ isSpace c = false) (hA : ∃ c, A.getLast? = some c ∧ isSpace c = false) : a = A ∧ b = B := by
  have h1 : (a ++ b).filter (fun c => !isSpace c) = (A ++ B).filter (fun c => !isSpace c) := by rw [e]
  rw [List.filter_append, List.filter_append, hs] at h1
  have h2 := List.append_cancel_left h1
  have := solid_cut (a := b.reverse) (b := a.reverse) (A := B.reverse) (B := A.reverse)
    (by rw [← List.reverse_append, ← List.reverse_append, e]) (by rw [List.filter_reverse, List.filter_reverse, h2])
    (by simpa [List.head?_reverse] using ha) (by simpa [List.head?_reverse] using hA)
  exact ⟨by simpa using this.2, by simpa using this.1⟩

variable [UnicodeDB]

theorem compress_squeezed {s : Str} (hs : ∀ c ∈ s, isSpace c = true → c = ' ') : (compressSpaces s).2 = squeezed s := by
  obtain ⟨h1, h2⟩ := Props.C25_compress s
  exact squeezes_squeezed h1 h2 hs

/-- Where a text of the squeezed line stands in the line. -/
theorem squeezed_place {A B C : Str} (hs : ∀ c ∈ A ++ B ++ C, isSpace c = true → c = ' ')
    (h1 : ∃ c, B.head? = some c ∧ isSpace c = false) (h2 : ∃ c, B.getLast? = some c ∧ isSpace c = false) :
    (compressSpaces (A ++ B ++ C)).2 = squeezed A ++ squeezed B ++ squeezed C ∧
    accountSpaces (sortBy (fun x y => decide (x.1 ≤ y.1)) (compressSpaces (A ++ B ++ C)).1) (some (squeezed B).length) (squeezed A).length =
      (A.length, B.length - (squeezed B).length) ∧ (squeezed B).length ≤ B.length := by
  obtain ⟨x, hx, hx'⟩ := h1
  obtain ⟨y, hy, hy'⟩ := h2
  have hBne : B ≠ [] := by rintro rfl; cases hx
  have e0 : (compressSpaces (A ++ B ++ C)).2 = squeezed A ++ squeezed B ++ squeezed C := by
    rw [compress_squeezed hs, squeezed_append, squeezed_append]
    · right; rw [hx]; rintro h; cases h; cases hx'
    · left
      rw [List.getLast?_append, hy]; rintro h; cases h; cases hy'
  refine ⟨e0, ?_⟩
  obtain ⟨a, b, c, e1, e2, e3, e4, e5, e6⟩ := Props.C25_positions (A ++ B ++ C) (squeezed A).length (squeezed B).length (by rw [e0]; simp)
  rw [e0] at e4 e5 e6
  rw [List.append_assoc, List.take_left] at e4
  rw [List.append_assoc, List.drop_left, List.take_left] at e5
  have key : ∀ {s : Str}, (squeezed s).filter (fun c => !isSpace c) = s.filter (fun c => !isSpace c) := by
    intro s
    induction s with
    | nil => rfl
    | cons c s ih =>
      rw [squeezed]
      split
      · rename_i h
        rw [ih, h.1, List.filter_cons, if_neg (by decide)]
      · rw [List.filter_cons, List.filter_cons, ih]
  have hb1 : b.head? = some x := squeezes_head e5 (by rw [squeezed_head, hx]) hx'
  have hb2 : b.getLast? = some y := squeezes_last e5 (by rw [squeezed_last, hy]) hy'
  have hbne : b ≠ [] := by rintro rfl; cases hb1
  obtain ⟨rfl, r1⟩ := solid_cut (a := a) (b := b ++ c) (A := A) (B := B ++ C) (by rw [← List.append_assoc, ← e1, List.append_assoc])
    (by rw [← squeezes_solid e4, key]) ⟨x, by rw [List.head?_append, hb1]; rfl, hx'⟩ ⟨x, by rw [List.head?_append, hx]; rfl, hx'⟩
  obtain ⟨rfl, -⟩ := solid_cut' r1 (by rw [← squeezes_solid e5, key]) ⟨y, hb2, hy'⟩ ⟨y, hy, hy'⟩
  exact ⟨e2, e3⟩

end Py
