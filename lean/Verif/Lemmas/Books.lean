import Verif.Model.Books
import Verif.Spec.Books
import Verif.Lemmas.Parse2

/-!
# Lemmas about finding book titles
-/

open Spec

namespace Py

theorem charIff (P Q : Char → Prop) [DecidablePred P] [DecidablePred Q] (hP : ∀ c, P c → c.toNat < 128) (hQ : ∀ c, Q c → c.toNat < 128)
    (h : ∀ n < 128, P (Char.ofNat n) ↔ Q (Char.ofNat n)) (c : Char) : P c ↔ Q c := by
  by_cases hc : c.toNat < 128
  · have := h c.toNat hc
    rwa [Char.ofNat_toNat] at this
  · exact ⟨fun x => absurd (hP c x) hc, fun x => absurd (hQ c x) hc⟩

theorem isAlnumUp_iff (c : Char) : isAlnumUp c = true ↔ Alnum c := by
  refine charIff (fun c => isAlnumUp c = true) Alnum ?_ ?_ (by decide) c
  · intro c h
    simp only [isAlnumUp, isAsciiUpper, isAsciiDigit, Bool.or_eq_true, Bool.and_eq_true, decide_eq_true_eq] at h
    omega
  · intro c h
    have : ∀ c ∈ py! "ABCDEFGHIJKLMNOPQRSTUVWXYZ0123456789", c.toNat < 128 := by decide
    exact this c h

theorem cutStop_iff (c : Char) : cutStop c = true ↔ EndsPunct c := by
  refine charIff (fun c => cutStop c = true) EndsPunct ?_ ?_ (by decide) c
  · intro c h
    simp only [cutStop, isAsciiLower, isAsciiUpper, isAsciiDigit, Bool.or_eq_true, Bool.and_eq_true, decide_eq_true_eq, beq_iff_eq] at h
    rcases h with (((((rfl | rfl) | rfl) | rfl) | h) | h) | h <;> first | decide | omega
  · intro c h
    rcases h with h | h | h
    · exact (by decide : ∀ c ∈ py! " [{(", c.toNat < 128) c h
    · exact (by decide : ∀ c ∈ py! "ABCDEFGHIJKLMNOPQRSTUVWXYZ0123456789", c.toNat < 128) c h
    · exact (by decide : ∀ c ∈ py! "abcdefghijklmnopqrstuvwxyz", c.toNat < 128) c h

theorem cleanUp_eq [UnicodeDB] (s : Str) : cleanUp s = alnums (upper s) := by
  unfold cleanUp alnums
  congr 1
  funext c
  rw [Bool.eq_iff_iff, isAlnumUp_iff]
  simp

theorem alnums_cons_pos {c : Char} {s : Str} (h : Alnum c) : alnums (c :: s) = c :: alnums s := by simp [alnums, h]
theorem alnums_cons_neg {c : Char} {s : Str} (h : ¬ Alnum c) : alnums (c :: s) = alnums s := by simp [alnums, h]
theorem alnums_append (a b : Str) : alnums (a ++ b) = alnums a ++ alnums b := by simp [alnums]

/-- The loop stops in front of the letter or digit number `n - i`. -/
theorem realIndex_spec (n : Nat) : ∀ (s : Str) (i : Nat), i ≤ n →
    ∃ a b, s = a ++ b ∧ realIndex n i s = a.length ∧
      ((b = [] ∧ (alnums a).length ≤ n - i) ∨ (AlnumFirst b ∧ (alnums a).length = n - i))
  | [], i, h => ⟨[], [], rfl, rfl, .inl ⟨rfl, by simp [alnums]⟩⟩
  | c :: s, i, h => by
    unfold realIndex
    dsimp only
    by_cases hc : Alnum c
    · rw [if_pos ((isAlnumUp_iff c).2 hc)]
      by_cases hi : n < i + 1
      · rw [if_pos hi]
        exact ⟨[], c :: s, rfl, rfl, .inr ⟨⟨c, s, rfl, hc⟩, by simp [alnums]; omega⟩⟩
      · rw [if_neg hi]
        obtain ⟨a, b, e, hr, ho⟩ := realIndex_spec n s (i + 1) (by omega)
        refine ⟨c :: a, b, by rw [e]; rfl, by rw [hr]; rfl, ?_⟩
        rw [alnums_cons_pos hc]
        simp only [List.length_cons]
        rcases ho with ⟨h1, h2⟩ | ⟨h1, h2⟩
        · exact .inl ⟨h1, by omega⟩
        · exact .inr ⟨h1, by omega⟩
    · rw [if_neg (fun h => hc ((isAlnumUp_iff c).1 h)), if_neg (by omega)]
      obtain ⟨a, b, e, hr, ho⟩ := realIndex_spec n s i h
      refine ⟨c :: a, b, by rw [e]; rfl, by rw [hr]; rfl, ?_⟩
      rw [alnums_cons_neg hc]
      exact ho

/-- Walking over a text that has the letters and digits `d`, in this order, in front. -/
theorem cutLoop_spec : ∀ (s clean : Str) (pos k : Nat) (r : Str), pos < clean.length → alnums s = clean.drop pos ++ r → (∀ c ∈ clean, Alnum c) →
    ∃ m b, s = m ++ b ∧ alnums m = clean.drop pos ∧ AlnumLast m ∧ cutLoop clean pos k s = .ok (some (k + m.length))
  | [], clean, pos, k, r, h, e, hc => by
    have := congrArg List.length e
    simp [alnums] at this
    omega
  | c :: s, clean, pos, k, r, h, e, hcl => by
    unfold cutLoop
    rw [List.getElem?_eq_getElem h]
    dsimp only
    have hd : clean.drop pos = clean[pos] :: clean.drop (pos + 1) := List.drop_eq_getElem_cons h
    by_cases hc : Alnum c
    · rw [alnums_cons_pos hc, hd, List.cons_append, List.cons.injEq] at e
      rw [if_pos e.1]
      by_cases hl : clean.length ≤ pos + 1
      · rw [if_pos hl]
        refine ⟨[c], s, rfl, ?_, ⟨[], c, rfl, hc⟩, rfl⟩
        rw [hd, List.drop_eq_nil_of_le hl, ← e.1, alnums_cons_pos hc]
        rfl
      · rw [if_neg hl]
        obtain ⟨m, b, h1, h2, ⟨x, y, h3, h3'⟩, h4⟩ := cutLoop_spec s clean (pos + 1) (k + 1) r (by omega) e.2 hcl
        refine ⟨c :: m, b, by rw [h1]; rfl, by rw [hd, alnums_cons_pos hc, h2, e.1], ⟨c :: x, y, by rw [h3]; rfl, h3'⟩, ?_⟩
        rw [h4, List.length_cons]
        congr 2
        omega
    · rw [alnums_cons_neg hc] at e
      have hne : c ≠ clean[pos] := fun h => hc (h ▸ hcl _ (List.getElem_mem _))
      rw [if_neg hne, if_neg (by omega)]
      obtain ⟨m, b, h1, h2, ⟨x, y, h3, h3'⟩, h4⟩ := cutLoop_spec s clean pos (k + 1) r h e hcl
      refine ⟨c :: m, b, by rw [h1]; rfl, by rw [alnums_cons_neg hc, h2], ⟨c :: x, y, by rw [h3]; rfl, h3'⟩, ?_⟩
      rw [h4, List.length_cons]
      congr 2
      omega

theorem alnums_all (s : Str) : ∀ c ∈ alnums s, Alnum c := by
  intro c hc
  simpa using (List.mem_filter.1 hc).2

theorem even_cons [UnicodeDB] {c : Char} {s : Str} (h : EvenUpper (c :: s)) : (∃ d, upperC c = [d]) ∧ EvenUpper s :=
  ⟨List.length_eq_one_iff.1 (h c (by simp)), fun x hx => h x (by simp [hx])⟩

theorem upper_append [UnicodeDB] (a b : Str) : upper (a ++ b) = upper a ++ upper b := by simp [upper]

/-- Positions in the upper-case text are positions in the text. -/
theorem upper_split [UnicodeDB] : ∀ {s a b : Str}, EvenUpper s → upper s = a ++ b → ∃ a' b', s = a' ++ b' ∧ upper a' = a ∧ upper b' = b ∧
    a'.length = a.length
  | s, [], b, _, e => ⟨[], s, rfl, rfl, e, rfl⟩
  | [], c :: a, b, h, e => by simp [upper] at e
  | x :: s, c :: a, b, h, e => by
    obtain ⟨⟨d, hd⟩, hs⟩ := even_cons h
    have : upper (x :: s) = d :: upper s := by simp [upper, hd]
    rw [this, List.cons_append, List.cons.injEq] at e
    obtain ⟨a', b', h1, h2, h3, h4⟩ := upper_split hs e.2
    exact ⟨x :: a', b', by rw [h1]; rfl, by simp only [upper, List.flatMap_cons, hd] at h2 ⊢; rw [h2, e.1]; rfl, h3, by simp [h4]⟩

theorem takeWhile_split {p : Char → Bool} (s : Str) : ∃ b, s = s.takeWhile p ++ b ∧ (b = [] ∨ ∃ c r, b = c :: r ∧ p c = false) := by
  refine ⟨s.dropWhile p, (List.takeWhile_append_dropWhile).symm, ?_⟩
  cases h : s.dropWhile p with
  | nil => exact .inl rfl
  | cons c r =>
    refine .inr ⟨c, r, rfl, ?_⟩
    have := List.head?_dropWhile_not p s
    rw [h] at this
    simpa using this

end Py
