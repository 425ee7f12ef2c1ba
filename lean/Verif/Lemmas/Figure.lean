import Verif.Lemmas.Find
import Verif.Spec.Figure

/-!
# Lemmas about the numbers at the axes of a figure
-/

open Py Spec
open scoped List

namespace Py

variable [UnicodeDB]

/-- Characters left out of the test for digits. -/
def signChar (c : Char) : Bool := c == ' ' || c == '.' || c == '-' || c == '+' || c == '×' || c == '−'

omit [UnicodeDB] in
theorem signChar_eq (c : Char) : signChar c = (c == ' ' || signs.contains c) := by
  simp only [signChar, signs, List.contains_cons, List.contains_nil, Bool.or_false, Bool.or_assoc]

theorem isDigitC_not_space {c : Char} (h : isDigitC c = true) : isSpace c = false := by
  by_cases ha : isAscii c = true
  · rw [isDigitC, if_pos ha] at h
    simp [isAsciiDigit] at h
    simp [isSpace]
    omega
  · rw [isDigitC, if_neg ha] at h
    exact UnicodeDB.digit_nspace c h

/-- White space stands in front of what has none, or behind. -/
theorem one_side {u v a d b : Str} {c : Char} (e : u ++ c :: v = a ++ d ++ b) (ha : ∀ x ∈ a, isSpace x = true) (hb : ∀ x ∈ b, isSpace x = true)
    (hd : ∀ x ∈ d, isSpace x = false) (hc : isSpace c = true) : (∀ x ∈ u, isSpace x = true) ∨ ∀ x ∈ v, isSpace x = true := by
  by_cases h1 : u.length ≤ a.length
  · left
    have := congrArg (List.take u.length) e
    rw [List.take_left, List.append_assoc, List.take_append_of_le_length h1] at this
    intro x hx
    rw [this] at hx
    exact ha x (List.mem_of_mem_take hx)
  · by_cases h2 : a.length + d.length ≤ u.length
    · right
      have h3 : (u ++ c :: v).drop (u.length + 1) = v := by simp [List.drop_append]
      have h4 : (a ++ d ++ b).drop (u.length + 1) = b.drop (u.length + 1 - (a ++ d).length) := by
        rw [List.drop_append, List.drop_eq_nil_of_le (by simp; omega), List.nil_append]
      have this : v = b.drop (u.length + 1 - (a ++ d).length) := by rw [← h3, e, h4]
      intro x hx
      rw [this] at hx
      exact hb x (List.mem_of_mem_drop hx)
    · exfalso
      have := congrArg (fun l => l[u.length]?) e
      rw [List.getElem?_append_right (Nat.le_refl _), List.append_assoc, List.getElem?_append_right (by omega), List.getElem?_append_left (by omega)] at this
      simp only [Nat.sub_self, List.getElem?_cons_zero] at this
      have := hd c (List.mem_of_getElem? this.symm)
      rw [hc] at this
      cases this

theorem numeral_facts {c : Char} (h : numeral c = true) : isSpace c = false ∧ signChar c = false ∧ isDigitC c = true := by
  simp only [numeral, Bool.and_eq_true, Bool.not_eq_true'] at h
  have hs := isDigitC_not_space h.1
  refine ⟨hs, ?_, h.1⟩
  rw [signChar_eq, h.2, Bool.or_false, beq_eq_false_iff_ne]
  rintro rfl
  cases hs

/-- What is left for the test: digits and white space that is not a blank. -/
theorem unsigned {l : Str} (h : ∀ c ∈ l, isSpace c = true ∨ numeral c = true ∨ c ∈ signs) :
    ∀ c ∈ l.filter (fun c => !signChar c), numeral c = true ∨ (isSpace c = true ∧ c ≠ ' ') := by
  intro c hc
  obtain ⟨h1, h2⟩ := List.mem_filter.1 hc
  rw [Bool.not_eq_true', signChar_eq, Bool.or_eq_false_iff, beq_eq_false_iff_ne] at h2
  rcases h c h1 with h | h | h
  · exact .inr ⟨h, h2.1⟩
  · exact .inl h
  · have : signs.contains c = true := by simpa using h
    rw [h2.2] at this
    cases this

theorem countP_unsigned (x : Str) : (x.filter fun c => !signChar c).countP numeral = x.countP numeral := by
  rw [List.countP_filter]
  apply List.countP_congr
  intro c _
  constructor
  · intro h; exact (Bool.and_eq_true_iff.1 h).1
  · intro h; simp [h, (numeral_facts h).2.1]

theorem digitLine_number {l : Str} (h : digitLine l = true) : NumbersLine l := by
  simp only [digitLine, Bool.and_eq_true, decide_eq_true_eq, isdigit, List.all_eq_true] at h
  obtain ⟨h1, -, h2⟩ := h
  obtain ⟨a, b, e, ha, hb, -⟩ := stripP_split isSpace (l.filter fun c => !signChar c)
  have e : (l.filter fun c => !signChar c) = a ++ digitTest l ++ b := e
  have hnum : ∀ c ∈ digitTest l, numeral c = true := by
    intro c hc
    have : c ∈ l.filter fun c => !signChar c := by rw [e]; simp [hc]
    have h3 := (List.mem_filter.1 this).2
    rw [Bool.not_eq_true', signChar_eq, Bool.or_eq_false_iff] at h3
    rw [numeral, h2 c hc, h3.2]
    rfl
  refine ⟨?_, ?_, ?_⟩
  · intro c hc
    by_cases hk : signChar c = true
    · rw [signChar_eq, Bool.or_eq_true, beq_iff_eq] at hk
      rcases hk with rfl | hk
      · exact .inl rfl
      · exact .inr (.inr (by simpa using hk))
    · have : c ∈ a ++ digitTest l ++ b := e ▸ List.mem_filter.2 ⟨hc, by simpa using hk⟩
      simp only [List.mem_append] at this
      rcases this with (h | h) | h
      · exact .inl (ha c h)
      · exact .inr (.inl (hnum c h))
      · exact .inl (hb c h)
  · rw [← countP_unsigned, e, List.countP_append, List.countP_append, List.countP_eq_length.2 hnum]
    omega
  · rintro u c v rfl hc hne
    have hs : signChar c = false := by
      cases hx : signChar c with
      | false => rfl
      | true =>
        exfalso
        simp only [signChar, Bool.or_eq_true, beq_iff_eq] at hx
        rcases hx with ((((rfl | rfl) | rfl) | rfl) | rfl) | rfl
        · exact hne rfl
        all_goals exact absurd hc (by decide)
    rw [List.filter_append, List.filter_cons_of_pos (by simp [hs])] at e
    have key : ∀ x : Str, (∀ d ∈ x.filter (fun c => !signChar c), isSpace d = true) → ∀ d ∈ x, numeral d = false := by
      intro x hx d hd
      cases hdd : numeral d with
      | false => rfl
      | true =>
        obtain ⟨h3, h4, -⟩ := numeral_facts hdd
        have := hx d (List.mem_filter.2 ⟨hd, by simp [h4]⟩)
        rw [h3] at this
        cases this
    rcases one_side e ha hb (fun x hx => (numeral_facts (hnum x hx)).1) hc with h | h
    · exact .inl (key u h)
    · exact .inr (key v h)

theorem number_digitLine {l : Str} (h : NumbersLine l) : digitLine l = true := by
  obtain ⟨a, b, e, ha, hb, h4, h5⟩ := stripP_split isSpace (l.filter fun c => !signChar c)
  have e : (l.filter fun c => !signChar c) = a ++ digitTest l ++ b := e
  have h4 : ∀ c ∈ (digitTest l).head?, isSpace c = false := h4
  have h5 : ∀ c ∈ (digitTest l).getLast?, isSpace c = false := h5
  have hF := unsigned h.chars
  have hw : ∀ x : Str, (∀ c ∈ x, isSpace c = true) → x.countP numeral = 0 := by
    intro x hx
    rw [List.countP_eq_zero]
    intro c hc hn
    have := hx c hc
    rw [(numeral_facts hn).1] at this
    cases this
  have hlen : 10 < (digitTest l).length := by
    have h1 := h.many
    rw [← countP_unsigned, e, List.countP_append, List.countP_append, hw a ha, hw b hb] at h1
    have := List.countP_le_length (p := numeral) (l := digitTest l)
    omega
  have hD : ∀ c ∈ digitTest l, numeral c = true := by
    intro c hc
    have hcF : c ∈ l.filter fun c => !signChar c := by rw [e]; simp [hc]
    rcases hF c hcF with h | ⟨h1, h2⟩
    · exact h
    · exfalso
      obtain ⟨p, q, hpq⟩ := List.append_of_mem hc
      have hp : ∃ x ∈ p, isSpace x = false := by
        rw [hpq] at h4
        cases p with
        | nil => have := h4 c rfl; rw [h1] at this; cases this
        | cons x p => exact ⟨x, by simp, h4 x rfl⟩
      have hq : ∃ x ∈ q, isSpace x = false := by
        rw [hpq] at h5
        cases hx : q.getLast? with
        | none =>
          rw [List.getLast?_eq_none_iff] at hx
          subst hx
          have := h5 c (by simp)
          rw [h1] at this
          cases this
        | some x => exact ⟨x, List.mem_of_getLast? hx, h5 x (by simp [List.getLast?_cons, hx])⟩
      rw [hpq, show a ++ (p ++ c :: q) ++ b = (a ++ p) ++ (c :: (q ++ b)) by simp] at e
      obtain ⟨l1, l2, rfl, e1, e2⟩ := List.filter_eq_append_iff.1 e
      obtain ⟨l3, l4, rfl, -, -, e4⟩ := List.filter_eq_cons_iff.1 e2
      have tell : ∀ x ∈ (l1 ++ (l3 ++ c :: l4)).filter (fun c => !signChar c), isSpace x = false → numeral x = true := by
        intro x hx hs
        rcases hF x hx with h | ⟨h, -⟩
        · exact h
        · rw [hs] at h; cases h
      obtain ⟨x, hx, hxs⟩ := hp
      obtain ⟨y, hy, hys⟩ := hq
      have hx1 : x ∈ l1 := (List.mem_filter.1 (show x ∈ l1.filter _ from e1 ▸ List.mem_append_right a hx)).1
      have hy1 : y ∈ l4 := (List.mem_filter.1 (show y ∈ l4.filter _ from e4 ▸ List.mem_append_left b hy)).1
      have hxn := tell x (by rw [e]; simp [hx]) hxs
      have hyn := tell y (by rw [e]; simp [hy]) hys
      rcases h.blanks (l1 ++ l3) c l4 (by simp) h1 h2 with h | h
      · have := h x (by simp [hx1])
        rw [hxn] at this
        cases this
      · have := h y hy1
        rw [hyn] at this
        cases this
  simp only [digitLine, Bool.and_eq_true, decide_eq_true_eq, isdigit, List.all_eq_true]
  refine ⟨hlen, ?_, fun c hc => (numeral_facts (hD c hc)).2.2⟩
  cases hx : digitTest l with
  | nil => rw [hx] at hlen; cases hlen
  | cons => rfl

theorem digitLoop_late {ls : List Str} : ∀ {k dl nd : Nat}, nd < k → k ≤ dl → digitLoop k dl nd ls = false := by
  induction ls with
  | nil =>
    intro k dl nd h1 h2
    rw [digitLoop]
    exact beq_eq_false_iff_ne.2 (by omega)
  | cons l ls ih =>
    intro k dl nd h1 h2
    rw [digitLoop]
    split
    · split
      · exact ih (by omega) (by omega)
      · split
        · exact ih (by omega) (by omega)
        · exact ih (by omega) (by omega)
    · exact beq_eq_false_iff_ne.2 (by omega)

theorem digitLoop_step {k : Nat} {ls : List Str} (hk : k < 4) : digitLoop k 4 k ls = true ↔ ∃ l rest, ls = l :: rest ∧ digitLine l = true ∧ digitLoop (k + 1) 4 (k + 1) rest = true := by
  cases ls with
  | nil =>
    rw [digitLoop]
    simp
    omega
  | cons l ls =>
    rw [digitLoop, if_pos hk]
    by_cases hd : digitLine l = true
    · rw [if_pos hd]
      constructor
      · exact fun h => ⟨l, ls, rfl, hd, h⟩
      · rintro ⟨_, _, ⟨⟩, -, h⟩
        exact h
    · rw [if_neg hd]
      have : (if (digitTest l).isEmpty = true then digitLoop (k + 1) (4 + 1) k ls else digitLoop (k + 1) 4 k ls) = false := by
        split
        · exact digitLoop_late (by omega) (by omega)
        · exact digitLoop_late (by omega) (by omega)
      rw [this]
      simp [hd]

/-- Blank lines do not matter: three lines of digits have to follow at once. -/
theorem digitLoop_iff {ls : List Str} : digitLoop 1 4 1 ls = true ↔ ∀ i < 3, ∃ l, ls[i]? = some l ∧ digitLine l = true := by
  have h4 : ∀ rest : List Str, digitLoop 4 4 4 rest = true := by
    intro rest
    cases rest <;> simp [digitLoop]
  rw [digitLoop_step (by omega)]
  constructor
  · rintro ⟨a, r, rfl, ha, h⟩
    obtain ⟨b, r, rfl, hb, h⟩ := (digitLoop_step (by omega)).1 h
    obtain ⟨c, r, rfl, hc, -⟩ := (digitLoop_step (by omega)).1 h
    intro i hi
    match i, hi with
    | 0, _ => exact ⟨a, rfl, ha⟩
    | 1, _ => exact ⟨b, rfl, hb⟩
    | 2, _ => exact ⟨c, rfl, hc⟩
  · intro h
    obtain ⟨a, e1, ha⟩ := h 0 (by omega)
    obtain ⟨b, e2, hb⟩ := h 1 (by omega)
    obtain ⟨c, e3, hc⟩ := h 2 (by omega)
    match ls, e1, e2, e3 with
    | _ :: _ :: _ :: rest, rfl, rfl, rfl =>
      exact ⟨_, _, rfl, ha, (digitLoop_step (by omega)).2 ⟨_, _, rfl, hb, (digitLoop_step (by omega)).2 ⟨_, _, rfl, hc, h4 _⟩⟩⟩

theorem figure_iff {l : Str} {ls : List Str} : (digitLine l && digitLoop 1 4 1 ls) = true ↔ FigureAt (l :: ls) 0 := by
  have hd : ∀ l, digitLine l = true ↔ NumbersLine l := fun l => ⟨digitLine_number, number_digitLine⟩
  rw [Bool.and_eq_true, digitLoop_iff]
  constructor
  · rintro ⟨h1, h2⟩ i hi
    rw [Nat.zero_add]
    cases i with
    | zero => exact ⟨l, rfl, (hd l).1 h1⟩
    | succ i =>
      obtain ⟨x, hx, h⟩ := h2 i (by omega)
      exact ⟨x, by simpa using hx, (hd x).1 h⟩
  · intro h
    constructor
    · obtain ⟨x, hx, h⟩ := h 0 (by omega)
      cases hx
      exact (hd _).2 h
    · intro i hi
      obtain ⟨x, hx, h⟩ := h (i + 1) (by omega)
      exact ⟨x, by simpa using hx, (hd x).2 h⟩

theorem figureAt_cons {l : Str} {ls : List Str} {k : Nat} : FigureAt (l :: ls) (k + 1) ↔ FigureAt ls k := by
  unfold FigureAt
  constructor
  · intro h i hi
    obtain ⟨x, hx, h⟩ := h i hi
    exact ⟨x, by rw [Nat.add_right_comm] at hx; simpa using hx, h⟩
  · intro h i hi
    obtain ⟨x, hx, h⟩ := h i hi
    exact ⟨x, by rw [Nat.add_right_comm]; simpa using hx, h⟩

theorem endLoop_figure {pats : List Re} {c n : Nat} {ls : List Str} (h : endLoop pats c ls = .ok n) :
    (∀ k, k + 1 < n → ¬ FigureAt ls k) ∧
      (n = ls.length ∨ (∃ l, ls[n]? = some l ∧ NextHeading l) ∨ ∃ k, n = k + 1 ∧ FigureAt ls k) := by
  induction ls generalizing c n with
  | nil => cases h; exact ⟨fun k hk => by omega, .inl rfl⟩
  | cons x ls ih =>
    rw [endLoop] at h
    obtain ⟨c', -, h⟩ := bind_ok h
    obtain ⟨b, hb, h⟩ := bind_ok h
    cases b with
    | true =>
      cases h
      refine ⟨fun k hk => by omega, .inr (.inl ⟨x, rfl, ?_⟩)⟩
      unfold titleEnds at hb
      split at hb
      · rename_i hm
        obtain ⟨⟨r, m⟩, hp⟩ := Option.isSome_iff_exists.1 hm
        obtain ⟨h1, h2⟩ := matchList_some hp
        exact ⟨r, h1, m, h2⟩
      · cases hb
    | false =>
      simp only [Bool.false_eq_true, if_false] at h
      by_cases hf : (digitLine x && digitLoop 1 4 1 ls) = true
      · rw [if_pos hf] at h
        cases h
        exact ⟨fun k hk => by omega, .inr (.inr ⟨0, rfl, figure_iff.1 hf⟩)⟩
      · rw [if_neg hf] at h
        obtain ⟨k, hk, h⟩ := bind_ok h
        cases h
        obtain ⟨h1, h2⟩ := ih hk
        refine ⟨fun j hj => ?_, ?_⟩
        · cases j with
          | zero => exact fun h => hf (figure_iff.2 h)
          | succ j => rw [figureAt_cons]; exact h1 j (by omega)
        · rcases h2 with h2 | ⟨l, h2, h3⟩ | ⟨j, h2, h3⟩
          · exact .inl (by simp [h2])
          · exact .inr (.inl ⟨l, by simpa using h2, h3⟩)
          · exact .inr (.inr ⟨j + 1, by omega, figureAt_cons.2 h3⟩)

end Py
