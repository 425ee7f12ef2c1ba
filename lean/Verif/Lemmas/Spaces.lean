import Verif.Lemmas.Tag
import Verif.Lemmas.Lines

/-!
# Positions in a line with squeezed white space
-/

open Spec

namespace Py

/-- The recorded runs of a list of pieces that starts at `off`. -/
def runsAt : Nat → List Piece → List (Nat × Nat)
  | _, [] => []
  | off, .ch _ :: ps => runsAt (off + 1) ps
  | off, .hit m :: ps => (off, m.txt.length - 1) :: runsAt (off + m.txt.length) ps

theorem runsAt_eq [UnicodeDB] {r : Re} {pre s : Str} {ps : List Piece} (h : Scanned r pre s ps) :
    (ps.filterMap Piece.match?).map (fun m => (m.start, m.txt.length - 1)) = runsAt pre.length ps := by
  induction h with
  | nil => rfl
  | @ch pre c t ps _ _ ih => rw [List.filterMap_cons]; simpa [Piece.match?, runsAt] using ih
  | @hit pre t ps m hm _ _ ih =>
    rw [List.filterMap_cons]
    simp only [Piece.match?, List.map_cons, runsAt, ih, (matchHere_ok hm).1.start]
    simp [Nat.add_comm]

theorem runsAt_ge : ∀ {off : Nat} {ps : List Piece} {x : Nat × Nat}, x ∈ runsAt off ps → off ≤ x.1
  | _, [], _, h => by cases h
  | off, .ch _ :: ps, x, h => by have := runsAt_ge (ps := ps) h; omega
  | off, .hit m :: ps, x, h => by
    rcases List.mem_cons.1 h with rfl | h
    · exact Nat.le_refl _
    · have := runsAt_ge (ps := ps) h; omega

theorem runsAt_sorted : ∀ (off : Nat) (ps : List Piece), (runsAt off ps).Pairwise (fun a b => decide (a.1 ≤ b.1) = true)
  | _, [] => .nil
  | off, .ch _ :: ps => runsAt_sorted _ ps
  | off, .hit m :: ps => .cons (fun x hx => by have := runsAt_ge hx; simp; omega) (runsAt_sorted _ ps)

theorem sortBy_of_sorted {α : Type} {le : α → α → Bool} : ∀ {l : List α}, l.Pairwise (fun a b => le a b = true) → sortBy le l = l
  | [], _ => rfl
  | x :: xs, h => by
    show insertBy le x (sortBy le xs) = x :: xs
    rw [sortBy_of_sorted h.of_cons]
    cases xs with
    | nil => rfl
    | cons y ys => rw [insertBy, if_pos (List.rel_of_pairwise_cons h (by simp))]

/-- Length of the original text of some pieces. -/
def olen (ps : List Piece) : Nat := (ps.flatMap Piece.orig).length

theorem olen_cons (p : Piece) (ps : List Piece) : olen (p :: ps) = p.orig.length + olen ps := by
  simp [olen]

theorem take_olen : ∀ {k : Nat} {ps : List Piece}, (∀ m, Piece.hit m ∈ ps → 2 ≤ m.txt.length) → k ≤ ps.length →
    k ≤ olen (ps.take k)
  | 0, _, _, _ => Nat.zero_le _
  | k + 1, [], _, h => by simp at h
  | k + 1, p :: ps, h, hk => by
    have ih := take_olen (k := k) (ps := ps) (fun m hm => h m (by simp [hm])) (by simp at hk; omega)
    rw [List.take_succ_cons, olen_cons]
    have : 1 ≤ p.orig.length := by
      cases p with
      | ch c => simp [Piece.orig]
      | hit m => have := h m (by simp); simp only [Piece.orig]; omega
    omega

/-- After the end of the replaced text. -/
theorem spaces_after {len : Option Nat} {T sp e : Nat} : ∀ {l : List (Nat × Nat)},
    (∀ x ∈ l, T ≤ x.1 ∧ ∀ n, len = some n → sp + n ≤ x.1) → l.foldl (spaceStep len) (T, sp, e) = (T, sp, e)
  | [], _ => rfl
  | x :: l, h => by
    have hx := h x (by simp)
    rw [List.foldl_cons]
    have : spaceStep len (T, sp, e) x = (T, sp, e) := by
      unfold spaceStep
      rw [if_neg (by simp; exact hx.1)]
      cases len with
      | none => rfl
      | some n =>
        have := hx.2 n rfl
        simp only
        rw [if_neg (by omega)]
    rw [this, spaces_after fun y hy => h y (by simp [hy])]

/-- After the start of the replaced text. -/
theorem spaces_inside {n : Nat} : ∀ {ps : List Piece} {off T sp e k : Nat},
    (∀ m, Piece.hit m ∈ ps → 2 ≤ m.txt.length) → T ≤ off → sp + n = off + k → k ≤ ps.length → k ≤ n →
    (runsAt off ps).foldl (spaceStep (some n)) (T, sp, e) = (T, sp + (olen (ps.take k) - k), e + (olen (ps.take k) - k))
  | ps, off, T, sp, e, 0, h, h1, h2, h3, h4 => by
    rw [spaces_after]
    · simp [olen]
    · intro x hx
      have := runsAt_ge hx
      refine ⟨by omega, ?_⟩
      intro n' hn
      cases hn
      omega
  | .ch c :: ps, off, T, sp, e, k + 1, h, h1, h2, h3, h4 => by
    rw [runsAt]
    rw [spaces_inside (k := k) (fun m hm => h m (by simp [hm])) (by omega) (by omega) (by simp at h3; omega) (by omega)]
    rw [List.take_succ_cons, olen_cons]
    have : (Piece.ch c).orig.length = 1 := rfl
    rw [this]
    have e1 : 1 + olen (ps.take k) - (k + 1) = olen (ps.take k) - k := by omega
    rw [e1]
  | .hit m :: ps, off, T, sp, e, k + 1, h, h1, h2, h3, h4 => by
    have hm := h m (by simp)
    rw [runsAt, List.foldl_cons]
    have hs : spaceStep (some n) (T, sp, e) (off, m.txt.length - 1) = (T, sp + (m.txt.length - 1), e + (m.txt.length - 1)) := by
      rw [spaceStep, if_neg (by simp; omega)]
      simp only
      rw [if_pos (by omega)]
    rw [hs, spaces_inside (k := k) (fun m hm => h m (by simp [hm])) (by omega) (by omega) (by simp at h3; omega) (by omega)]
    rw [List.take_succ_cons, olen_cons]
    have : (Piece.hit m).orig.length = m.txt.length := rfl
    have hk := take_olen (k := k) (ps := ps) (fun m hm => h m (by simp [hm])) (by simp at h3; omega)
    rw [this]
    have e1 : m.txt.length + olen (ps.take k) - (k + 1) = (m.txt.length - 1) + (olen (ps.take k) - k) := by omega
    rw [e1, Nat.add_assoc, Nat.add_assoc]

/-- The whole computation, from a position `off` of the line. -/
theorem spaces_all {n : Nat} : ∀ {ps : List Piece} {off j : Nat},
    (∀ m, Piece.hit m ∈ ps → 2 ≤ m.txt.length) → j + n ≤ ps.length →
    ∃ sp, (runsAt off ps).foldl (spaceStep (some n)) (off + j, off + j, 0) =
      (off + olen (ps.take j), sp, olen ((ps.drop j).take n) - n)
  | ps, off, 0, h, h1 => by
    refine ⟨off + 0 + (olen (ps.take n) - n), (spaces_inside (k := n) h (by omega) (by omega) (by omega) (by omega)).trans ?_⟩
    simp [olen]
  | [], off, j + 1, h, h1 => by simp at h1
  | .ch c :: ps, off, j + 1, h, h1 => by
    obtain ⟨sp, ih⟩ := spaces_all (n := n) (ps := ps) (off := off + 1) (j := j) (fun m hm => h m (by simp [hm])) (by simp at h1; omega)
    refine ⟨sp, ?_⟩
    rw [runsAt]
    have e : off + (j + 1) = off + 1 + j := by omega
    rw [e, ih, List.take_succ_cons, List.drop_succ_cons, olen_cons]
    have : (Piece.ch c).orig.length = 1 := rfl
    rw [this, Nat.add_assoc]
  | .hit m :: ps, off, j + 1, h, h1 => by
    have hm := h m (by simp)
    obtain ⟨sp, ih⟩ := spaces_all (n := n) (ps := ps) (off := off + m.txt.length) (j := j) (fun m hm => h m (by simp [hm])) (by simp at h1; omega)
    refine ⟨sp, ?_⟩
    rw [runsAt, List.foldl_cons]
    have hs : spaceStep (some n) (off + (j + 1), off + (j + 1), 0) (off, m.txt.length - 1) =
        (off + m.txt.length + j, off + m.txt.length + j, 0) := by
      rw [spaceStep, if_pos (by simp)]
      have : off + (j + 1) + (m.txt.length - 1) = off + m.txt.length + j := by omega
      simp only [this]
    rw [hs, ih, List.take_succ_cons, List.drop_succ_cons, olen_cons]
    have : (Piece.hit m).orig.length = m.txt.length := rfl
    rw [this, Nat.add_assoc]

/-- The same without a length: nothing is added after the start. -/
theorem spaces_all_none : ∀ {ps : List Piece} {off j : Nat},
    (∀ m, Piece.hit m ∈ ps → 2 ≤ m.txt.length) → j ≤ ps.length →
    ∃ sp, (runsAt off ps).foldl (spaceStep none) (off + j, off + j, 0) = (off + olen (ps.take j), sp, 0)
  | ps, off, 0, h, h1 => by
    refine ⟨off + 0, (spaces_after fun x hx => ⟨by have := runsAt_ge hx; omega, by simp⟩).trans ?_⟩
    simp [olen]
  | [], off, j + 1, h, h1 => by simp at h1
  | .ch c :: ps, off, j + 1, h, h1 => by
    obtain ⟨sp, ih⟩ := spaces_all_none (ps := ps) (off := off + 1) (j := j) (fun m hm => h m (by simp [hm])) (by simp at h1; omega)
    refine ⟨sp, ?_⟩
    rw [runsAt]
    have e : off + (j + 1) = off + 1 + j := by omega
    rw [e, ih, List.take_succ_cons, olen_cons]
    have : (Piece.ch c).orig.length = 1 := rfl
    rw [this, Nat.add_assoc]
  | .hit m :: ps, off, j + 1, h, h1 => by
    have hm := h m (by simp)
    obtain ⟨sp, ih⟩ := spaces_all_none (ps := ps) (off := off + m.txt.length) (j := j) (fun m hm => h m (by simp [hm])) (by simp at h1; omega)
    refine ⟨sp, ?_⟩
    rw [runsAt, List.foldl_cons]
    have hs : spaceStep none (off + (j + 1), off + (j + 1), 0) (off, m.txt.length - 1) =
        (off + m.txt.length + j, off + m.txt.length + j, 0) := by
      rw [spaceStep, if_pos (by simp)]
      have : off + (j + 1) + (m.txt.length - 1) = off + m.txt.length + j := by omega
      simp only [this]
    rw [hs, ih, List.take_succ_cons, olen_cons]
    have : (Piece.hit m).orig.length = m.txt.length := rfl
    rw [this, Nat.add_assoc]

/-- Squeezed pieces. -/
theorem squeezes_pieces : ∀ {ps : List Piece},
    (∀ m, Piece.hit m ∈ ps → 2 ≤ m.txt.length ∧ ∀ c ∈ m.txt, isSpace c = true) →
    Squeezes (ps.flatMap Piece.orig) (ps.flatMap (Piece.out fun _ => [' ']))
  | [], _ => .nil
  | .ch c :: ps, h => .ch c (squeezes_pieces fun m hm => h m (by simp [hm]))
  | .hit m :: ps, h => by
    have hm := h m (by simp)
    exact .run hm.1 hm.2 (squeezes_pieces fun m hm => h m (by simp [hm]))

theorem out_take : ∀ {ps : List Piece} (i : Nat),
    (ps.flatMap (Piece.out fun _ => [' '])).take i = (ps.take i).flatMap (Piece.out fun _ => [' ']) ∧
    (ps.flatMap (Piece.out fun _ => [' '])).drop i = (ps.drop i).flatMap (Piece.out fun _ => [' '])
  | [], i => by simp
  | p :: ps, 0 => by simp
  | p :: ps, i + 1 => by
    obtain ⟨h1, h2⟩ := out_take (ps := ps) i
    cases p <;> simp [Piece.out, h1, h2]

theorem out_length : ∀ {ps : List Piece}, (ps.flatMap (Piece.out fun _ => [' '])).length = ps.length
  | [] => rfl
  | p :: ps => by
    have := out_length (ps := ps)
    cases p <;> simpa [Piece.out] using this

theorem multi_hits [UnicodeDB] {pre s : Str} {ps : List Piece} (h : Scanned Rx.re_multiple_space pre s ps) :
    ∀ m, Piece.hit m ∈ ps → 2 ≤ m.txt.length ∧ ∀ c ∈ m.txt, isSpace c = true := by
  induction h with
  | nil => simp
  | ch _ _ ih => intro m hm; simp at hm; exact ih m hm
  | hit h1 _ _ ih =>
    intro m hm
    simp only [List.mem_cons, Piece.hit.injEq] at hm
    rcases hm with rfl | hm
    · obtain ⟨rest, _, h4⟩ := matchHere_sem h1
      rwa [sem_multi] at h4
    · exact ih m hm

end Py
