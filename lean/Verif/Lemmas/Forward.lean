import Verif.Lemmas.First

/-!
# Helper lemmas: computing the match that the engine prefers
-/

open Spec

namespace Py

variable [UnicodeDB]

theorem go_seq {a b : Re} {s u t : St} (h1 : First a s u) (h2 : First b u t) : First (a ⬝ b) s t := by
  unfold First at *
  simp only [run]
  cases hl : run a s with
  | nil => rw [hl] at h1; cases h1
  | cons x l =>
    rw [hl] at h1
    cases h1
    rw [List.flatMap_cons, List.head?_append, h2]
    rfl

theorem go_set {k : CSet} {c : Char} (h : k.mem c = true) (p r : Str) (caps : List Cap) : First (.set k) ⟨p, c :: r, caps⟩ ⟨c :: p, r, caps⟩ := by
  simp [First, run, h]

theorem go_alt {a b : Re} {s t : St} (h : First a s t) : First (.alt a b) s t := by
  unfold First at *
  simp only [run, List.head?_append, h]
  rfl

theorem go_opt {a : Re} {s t : St} (h : First a s t) : First (Re.opt a) s t := go_alt h

theorem go_opt_none {a : Re} {s : St} (h : run a s = []) : First (Re.opt a) s s := by
  simp [First, Re.opt, run, h]

theorem go_group {g : Nat} {a : Re} {p q r : Str} {caps caps' : List Cap} (h : First a ⟨p, q, caps⟩ ⟨r.reverse ++ p, r', caps'⟩) :
    First (.group g a) ⟨p, q, caps⟩ ⟨r.reverse ++ p, r', ⟨g, p.length, r⟩ :: caps'⟩ := by
  unfold First at *
  simp only [run, List.head?_map, h, Option.map_some]
  simp

theorem go_strI : ∀ {x w : Str}, FoldsTo x w → ∀ (p r : Str) (caps : List Cap), First (Re.strI w) ⟨p, x ++ r, caps⟩ ⟨x.reverse ++ p, r, caps⟩
  | _, _, .nil, p, r, caps => by simp [First, Re.strI, run]
  | _, _, @All2.cons _ _ _ c d x w hc h, p, r, caps => by
    have h1 : First (Re.chI d) ⟨p, c :: (x ++ r), caps⟩ ⟨c :: p, x ++ r, caps⟩ := go_set (chI_mem.2 hc) _ _ _
    cases h with
    | nil => exact h1
    | @cons c' d' x' w' hc' h' =>
      have h2 := go_strI (All2.cons hc' h') (c :: p) r caps
      have := go_seq h1 h2
      have e : Re.strI (d :: d' :: w') = Re.chI d ⬝ Re.strI (d' :: w') := rfl
      rw [e]
      simpa using this

/-- A greedy repetition of a class takes all it can. -/
theorem go_star_set {k : CSet} {rest : Str} (hr : ∀ c, rest.head? = some c → k.mem c = false) (caps : List Cap) : ∀ {w : Str}, (∀ c ∈ w, k.mem c = true) →
    ∀ p, First (.star true (.set k)) ⟨p, w ++ rest, caps⟩ ⟨w.reverse ++ p, rest, caps⟩ := by
  intro w
  unfold First
  simp only [run_star_set]
  induction w with
  | nil =>
    intro _ p
    cases rest with
    | nil => rfl
    | cons c r => simp [greedySt, hr c rfl]
  | cons c w ih =>
    intro hw p
    simp only [List.cons_append, greedySt, hw c (by simp), if_true, List.head?_append]
    rw [ih (fun c hc => hw c (by simp [hc])) (c :: p)]
    simp

theorem go_plus_set {k : CSet} {rest : Str} (hr : ∀ c, rest.head? = some c → k.mem c = false) (caps : List Cap) {w : Str} (hn : w ≠ []) (hw : ∀ c ∈ w, k.mem c = true)
    (p : Str) : First (Re.plus (.set k)) ⟨p, w ++ rest, caps⟩ ⟨w.reverse ++ p, rest, caps⟩ := by
  cases w with
  | nil => exact absurd rfl hn
  | cons c w =>
    have := go_seq (go_set (hw c (by simp)) p (w ++ rest) caps) (go_star_set hr caps (fun c hc => hw c (by simp [hc])) (c :: p))
    simpa [Re.plus] using this

omit [UnicodeDB] in
theorem iter_enough {g : Bool} {f : St → List St} : ∀ (n : Nat) (s : St), s.post.length ≤ n → iter g f n s = iter g f s.post.length s
  | n, s, h => by
    induction n using Nat.strongRecOn generalizing s with
    | _ n ih =>
    cases n with
    | zero =>
      have : s.post.length = 0 := by omega
      rw [this]
    | succ n =>
      cases hl : s.post.length with
      | zero =>
        have h0 : (f s).filter (fun t => decide (t.post.length < 0)) = [] := by simp
        simp only [iter, hl, h0, List.flatMap_nil]
        cases g <;> rfl
      | succ m =>
        have e : ((f s).filter fun t => t.post.length < s.post.length).flatMap (iter g f n) =
            ((f s).filter fun t => t.post.length < s.post.length).flatMap (iter g f m) := by
          rw [List.flatMap_def, List.flatMap_def]
          congr 1
          refine List.map_congr_left fun t ht => ?_
          have h1 := (List.mem_filter.1 ht).2
          simp only [decide_eq_true_eq] at h1
          rw [ih n (by omega) t (by omega), ih m (by omega) t (by omega)]
        simp only [iter, e]

theorem go_star_nil {a : Re} {s : St} (h : run a s = []) : First (.star true a) s s := by
  unfold First
  simp only [run]
  cases s.post.length with
  | zero => rfl
  | succ n => simp [iter, h]

theorem go_star_cons {a : Re} {s u t : St} (h : First a s u) (hl : u.post.length < s.post.length) (ht : First (.star true a) u t) : First (.star true a) s t := by
  unfold First at *
  simp only [run] at ht ⊢
  cases hn : s.post.length with
  | zero => omega
  | succ n =>
    cases hr : run a s with
    | nil => rw [hr] at h; cases h
    | cons x l =>
      rw [hr] at h
      cases h
      simp only [iter, hr, List.filter_cons, hl, decide_true, if_true, List.flatMap_cons, List.append_assoc, List.head?_append]
      rw [iter_enough n u (by omega), ht]
      rfl

theorem run_set_nil {k : CSet} {p q : Str} {caps : List Cap} (h : ∀ c, q.head? = some c → k.mem c = false) : run (.set k) ⟨p, q, caps⟩ = [] := by
  cases q with
  | nil => rfl
  | cons c q => simp [run, h c rfl]

theorem run_seq_nil {a b : Re} {s : St} (h : run a s = []) : run (a ⬝ b) s = [] := by simp [run, h]

/-- What the engine finds, from the way it prefers. -/
theorem match_of_first {r : Re} {p w rest : Str} {caps : List Cap} (h : First r ⟨p, w ++ rest, []⟩ ⟨w.reverse ++ p, rest, caps⟩) :
    matchHere r false p (w ++ rest) = some ⟨p.length, w, caps⟩ := by
  have e : matchHere r false p (w ++ rest) = ((run r ⟨p, w ++ rest, []⟩).head?).map (mkMatch p) := by
    simp only [matchHere, runK_eq, Bool.false_and, Bool.false_eq_true, if_false]
    cases run r ⟨p, w ++ rest, []⟩ <;> rfl
  rw [e, h]
  simp [mkMatch]

end Py
