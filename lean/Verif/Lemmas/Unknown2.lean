import Verif.Lemmas.Unknown

/-!
# Helper lemmas: a line of which nothing is known, from the elements to the reference
-/

namespace Py
open Spec
open scoped List

variable [UnicodeDB]

omit [UnicodeDB] in
/-- The element of a text. -/
def textEl (s : Str) : El := { ty := .misc, misc := s }

theorem yearOf_text {s y : Str} : YearOf [textEl s] y ↔ FirstYear s y := by
  have nd : ∀ e, ¬ FirstDated [textEl s] e := by
    rintro e ⟨a, b, h, hd, -⟩
    have he : e ∈ [textEl s] := by rw [h]; simp
    rw [List.mem_singleton.1 he] at hd
    rcases hd with h | ⟨h, -⟩ <;> cases h
  constructor
  · rintro (⟨e, he, -⟩ | ⟨-, a, e, b, h1, h2, -⟩)
    · exact absurd he (nd e)
    · have he : e ∈ [textEl s] := by rw [h1]; simp
      rw [List.mem_singleton.1 he] at h2
      exact h2
  · intro h
    exact .inr ⟨fun e he => absurd he (nd e), [], textEl s, [], rfl, h, by simp⟩

theorem firstYear_or (s : Str) : (∃ y, FirstYear s y) ∨ NoYear s := by
  by_cases hn : NoYear s
  · exact .inr hn
  · left
    have h := Classical.byContradiction fun h => hn h
    obtain ⟨a, y, b, h1, h2⟩ : ∃ a y b, s = a ++ y ++ b ∧ Isolated a y b := h
    have key : ∀ n, ∀ a y b : Str, a.length ≤ n → s = a ++ y ++ b → Isolated a y b → ∃ y, FirstYear s y := by
      intro n
      induction n with
      | zero =>
        intro a y b hl e i
        exact ⟨y, a, b, e, i, fun a' _ _ _ _ => by omega⟩
      | succ n ih =>
        intro a y b hl e i
        by_cases hs : ∃ a' y' b', s = a' ++ y' ++ b' ∧ Isolated a' y' b' ∧ a'.length < a.length
        · obtain ⟨a', y', b', e', i', h'⟩ := hs
          exact ih a' y' b' (by omega) e' i'
        · exact ⟨y, a, b, e, i, fun a' y' b' e' i' => by
            by_cases hh : a.length ≤ a'.length
            · exact hh
            · exact absurd ⟨a', y', b', e', i', by omega⟩ hs⟩
    exact key a.length a y b (Nat.le_refl _) h1 h2

theorem firstYear_part {s y : Str} (h : FirstYear s y) : contains s y = true := by
  obtain ⟨a, b, e, -, -⟩ := h
  exact (contains_iff _ _).2 ⟨a, b, e⟩

omit [UnicodeDB] in
/-- The last steps change nothing. -/
theorem finish_text {h : Heap} {c : List Nat} (k : ∀ i ∈ c, (h.get i).ty ∉ [.auth, .doi, .collaboration] ∧ (h.get i).recid = none) : dedupe h [c] = .ok (h, [c]) := by
  have h1 : ∀ (is : List Nat) (b : Bool), (∀ i ∈ is, (h.get i).ty ≠ .auth) → dupAuthors b h is = .ok h := by
    intro is
    induction is with
    | nil => intro b _; rfl
    | cons i is ih =>
      intro b hi
      simp only [dupAuthors]
      rw [if_neg (hi i (by simp))]
      exact ih b fun j hj => hi j (by simp [hj])
  have h2 : ∀ (is d : List Nat) (b : Bool), (∀ i ∈ is, (h.get i).ty ≠ .doi) → dupDois h b d is = d := by
    intro is
    induction is with
    | nil => intro d b _; rfl
    | cons i is ih =>
      intro d b hi
      rw [dupDois, if_neg (hi i (by simp))]
      exact ih d b fun j hj => hi j (by simp [hj])
  have h3 : ∀ (is d : List Nat) (b : List Str), (∀ i ∈ is, (h.get i).ty ≠ .collaboration) → dupCollabs h b d is = .ok d := by
    intro is
    induction is with
    | nil => intro d b _; rfl
    | cons i is ih =>
      intro d b hi
      rw [dupCollabs, if_neg (hi i (by simp))]
      exact ih d b fun j hj => hi j (by simp [hj])
  have h4 : c.find? (fun i => hasRecid (h.get i)) = none := by
    rw [List.find?_eq_none]
    intro i hi
    simp [hasRecid, (k i hi).2]
  have e1 := h1 c false fun i hi he => (k i hi).1 (by simp [he])
  have e2 := h2 c c false fun i hi he => (k i hi).1 (by simp [he])
  have e3 := h3 c c [] fun i hi he => (k i hi).1 (by simp [he])
  simp [dedupe, eachCit, dupAuthorsCit, dupDoisCit, dupCollabsCit, addRecid, e1, e2, e3, h4, okBind, pure, Except.pure, bind, Except.bind]

theorem post_text {special : List Str} {books : Books} {s : Str} (hh : finditer Rx.re_hdl s = []) (hs : ';' ∉ s)
    (hb : ∀ q ∈ books, ∀ u, Remains s u → ¬ alnums (upper q.1) <:+: alnums (upper u)) :
    (NoYear s ∧ postProcess special books none [textEl s] = .ok [[textEl s]]) ∨
    ∃ y u, FirstYear s y ∧ y ≠ [] ∧ YearErased y s u ∧ postProcess special books none [textEl s] = .ok [[textEl u, yearEl y]] := by
  have e1 : splitCitations [textEl s] = [[⟨0, textEl s⟩]] := by
    simp [splitCitations, number, splitGo, splitNeeded, textEl, hs, splitAppend, insertPostponed, typeKey, repeatable]
  have empty : ∀ q ∈ books, (∃ u, Remains s u) → ¬ alnums (upper q.1) <:+: alnums (upper ([] : Str)) := by
    rintro q hq ⟨u, hu⟩ hi
    refine hb q hq u hu ?_
    have h0 : alnums (upper ([] : Str)) = [] := by
      have h0 : upper ([] : Str) = [] := rfl
      rw [h0]; rfl
    rw [h0] at hi
    rw [List.infix_nil.1 hi]
    exact List.nil_infix
  rcases citationYear_spec [textEl s] (by intro e he; rw [List.mem_singleton.1 he]; intro h; cases h) with ⟨y, hc, hy, hyo⟩ | ⟨hc, hn⟩
  · right
    rw [yearOf_text] at hyo
    have her := removeYear_erased s y hy
    refine ⟨y, removeYear s y, hyo, hy, her, ?_⟩
    have hrem : Remains s (removeYear s y) := .inr ⟨y, hyo, her⟩
    have hcon := firstYear_part hyo
    cases y with
    | nil => exact absurd rfl hy
    | cons y0 ys =>
    unfold postProcess
    rw [show [textEl s] = [{ ty := .misc, misc := s }] from rfl, transform_text hh, okBind]
    rw [show [({ ty := .misc, misc := s } : El)] = [textEl s] from rfl]
    simp only [e1]
    let H : Heap := ((heapOf [[⟨0, textEl s⟩]]).alloc (yearEl (y0 :: ys))).1.set 0 (textEl (removeYear s (y0 :: ys)))
    have hH : ∀ i, H.get i = if i = 0 then textEl (removeYear s (y0 :: ys)) else if i = 1 then yearEl (y0 :: ys) else (heapOf [[⟨0, textEl s⟩]]).get i := fun i => rfl
    have hadd : addYear (heapOf [[⟨0, textEl s⟩]]) [0] = .ok (H, [0, 1]) := by
      have he : (heapOf [[⟨0, textEl s⟩]]).els [0] = [textEl s] := rfl
      unfold addYear
      rw [he, hc, okBind]
      have hnext : (heapOf [[⟨0, textEl s⟩]]).next = 1 := rfl
      have hc' : contains ((textEl s).misc) (y0 :: ys) = true := hcon
      have hc2 : contains ((yearEl (y0 :: ys)).misc) (y0 :: ys) = false := rfl
      show (Except.ok (removeYearLoop (y0 :: ys) ((heapOf [[⟨0, textEl s⟩]]).alloc (yearEl (y0 :: ys))).1 [0, 1], [0, 1]) : Py _) = .ok (H, [0, 1])
      congr 2
      have g0 : ((heapOf [[⟨0, textEl s⟩]]).alloc (yearEl (y0 :: ys))).1.get 0 = textEl s := rfl
      have g1 : H.get 1 = yearEl (y0 :: ys) := rfl
      have g2 : { textEl s with misc := removeYear s (y0 :: ys) } = textEl (removeYear s (y0 :: ys)) := rfl
      simp only [removeYearLoop]
      rw [g0, if_pos hc']
      show (if contains (H.get 1).misc (y0 :: ys) = true then _ else H) = H
      rw [g1, hc2, if_neg (by simp)]
    have hund : undetectedBooks books H [0, 1] = .ok (H, [0, 1]) := by
      refine undetected_none ?_ ?_
      · intro e he ht
        obtain ⟨i, hi, rfl⟩ := List.mem_map.1 he
        simp only [List.mem_cons, List.not_mem_nil, or_false] at hi
        rcases hi with rfl | rfl
        · rw [hH]; cases ht
        · rw [hH]; simp [yearEl]
      · intro i hi q hq
        simp only [List.mem_cons, List.not_mem_nil, or_false] at hi
        rcases hi with rfl | rfl
        · exact hb q hq _ hrem
        · exact empty q hq ⟨_, hrem⟩
    have hfin : dedupe H [[0, 1]] = .ok (H, [[0, 1]]) := by
      refine finish_text ?_
      intro i hi
      simp only [List.mem_cons, List.not_mem_nil, or_false] at hi
      rcases hi with rfl | rfl <;> exact ⟨by rw [hH]; simp [textEl, yearEl], rfl⟩
    simp [enrich, impliedIbids, ibidStep, eachCit, okBind, hadd, hund, hfin, pure, Except.pure, bind, Except.bind]
    rfl
  · left
    have hny : NoYear s := by
      rcases firstYear_or s with ⟨y, h⟩ | h
      · exact absurd ⟨y, yearOf_text.2 h⟩ hn
      · exact h
    refine ⟨hny, ?_⟩
    have hrem : Remains s s := .inl ⟨hny, rfl⟩
    unfold postProcess
    rw [show [textEl s] = [{ ty := .misc, misc := s }] from rfl, transform_text hh, okBind]
    rw [show [({ ty := .misc, misc := s } : El)] = [textEl s] from rfl]
    simp only [e1]
    have hadd : addYear (heapOf [[⟨0, textEl s⟩]]) [0] = .ok (heapOf [[⟨0, textEl s⟩]], [0]) := by
      have he : (heapOf [[⟨0, textEl s⟩]]).els [0] = [textEl s] := rfl
      unfold addYear
      rw [he, hc, okBind]
      rfl
    have hund : undetectedBooks books (heapOf [[⟨0, textEl s⟩]]) [0] = .ok (heapOf [[⟨0, textEl s⟩]], [0]) := by
      refine undetected_none ?_ ?_
      · intro e he ht
        have : e = textEl s := by simpa [Heap.els, heapOf] using he
        rw [this] at ht; cases ht
      · intro i hi q hq
        rw [List.mem_singleton.1 hi]
        exact hb q hq _ hrem
    have hfin : dedupe (heapOf [[⟨0, textEl s⟩]]) [[0]] = .ok (heapOf [[⟨0, textEl s⟩]], [[0]]) := by
      refine finish_text ?_
      intro i hi
      rw [List.mem_singleton.1 hi]
      exact ⟨by show Kind.misc ∉ _; decide, rfl⟩
    simp [enrich, impliedIbids, ibidStep, eachCit, okBind, hadd, hund, hfin, pure, Except.pure, bind, Except.bind]
    rfl

end Py
