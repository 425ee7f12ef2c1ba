import Verif.Lemmas.Items2
import Verif.Props.Books
import Verif.Props.Post
import Verif.Lemmas.Collab4

/-!
# Books in the texts of a citation
-/

open Py Spec
open scoped List

namespace Py
variable [UnicodeDB]

theorem bookInMisc_spec {books : Books} (hk : ∀ q ∈ books, lookup books (upper q.1) = some q.2) {es : List El} {year : Val} {misc : Str} :
    ∀ {l r : Books}, books = l ++ r → (∀ q ∈ l, ¬ Meant year misc q) → ∀ {o : Option (El × Str)}, bookInMisc books es year misc (r.map (·.1)) = .ok o →
    (o = none ∧ ∀ q ∈ books, ¬ Meant year misc q) ∨
    (∃ bk rest l' t row r' y, o = some (bk, rest) ∧ books = l' ++ (t, row) :: r' ∧ year = some y ∧ (∀ q ∈ l', ¬ Meant year misc q) ∧
      Meant year misc (t, row) ∧ BookOf row bk ∧ bk.year = some (some y) ∧ (EvenUpper misc → y ≠ [] → WithoutBook t y misc rest))
  | l, [], hb, hl, o, h => by
    cases h
    rw [List.append_nil] at hb
    subst hb
    exact Or.inl ⟨rfl, hl⟩
  | l, (t, row) :: r, hb, hl, o, h => by
    rw [List.map_cons, bookInMisc] at h
    have next : (¬ Meant year misc (t, row)) → bookInMisc books es year misc (r.map (·.1)) = .ok o → _ := fun hn hh =>
      bookInMisc_spec hk (l := l ++ [(t, row)]) (by rw [hb]; simp) (by
        intro q hq
        rcases List.mem_append.1 hq with hq | hq
        · exact hl q hq
        · rw [List.mem_singleton.1 hq]; exact hn) hh
    cases hf : findIgnoring misc t with
    | none =>
      rw [hf] at h
      refine next ?_ h
      rintro ⟨hm, -⟩
      obtain ⟨i, hi⟩ := (Props.C54_found misc t).2 hm
      rw [hf] at hi
      cases hi
    | some start =>
      rw [hf] at h
      dsimp only at h
      have hrow := hk (t, row) (by rw [hb]; simp)
      dsimp only at hrow
      rw [hrow] at h
      simp only [getKey, okBind] at h
      obtain ⟨y2, h2, h⟩ := bind_ok h
      obtain ⟨au, h3, h⟩ := bind_ok h
      have hmen : alnums (upper t) <:+: alnums (upper misc) := (Props.C54_found misc t).1 ⟨start, hf⟩
      split at h
      · rename_i hy
        obtain ⟨-, h4, h⟩ := bind_ok h
        obtain ⟨ti, h5, h⟩ := bind_ok h
        obtain ⟨cut, h6, h⟩ := bind_ok h
        have := pure_ok h
        subst this
        right
        refine ⟨_, _, l, t, row, r, _, rfl, hb, hy, hl, ⟨hmen, _, _, getIdx_get h2, trimmed_stripP _ _, hy⟩,
          ⟨au, ti, y2, _, getIdx_get h3, getIdx_get h5, getIdx_get h2, trimmed_stripP _ _, rfl⟩, rfl, ?_⟩
        intro he hne
        have ht : alnums (upper t) ≠ [] := by
          intro hn
          rcases Props.C55_cut_fails misc t start hn with hc | hc <;> rw [hc] at h6 <;> cases h6
        obtain ⟨a, m, p, b, e1, -, e2, e3, e4, e5, e6, e7⟩ := Props.C54_partial misc t start he ht hf
        rw [e7] at h6
        cases h6
        exact ⟨a, m, p, b, e1, e2, e3, e4, e5, e6, removeYear_erased _ _ hne⟩
      · rename_i hy
        refine next ?_ h
        rintro ⟨-, year', y', g1, g2, g3⟩
        rw [getIdx_get h2] at g1
        cases g1
        exact hy (by rw [g3, trimmed_unique g2 (trimmed_stripP [';'] y2)])

theorem bookSearch_spec {books : Books} (hk : ∀ q ∈ books, lookup books (upper q.1) = some q.2) {year : Val} {h : Heap} {c : List Nat} (w : WF h c) :
    ∀ {d is : List Nat}, c = d ++ is → (∀ i ∈ d, ∀ q ∈ books, ¬ Meant year (h.get i).misc q) → ∀ {h' : Heap} {c' : List Nat},
    bookSearch books year h c is = .ok (h', c') →
    (h' = h ∧ c' = c ∧ ∀ i ∈ c, ∀ q ∈ books, ¬ Meant year (h.get i).misc q) ∨
    ∃ d i r bk rest l t row r' y, c = d ++ i :: r ∧ books = l ++ (t, row) :: r' ∧ year = some y ∧ (∀ j ∈ d, ∀ q ∈ books, ¬ Meant year (h.get j).misc q) ∧
      (∀ q ∈ l, ¬ Meant year (h.get i).misc q) ∧ Meant year (h.get i).misc (t, row) ∧ BookOf row bk ∧ bk.year = some (some y) ∧
      (EvenUpper (h.get i).misc → y ≠ [] → WithoutBook t y (h.get i).misc rest) ∧
      h'.els c' = h.els d ++ { h.get i with misc := rest } :: h.els r ++ [bk] ∧ ∀ j < h.next, j ≠ i → h'.get j = h.get j
  | d, [], hc, hd, h', c', e => by
    simp only [bookSearch, Except.ok.injEq, Prod.mk.injEq] at e
    obtain ⟨rfl, rfl⟩ := e
    rw [List.append_nil] at hc
    subst hc
    exact Or.inl ⟨rfl, rfl, hd⟩
  | d, i :: is, hc, hd, h', c', e => by
    simp only [bookSearch] at e
    obtain ⟨o, h1, e⟩ := bind_ok e
    rcases bookInMisc_spec hk (l := []) (r := books) rfl (by simp) h1 with ⟨rfl, hn⟩ | ⟨bk, rest, l, t, row, r', y, rfl, k1, k2, k3, k4, k5, k6, k7⟩
    · refine bookSearch_spec hk w (d := d ++ [i]) (is := is) (by rw [hc]; simp) ?_ e
      intro j hj
      rcases List.mem_append.1 hj with hj | hj
      · exact hd j hj
      · rw [List.mem_singleton.1 hj]; exact hn
    · have := pure_ok e
      simp only [Prod.mk.injEq] at this
      obtain ⟨rfl, rfl⟩ := this
      right
      refine ⟨d, i, is, bk, rest, l, t, row, r', y, hc, k1, k2, hd, k3, k4, k5, k6, k7, ?_, ?_⟩
      · have hnd := w.nodup
        rw [hc, List.nodup_append] at hnd
        obtain ⟨-, n2, n3⟩ := hnd
        rw [List.nodup_cons] at n2
        have lt : ∀ j ∈ c, j ≠ h.next := fun j hj => Nat.ne_of_lt (w.lt j hj)
        subst hc
        have g1 : ∀ j ∈ d, (((h.alloc bk).1).set i { h.get i with misc := rest }).get j = h.get j := by
          intro j hj
          have hji : j ≠ i := n3 j hj i (by simp)
          simp only [Heap.set, Heap.alloc]
          rw [if_neg hji, if_neg (lt j (by simp [hj]))]
        have g2 : ∀ j ∈ is, (((h.alloc bk).1).set i { h.get i with misc := rest }).get j = h.get j := by
          intro j hj
          have hji : j ≠ i := fun he => n2.1 (he ▸ hj)
          simp only [Heap.set, Heap.alloc]
          rw [if_neg hji, if_neg (lt j (by simp [hj]))]
        have g3 : (((h.alloc bk).1).set i { h.get i with misc := rest }).get h.next = bk := by
          simp only [Heap.set, Heap.alloc]
          rw [if_neg (Ne.symm (lt i (by simp)))]; simp
        have g4 : (((h.alloc bk).1).set i { h.get i with misc := rest }).get i = { h.get i with misc := rest } := by
          simp [Heap.set]
        have g5 : (h.alloc bk).2 = h.next := rfl
        unfold Heap.els
        rw [g5, List.map_append, List.map_append, List.map_cons, g4, List.map_congr_left g1, List.map_congr_left g2]
        simp [g3]
      · intro j hj hji
        simp only [Heap.set, Heap.alloc]
        rw [if_neg hji, if_neg (Nat.ne_of_lt hj)]

omit [UnicodeDB] in
theorem isUnknown_iff (es : List El) : isUnknown es = true ↔ ∀ e ∈ es, e.ty ∉ knownKinds := by
  unfold isUnknown
  rw [List.all_eq_true]
  refine forall_congr' fun e => forall_congr' fun _ => ?_
  cases e.ty <;> decide

omit [UnicodeDB] in
theorem yearFrom_ok {es : List El} {y : Val} (h : yearFromCitation es = .ok y) : y = statedYear es := by
  unfold yearFromCitation at h
  unfold statedYear
  cases hf : es.find? (·.ty = .year) with
  | none => rw [hf] at h; cases h; rfl
  | some e =>
    rw [hf] at h
    dsimp only at h
    unfold getKey at h
    split at h
    · rename_i hy
      cases h
      rw [Option.bind_some, hy]
      rfl
    · cases h

theorem undetected_searched {books : Books} (hk : ∀ q ∈ books, lookup books (upper q.1) = some q.2) {h h' : Heap} {c c' : List Nat} (w : WF h c)
    (e : undetectedBooks books h c = .ok (h', c')) : Searched books (h.els c) (h'.els c') ∧ ∀ j < h.next, j ∉ c → h'.get j = h.get j := by
  unfold undetectedBooks at e
  split at e
  · rename_i hu
    rw [isUnknown_iff] at hu
    obtain ⟨y, hy, e⟩ := bind_ok e
    have hy := yearFrom_ok hy
    rcases bookSearch_spec hk w (d := []) (is := c) rfl (by simp) e with ⟨rfl, rfl, hn⟩ | ⟨d, i, r, bk, rest, l, t, row, r', z, k1, k2, k3, k4, k5, k6, k7, k8, k9, k10, k11⟩
    · refine ⟨.nothing hu ?_, fun _ _ _ => rfl⟩
      rw [← hy]
      intro x hx
      obtain ⟨i, hi, rfl⟩ := List.mem_map.1 hx
      exact hn i hi
    · subst k1
      have e1 : h.els (d ++ i :: r) = h.els d ++ h.get i :: h.els r := by simp [Heap.els]
      refine ⟨?_, fun j hj hjc => k11 j hj fun he => hjc (by rw [he]; simp)⟩
      rw [k10]
      rw [e1] at hu hy ⊢
      rw [k3] at hy k4 k5 k6
      refine .found hu k2 hy.symm ?_ k5 k6 k7 k8 k9
      intro x hx
      obtain ⟨j, hj, rfl⟩ := List.mem_map.1 hx
      exact k4 j hj
  · rename_i hu
    have := pure_ok e
    simp only [Prod.mk.injEq] at this
    obtain ⟨rfl, rfl⟩ := this
    refine ⟨.known ?_, fun _ _ _ => rfl⟩
    rw [isUnknown_iff] at hu
    refine Classical.byContradiction fun hn => hu fun e he hm => hn ⟨e, he, hm⟩

end Py
