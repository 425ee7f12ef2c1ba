import Verif.Lemmas.Split

/-!
# Invariants of the splitting loop
-/

namespace Py
open Spec

/-- An element that counts for splitting: neither text nor author. -/
def counts (o : Obj) : Bool := o.el.ty != .misc && o.el.ty != .auth

/-- Number of counting elements of a type in a citation. -/
def cnt (t : TypeKey) (l : List Obj) : Nat := (l.filter fun o => counts o && typeKey o.el == t).length

theorem cnt_append (t : TypeKey) (a b : List Obj) : cnt t (a ++ b) = cnt t a + cnt t b := by
  simp [cnt]

theorem cnt_sublist (t : TypeKey) {a b : List Obj} (h : a.Sublist b) : cnt t a ≤ cnt t b :=
  (h.filter _).length_le

theorem cnt_auth (t : TypeKey) {o : Obj} (h : o.isAuth = true) : cnt t [o] = 0 := by
  have : o.el.ty = .auth := by simpa [Obj.isAuth] using h
  simp [cnt, counts, this]

theorem cnt_misc (t : TypeKey) {o : Obj} (h : o.el.ty = .misc) : cnt t [o] = 0 := by
  simp [cnt, counts, h]

theorem cnt_insert (t : TypeKey) {s : SplitSt} (h : s.PpOk) : cnt t (insertPostponed s).1 = cnt t s.cur := by
  unfold insertPostponed
  cases hp : s.postponed with
  | none => rfl
  | some a =>
    dsimp only
    split
    · rw [show a :: s.cur = [a] ++ s.cur from rfl, cnt_append, cnt_auth t (h a hp), Nat.zero_add]
    · rfl

theorem cnt_yield (t : TypeKey) {s : SplitSt} (h : s.PpOk) (r : SplitReason) :
    cnt t (splitYield s r).1 ≤ cnt t s.cur := by
  rw [← cnt_insert t h]
  exact cnt_sublist t (postpone_sublist _ _)

/-- `types` covers the current citation, which has no repetition. -/
def SplitSt.TypesOk (s : SplitSt) : Prop :=
  ∀ t, (repeatable t = false → cnt t s.cur ≤ 1) ∧ (0 < cnt t s.cur → t ∈ s.types)

theorem typesOk_append {s : SplitSt} (h : s.TypesOk) (o : Obj)
    (hn : counts o = true → repeatable (typeKey o.el) = false → typeKey o.el ∉ s.types) :
    (splitAppend s o).TypesOk := by
  intro t
  rw [cur_append, cnt_append]
  by_cases hc : counts o = true
  · have hty : o.el.ty ≠ .misc ∧ o.el.ty ≠ .auth := by simpa [counts] using hc
    have htypes : (splitAppend s o).types = typeKey o.el :: s.types := by
      simp [splitAppend, hty.1, hty.2]
    rw [htypes]
    by_cases ht : typeKey o.el = t
    · have h1 : cnt t [o] = 1 := by simp [cnt, hc, ht]
      rw [h1]
      refine ⟨fun hr => ?_, fun _ => by simp [ht]⟩
      have hnot : t ∉ s.types := by rw [← ht]; exact hn hc (by rw [ht]; exact hr)
      have : cnt t s.cur = 0 := by
        rcases Nat.eq_zero_or_pos (cnt t s.cur) with h0 | h0
        · exact h0
        · exact absurd ((h t).2 h0) hnot
      omega
    · have h1 : cnt t [o] = 0 := by simp [cnt, ht]
      rw [h1, Nat.add_zero]
      exact ⟨(h t).1, fun hp => by simp [(h t).2 hp]⟩
  · have h1 : cnt t [o] = 0 := by simp [cnt, hc]
    rw [h1, Nat.add_zero]
    refine ⟨(h t).1, fun hp => ?_⟩
    have := (h t).2 hp
    unfold splitAppend
    split
    · exact this
    · split
      · exact this
      · exact List.mem_cons_of_mem _ this

theorem typesOk_yield (s : SplitSt) (r : SplitReason) : (splitYield s r).2.TypesOk := by
  intro t
  simp [splitYield, cnt]

theorem splitNeeded_none {e : El} {ts : List TypeKey} {l : Option TypeKey} (h : splitNeeded e ts l = none) :
    ';' ∉ e.misc ∧ (repeatable (typeKey e) = false → typeKey e ∉ ts) := by
  unfold splitNeeded at h
  split at h
  · cases h
  · rename_i h1
    split at h
    · cases h
    · rename_i h2
      refine ⟨by simpa using h1, fun hr hm => h2 ?_⟩
      simp [hr, hm]

theorem splitNeeded_semi {e : El} {ts : List TypeKey} {l : Option TypeKey}
    (h : splitNeeded e ts l = some .semicolon) : ';' ∈ e.misc := by
  unfold splitNeeded at h
  split at h
  · rename_i h1; simpa using h1
  · split at h <;> cases h

theorem split_types : ∀ (os : List Obj) (s : SplitSt), s.PpOk → s.TypesOk →
    ∀ c ∈ splitGo s os, ∀ t, repeatable t = false → cnt t c ≤ 1
  | [], s, hp, h, c, hc, t, ht => by
    have : c = (insertPostponed s).1 := by simpa [splitGo] using hc
    rw [this, cnt_insert t hp]
    exact (h t).1 ht
  | o :: os, s, hp, h, c, hc, t, ht => by
    unfold splitGo at hc
    split at hc
    · rename_i hn
      exact split_types os _ (ppOk_append hp o) (typesOk_append h o fun _ => (splitNeeded_none hn).2) c hc t ht
    · rcases List.mem_cons.1 hc with rfl | hc
      · exact Nat.le_trans (cnt_yield t hp _) ((h t).1 ht)
      · exact split_types os _ (ppOk_append (ppOk_yield s .repeated) o)
          (typesOk_append (typesOk_yield _ _) o fun _ _ => by simp [splitYield]) c hc t ht
    · split at hc
      · rename_i m rest hs
        have hpp : SplitSt.PpOk { s with cur := s.cur ++ [⟨s.fresh, { ty := .misc, misc := m }⟩], fresh := s.fresh + 1 } :=
          fun a ha => hp a ha
        rcases List.mem_cons.1 hc with rfl | hc
        · refine Nat.le_trans (cnt_yield t hpp _) ?_
          rw [cnt_append, cnt_misc t rfl, Nat.add_zero]
          exact (h t).1 ht
        · exact split_types os _ (ppOk_append (ppOk_yield _ .semicolon) _)
            (typesOk_append (typesOk_yield _ _) _ fun _ _ => by simp [splitYield]) c hc t ht
      · rename_i hsn _ hs
        exact absurd (splitNeeded_semi hsn) (split1_none hs)

/-- Members of the yielded citation come from the current one or are the postponed author. -/
theorem mem_yield {s : SplitSt} {r : SplitReason} {o : Obj} (h : o ∈ (splitYield s r).1) :
    o ∈ s.cur ∨ s.postponed = some o := by
  have h := (postpone_sublist _ _).subset h
  unfold insertPostponed at h
  cases hp : s.postponed with
  | none => rw [hp] at h; exact .inl h
  | some a =>
    rw [hp] at h
    dsimp only at h
    split at h
    · rcases List.mem_cons.1 h with rfl | h
      · exact .inr rfl
      · exact .inl h
    · exact .inl h

theorem mem_insert {s : SplitSt} {o : Obj} (h : o ∈ (insertPostponed s).1) :
    o ∈ s.cur ∨ s.postponed = some o := by
  unfold insertPostponed at h
  cases hp : s.postponed with
  | none => rw [hp] at h; exact .inl h
  | some a =>
    rw [hp] at h
    dsimp only at h
    split at h
    · rcases List.mem_cons.1 h with rfl | h
      · exact .inr rfl
      · exact .inl h
    · exact .inl h

theorem fresh_append (s : SplitSt) (o : Obj) : (splitAppend s o).fresh = s.fresh := by
  unfold splitAppend
  split
  · rfl
  · split <;> rfl

/-- A predicate on objects that survives changes of the miscellaneous text and holds for
new plain text holds throughout the result if it holds throughout the input. -/
theorem split_all' (n : Nat) (P : Obj → Prop) (hm : ∀ i m, n ≤ i → P ⟨i, { ty := .misc, misc := m }⟩)
    (hc : ∀ o m, P o → P { o with el := { o.el with misc := m } }) : ∀ (os : List Obj) (s : SplitSt),
    n ≤ s.fresh → (∀ o ∈ s.cur, P o) → (∀ a, s.postponed = some a → P a) → (∀ o ∈ os, P o) →
    ∀ c ∈ splitGo s os, ∀ o ∈ c, P o
  | [], s, _, h1, h2, _, c, hc', o, ho => by
    have : c = (insertPostponed s).1 := by simpa [splitGo] using hc'
    subst this
    rcases mem_insert ho with ho | ho
    · exact h1 o ho
    · exact h2 o ho
  | x :: os, s, hf, h1, h2, h3, c, hcm, o, ho => by
    have hy : ∀ {s : SplitSt} {r}, (∀ o ∈ s.cur, P o) → (∀ a, s.postponed = some a → P a) →
        (∀ o ∈ (splitYield s r).1, P o) ∧ ∀ a, (splitYield s r).2.postponed = some a → P a := by
      intro s r h1 h2
      refine ⟨fun o ho => ?_, fun a ha => ?_⟩
      · rcases mem_yield ho with ho | ho
        · exact h1 o ho
        · exact h2 o ho
      · have := (postpone_auth (cur := (insertPostponed s).1) (n := (insertPostponed s).2) ha).2
        rcases mem_insert this with ho | ho
        · exact h1 a ho
        · exact h2 a ho
    have ha : ∀ {s : SplitSt} {x : Obj}, (∀ o ∈ s.cur, P o) → P x → ∀ o ∈ (splitAppend s x).cur, P o := by
      intro s x h1 hx o ho
      rw [cur_append] at ho
      rcases List.mem_append.1 ho with ho | ho
      · exact h1 o ho
      · simp at ho; rw [ho]; exact hx
    have hx := h3 x (by simp)
    have hos : ∀ o ∈ os, P o := fun o ho => h3 o (by simp [ho])
    unfold splitGo at hcm
    split at hcm
    · exact split_all' n P hm hc os _ (by rw [fresh_append]; exact hf) (ha h1 hx)
        (by rw [postponed_append]; exact h2) hos c hcm o ho
    · have hy := hy (r := .repeated) h1 h2
      rcases List.mem_cons.1 hcm with rfl | hcm
      · exact hy.1 o ho
      · refine split_all' n P hm hc os _ (by rw [fresh_append]; exact hf) (ha ?_ hx)
          (by rw [postponed_append]; exact hy.2) hos c hcm o ho
        intro o ho; simp [splitYield] at ho
    · split at hcm
      · rename_i m rest hs
        have hy := hy (s := { s with cur := s.cur ++ [⟨s.fresh, { ty := .misc, misc := m }⟩], fresh := s.fresh + 1 })
          (r := .semicolon) (by
            intro o ho
            rcases List.mem_append.1 ho with ho | ho
            · exact h1 o ho
            · simp at ho; rw [ho]; exact hm _ m hf) h2
        rcases List.mem_cons.1 hcm with rfl | hcm
        · exact hy.1 o ho
        · refine split_all' n P hm hc os _ (by rw [fresh_append]; exact Nat.le_succ_of_le hf)
            (ha (x := { x with el := { x.el with misc := rest } }) ?_ (hc _ _ hx))
            (by rw [postponed_append]; exact hy.2) hos c hcm o ho
          intro o ho; simp [splitYield] at ho
      · exact split_all' n P hm hc os _ (by rw [fresh_append]; exact hf) (ha h1 hx)
          (by rw [postponed_append]; exact h2) hos c hcm o ho

/-- The same for a predicate on values. -/
theorem split_all (P : El → Prop) (hm : ∀ m, P { ty := .misc, misc := m })
    (hc : ∀ e m, P e → P { e with misc := m }) (os : List Obj) (s : SplitSt)
    (h1 : ∀ o ∈ s.cur, P o.el) (h2 : ∀ a, s.postponed = some a → P a.el) (h3 : ∀ o ∈ os, P o.el) :
    ∀ c ∈ splitGo s os, ∀ o ∈ c, P o.el :=
  split_all' 0 (fun o => P o.el) (fun _ m _ => hm m) (fun o m h => hc o.el m h) os s (Nat.zero_le _) h1 h2 h3

/-- Identifiers of a list of objects. -/
def ids (l : List Obj) : List Nat := l.map (·.id)

/-- Identifiers are used once in the current citation and the rest of the line. -/
structure IdsOk (s : SplitSt) (os : List Obj) : Prop where
  curNd : (ids s.cur).Nodup
  rest : (ids os).Nodup
  disj : ∀ i ∈ ids s.cur, i ∉ ids os
  ppos : ∀ a, s.postponed = some a → a.id ∉ ids os ∧ a.id ∉ ids s.cur
  curLt : ∀ i ∈ ids s.cur, i < s.fresh
  osLt : ∀ i ∈ ids os, i < s.fresh
  ppLt : ∀ a, s.postponed = some a → a.id < s.fresh

theorem idsOk_append {s : SplitSt} {o : Obj} {os : List Obj} {o' : Obj} (h : IdsOk s (o :: os)) (hid : o'.id = o.id) :
    IdsOk (splitAppend s o') os := by
  have hos := h.rest
  simp only [ids, List.map_cons, List.nodup_cons] at hos
  have hd := h.disj
  have hl := h.osLt
  simp only [ids, List.map_cons, List.mem_cons] at hd hl
  constructor
  · rw [cur_append]
    simp only [ids, List.map_append, List.map_cons, List.map_nil]
    rw [List.nodup_append]
    refine ⟨h.curNd, by simp, ?_⟩
    intro a ha b hb
    simp only [List.mem_singleton] at hb
    intro e
    exact hd a ha (.inl (by rw [e, hb, hid]))
  · exact hos.2
  · rw [cur_append]
    intro i hi
    simp only [ids, List.map_append, List.mem_append, List.map_cons, List.map_nil, List.mem_singleton] at hi
    rcases hi with hi | hi
    · exact fun hm => hd i hi (.inr hm)
    · rw [hi, hid]; exact hos.1
  · rw [postponed_append, cur_append]
    intro a ha
    have := h.ppos a ha
    simp only [ids, List.map_cons, List.mem_cons, not_or] at this
    refine ⟨this.1.2, ?_⟩
    simp only [ids, List.map_append, List.mem_append, List.map_cons, List.map_nil, List.mem_singleton, not_or]
    exact ⟨this.2, by rw [hid]; exact this.1.1⟩
  · rw [cur_append, fresh_append]
    intro i hi
    simp only [ids, List.map_append, List.mem_append, List.map_cons, List.map_nil, List.mem_singleton] at hi
    rcases hi with hi | hi
    · exact h.curLt i hi
    · rw [hi, hid]; exact hl _ (.inl rfl)
  · rw [fresh_append]; exact fun i hi => hl i (.inr hi)
  · rw [postponed_append, fresh_append]; exact h.ppLt

theorem ids_insert {s : SplitSt} {os : List Obj} (h : IdsOk s os) : (ids (insertPostponed s).1).Nodup := by
  unfold insertPostponed
  cases hp : s.postponed with
  | none => exact h.curNd
  | some a =>
    dsimp only
    split
    · simp only [ids, List.map_cons, List.nodup_cons]
      exact ⟨(h.ppos a hp).2, h.curNd⟩
    · exact h.curNd

theorem idsOk_yield {s : SplitSt} {os : List Obj} (r : SplitReason) (h : IdsOk s os) :
    (ids (splitYield s r).1).Nodup ∧ IdsOk (splitYield s r).2 os := by
  refine ⟨?_, ?_⟩
  · exact ((postpone_sublist _ _).map _).nodup (ids_insert h)
  · have hp : ∀ a, (splitYield s r).2.postponed = some a → a.id ∉ ids os ∧ a.id < s.fresh := by
      intro a ha
      have := (postpone_auth (cur := (insertPostponed s).1) (n := (insertPostponed s).2) ha).2
      rcases mem_insert this with ho | ho
      · have hm : a.id ∈ ids s.cur := List.mem_map_of_mem ho
        exact ⟨h.disj _ hm, h.curLt _ hm⟩
      · exact ⟨(h.ppos a ho).1, h.ppLt a ho⟩
    have hcur : (splitYield s r).2.cur = [] := rfl
    constructor
    · rw [hcur]; simp [ids]
    · exact h.rest
    · rw [hcur]; simp [ids]
    · intro a ha; rw [hcur]; exact ⟨(hp a ha).1, by simp [ids]⟩
    · rw [hcur]; simp [ids]
    · exact h.osLt
    · exact fun a ha => (hp a ha).2

/-- No citation holds the same object twice. -/
theorem split_ids : ∀ (os : List Obj) (s : SplitSt), IdsOk s os → ∀ c ∈ splitGo s os, (ids c).Nodup
  | [], s, h, c, hc => by
    have : c = (insertPostponed s).1 := by simpa [splitGo] using hc
    rw [this]; exact ids_insert h
  | o :: os, s, h, c, hc => by
    unfold splitGo at hc
    split at hc
    · exact split_ids os _ (idsOk_append h rfl) c hc
    · have hy := idsOk_yield .repeated h
      rcases List.mem_cons.1 hc with rfl | hc
      · exact hy.1
      · exact split_ids os _ (idsOk_append hy.2 rfl) c hc
    · split at hc
      · rename_i m rest hs
        have h' : IdsOk { s with cur := s.cur ++ [⟨s.fresh, { ty := .misc, misc := m }⟩], fresh := s.fresh + 1 }
            (o :: os) := by
          constructor
          · simp only [ids, List.map_append, List.map_cons, List.map_nil]
            rw [List.nodup_append]
            refine ⟨h.curNd, by simp, ?_⟩
            intro a ha b hb e
            simp only [List.mem_singleton] at hb
            have := h.curLt a ha
            omega
          · exact h.rest
          · intro i hi
            simp only [ids, List.map_append, List.mem_append, List.map_cons, List.map_nil, List.mem_singleton] at hi
            rcases hi with hi | hi
            · exact h.disj i hi
            · intro hm; have := h.osLt i hm; omega
          · intro a ha
            refine ⟨(h.ppos a ha).1, ?_⟩
            simp only [ids, List.map_append, List.mem_append, List.map_cons, List.map_nil, List.mem_singleton, not_or]
            refine ⟨(h.ppos a ha).2, ?_⟩
            have := h.ppLt a ha
            omega
          · intro i hi
            simp only [ids, List.map_append, List.mem_append, List.map_cons, List.map_nil, List.mem_singleton] at hi
            rcases hi with hi | hi
            · exact Nat.lt_succ_of_lt (h.curLt i hi)
            · rw [hi]; exact Nat.lt_succ_self _
          · exact fun i hi => Nat.lt_succ_of_lt (h.osLt i hi)
          · exact fun a ha => Nat.lt_succ_of_lt (h.ppLt a ha)
        have hy := idsOk_yield .semicolon h'
        rcases List.mem_cons.1 hc with rfl | hc
        · exact hy.1
        · exact split_ids os _ (idsOk_append (o' := { o with el := { o.el with misc := rest } }) hy.2 rfl) c hc
      · exact split_ids os _ (idsOk_append h rfl) c hc

theorem ids_number (els : List El) (n : Nat) : (ids (number n els)).Nodup ∧
    ∀ i ∈ ids (number n els), n ≤ i ∧ i < n + els.length := by
  induction els generalizing n with
  | nil => simp [number, ids]
  | cons e es ih =>
    obtain ⟨h1, h2⟩ := ih (n + 1)
    simp only [number, ids, List.map_cons, List.nodup_cons, List.mem_cons, List.length_cons]
    refine ⟨⟨fun hm => ?_, h1⟩, ?_⟩
    · have := (h2 n hm).1; omega
    · rintro i (rfl | hi)
      · omega
      · have := h2 i hi; omega

theorem splitCitations_ids (els : List El) : ∀ c ∈ splitCitations els, (ids c).Nodup := by
  apply split_ids
  have := ids_number els 0
  refine ⟨by simp [ids], this.1, by simp [ids], by simp, by simp [ids], ?_, by simp⟩
  intro i hi
  have := (this.2 i hi).2
  simpa using this

theorem number_get {els : List El} {n : Nat} {o : Obj} (h : o ∈ number n els) :
    n ≤ o.id ∧ els[o.id - n]? = some o.el := by
  induction els generalizing n with
  | nil => simp [number] at h
  | cons e es ih =>
    rcases List.mem_cons.1 h with rfl | h
    · simp
    · obtain ⟨h1, h2⟩ := ih h
      refine ⟨by omega, ?_⟩
      rw [show o.id - n = (o.id - (n + 1)) + 1 by omega]
      simpa using h2

/-- An object whose identifier is a position in the line is the element there, up to its
miscellaneous text. -/
theorem split_origin (els : List El) : ∀ c ∈ splitCitations els, ∀ o ∈ c, ∀ e, els[o.id]? = some e →
    o.el = { e with misc := o.el.misc } := by
  refine split_all' els.length (fun o => ∀ e, els[o.id]? = some e → o.el = { e with misc := o.el.misc })
    ?_ ?_ _ _ (Nat.le_refl _) (by simp) (by simp) ?_
  · intro i m hi e he
    rw [List.getElem?_eq_none hi] at he; cases he
  · intro o m h e he
    have := h e he
    dsimp only
    rw [this]
  · intro o ho e he
    have := (number_get ho).2
    rw [Nat.sub_zero, he] at this
    cases this; rfl

/-- If a type or last type was recorded, the current citation has a non-author. -/
def SplitSt.NonEmptyOk (s : SplitSt) : Prop := (s.types ≠ [] ∨ s.last ≠ none) → plain s.cur ≠ []

theorem nonEmptyOk_append {s : SplitSt} (h : s.NonEmptyOk) (o : Obj) : (splitAppend s o).NonEmptyOk := by
  intro hh
  rw [cur_append, plain_append]
  unfold splitAppend at hh
  split at hh
  · intro e; exact h hh (List.append_eq_nil_iff.1 e).1
  · rename_i h1
    split at hh
    · intro e; exact h hh (List.append_eq_nil_iff.1 e).1
    · rename_i h2
      intro e
      have := (List.append_eq_nil_iff.1 e).2
      simp [plain, nonAuthors] at this
      exact h2 this

theorem splitNeeded_repeated {e : El} {ts : List TypeKey} {l : Option TypeKey}
    (h : splitNeeded e ts l = some .repeated) : ts ≠ [] ∨ l ≠ none := by
  unfold splitNeeded at h
  split at h
  · cases h
  · split at h
    · rename_i h2
      rcases Bool.or_eq_true_iff.1 h2 with h2 | h2
      · left; rintro rfl; simp at h2
      · right; rintro rfl; simp at h2
    · cases h

theorem split_nonempty : ∀ (os : List Obj) (s : SplitSt), s.PpOk → s.NonEmptyOk → (os ≠ [] ∨ s.cur ≠ []) →
    ∀ c ∈ splitGo s os, c ≠ []
  | [], s, hp, h, hne, c, hc => by
    have : c = (insertPostponed s).1 := by simpa [splitGo] using hc
    subst this
    have hne : s.cur ≠ [] := by rcases hne with h | h; exact absurd rfl h; exact h
    unfold insertPostponed
    cases s.postponed with
    | none => exact hne
    | some a => dsimp only; split <;> simp [hne]
  | o :: os, s, hp, h, hne, c, hc => by
    have hcur : ∀ (s : SplitSt) (o : Obj), os ≠ [] ∨ (splitAppend s o).cur ≠ [] := fun s o =>
      .inr (by rw [cur_append]; simp)
    have hfresh : ∀ (s : SplitSt) r, (splitYield s r).2.NonEmptyOk := fun s r hh => by simp [splitYield] at hh
    have hplain : ∀ {l : List Obj}, plain l ≠ [] → l ≠ [] := by rintro l h rfl; exact h rfl
    unfold splitGo at hc
    split at hc
    · exact split_nonempty os _ (ppOk_append hp o) (nonEmptyOk_append h o) (hcur _ _) c hc
    · rename_i hr
      rcases List.mem_cons.1 hc with rfl | hc
      · apply hplain
        rw [plain_yield hp]
        exact h (splitNeeded_repeated hr)
      · exact split_nonempty os _ (ppOk_append (ppOk_yield _ _) o) (nonEmptyOk_append (hfresh _ _) o) (hcur _ _) c hc
    · split at hc
      · rename_i m rest hs
        have hpp : SplitSt.PpOk { s with cur := s.cur ++ [⟨s.fresh, { ty := .misc, misc := m }⟩], fresh := s.fresh + 1 } :=
          fun a ha => hp a ha
        rcases List.mem_cons.1 hc with rfl | hc
        · apply hplain
          rw [plain_yield hpp, plain_append]
          intro e
          have := (List.append_eq_nil_iff.1 e).2
          simp [plain, nonAuthors] at this
        · exact split_nonempty os _ (ppOk_append (ppOk_yield _ _) _) (nonEmptyOk_append (hfresh _ _) _) (hcur _ _) c hc
      · exact split_nonempty os _ (ppOk_append hp o) (nonEmptyOk_append h o) (hcur _ _) c hc

theorem split_length (os : List Obj) (s : SplitSt) : splitGo s os ≠ [] := by
  induction os generalizing s with
  | nil => simp [splitGo]
  | cons o os ih =>
    unfold splitGo
    split
    · exact ih _
    · simp
    · split
      · simp
      · exact ih _

/-! ### Authors -/

/-- Number of author objects. -/
def nAuth (l : List Obj) : Nat := (l.filter Obj.isAuth).length

/-- Why the postponed author cannot be dropped: either there is no semicolon left and
the last split was due to a repeated field, or there are at most two authors overall.
`E` holds the identifiers already emitted. -/
def SafePp (s : SplitSt) (os : List Obj) (E : List Nat) : Prop :=
  ((∀ o ∈ os, ';' ∉ o.el.misc) ∧ ∀ a, s.postponed = some a → s.prev = some .repeated) ∨
  ∃ A, A + nAuth os ≤ 2 ∧ s.numAuth ≤ A ∧
    ∀ a, s.postponed = some a → s.numAuth + 1 ≤ A ∧ (a.id ∉ E → s.numAuth + 2 ≤ A)

theorem numAuth_append (s : SplitSt) (o : Obj) :
    (splitAppend s o).numAuth = s.numAuth + (if o.isAuth then 1 else 0) := by
  unfold splitAppend
  split
  · rename_i h; simp [Obj.isAuth, h]
  · split
    · rename_i h; simp [Obj.isAuth, h]
    · rename_i h; simp [Obj.isAuth, h]

theorem nAuth_cons (o : Obj) (os : List Obj) : nAuth (o :: os) = (if o.isAuth then 1 else 0) + nAuth os := by
  unfold nAuth
  by_cases h : o.isAuth <;> simp [h]; omega

/-- The identifiers to be found in the result. -/
def Wanted (s : SplitSt) (os : List Obj) (i : Nat) : Prop :=
  (∃ o ∈ s.cur, o.isAuth = true ∧ o.id = i) ∨ (∃ a, s.postponed = some a ∧ a.id = i) ∨
    ∃ o ∈ os, o.isAuth = true ∧ o.id = i

theorem safe_append {s : SplitSt} {o : Obj} {os : List Obj} {E : List Nat} (h : SafePp s (o :: os) E) :
    SafePp (splitAppend s o) os E := by
  rcases h with ⟨h1, h2⟩ | ⟨A, h1, h2, h3⟩
  · left
    refine ⟨fun x hx => h1 x (by simp [hx]), ?_⟩
    rw [postponed_append, prev_append]; exact h2
  · right
    rw [nAuth_cons] at h1
    refine ⟨A + (if o.isAuth then 1 else 0), by omega, ?_, ?_⟩
    · rw [numAuth_append]; omega
    · rw [postponed_append, numAuth_append]
      intro a ha
      have := h3 a ha
      exact ⟨by omega, fun hn => by have := this.2 hn; omega⟩

/-- Yielding loses no wanted identifier and keeps the postponed author safe. -/
theorem safe_yield {s : SplitSt} {os : List Obj} {E : List Nat} (r : SplitReason) (h : SafePp s os E)
    (hr : (∀ o ∈ os, ';' ∉ o.el.misc) → r = .repeated ∨ ∃ A, A + nAuth os ≤ 2 ∧ s.numAuth ≤ A ∧
      ∀ a, s.postponed = some a → s.numAuth + 1 ≤ A ∧ (a.id ∉ E → s.numAuth + 2 ≤ A)) :
    SafePp (splitYield s r).2 os (E ++ (splitYield s r).1.map (·.id)) ∧
    ∀ i, Wanted s os i → i ∈ E ++ (splitYield s r).1.map (·.id) ∨ Wanted (splitYield s r).2 os i := by
  have hins : ∀ i, (∃ o ∈ s.cur, o.isAuth = true ∧ o.id = i) ∨ (∃ a, s.postponed = some a ∧ a.id = i) →
      i ∈ E ∨ ∃ o ∈ (insertPostponed s).1, o.id = i ∧ (o.isAuth = true ∨ s.postponed = some o) := by
    intro i hi
    unfold insertPostponed
    rcases hi with ⟨o, ho, h1, h2⟩ | ⟨a, ha, h2⟩
    · right
      refine ⟨o, ?_, h2, .inl h1⟩
      cases s.postponed with
      | none => exact ho
      | some a => dsimp only; split <;> simp [ho]
    · rw [ha]
      dsimp only
      by_cases hc : s.numAuth = 0 ∨ s.prev = some .repeated
      · right
        rw [if_pos hc]
        exact ⟨a, by simp, h2, .inr rfl⟩
      · left
        rcases h with ⟨_, hs⟩ | ⟨A, hA, hB, hC⟩
        · exact absurd (.inr (hs a ha)) hc
        · rcases Classical.em (a.id ∈ E) with hE | hE
          · rw [← h2]; exact hE
          · have := (hC a ha).2 hE
            exfalso
            have h0 : s.numAuth = 0 := by
              have : nAuth os ≥ 0 := Nat.zero_le _
              omega
            exact hc (.inl h0)
  have hpost : ∀ o ∈ (insertPostponed s).1, o ∈ (splitYield s r).1 ∨ (splitYield s r).2.postponed = some o := by
    intro o ho
    unfold splitYield postponeLastAuth
    dsimp only
    split
    · exact .inl ho
    · cases hp : popLast Obj.isAuth (insertPostponed s).1 with
      | none => exact .inl ho
      | some q =>
        obtain ⟨a, rest⟩ := q
        dsimp only
        split
        · exact .inl ho
        · obtain ⟨_, x, y, e1, e2, _⟩ := popLast_some hp
          rw [e1] at ho
          rcases List.mem_append.1 ho with ho | ho
          · left; show o ∈ rest; rw [e2]; simp [ho]
          · rcases List.mem_cons.1 ho with rfl | ho
            · right; rfl
            · left; show o ∈ rest; rw [e2]; simp [ho]
  refine ⟨?_, ?_⟩
  · -- the new postponed author
    have key : (∃ A, A + nAuth os ≤ 2 ∧ s.numAuth ≤ A ∧
      ∀ a, s.postponed = some a → s.numAuth + 1 ≤ A ∧ (a.id ∉ E → s.numAuth + 2 ≤ A)) →
      SafePp (splitYield s r).2 os (E ++ (splitYield s r).1.map (·.id)) := by
      rintro ⟨A, hA, hB, hC⟩
      right
      refine ⟨A, hA, by simp [splitYield], ?_⟩
      intro a ha
      have hn : (insertPostponed s).2 ≤ A := by
        unfold insertPostponed
        cases hp : s.postponed with
        | none => exact hB
        | some b => dsimp only; split; exact (hC b hp).1; exact hB
      have h0 : (splitYield s r).2.numAuth = 0 := rfl
      rw [h0]
      change (postponeLastAuth (insertPostponed s).1 (insertPostponed s).2).1 = some a at ha
      change _ ∧ (a.id ∉ E ++ ((postponeLastAuth (insertPostponed s).1 (insertPostponed s).2).2).map (·.id) → _)
      unfold postponeLastAuth at ha ⊢
      split at ha
      · cases ha
      · rename_i hne
        cases hp : popLast Obj.isAuth (insertPostponed s).1 with
        | none => rw [hp] at ha; cases ha
        | some q =>
          obtain ⟨b, rest⟩ := q
          rw [hp] at ha
          dsimp only at ha
          rw [if_neg hne]
          obtain ⟨_, x, y, e1, e2, _⟩ := popLast_some hp
          by_cases h1 : (insertPostponed s).2 = 1
          · rw [if_pos h1] at ha
            cases ha
            refine ⟨by omega, fun hn => ?_⟩
            exfalso
            apply hn
            dsimp only
            rw [if_pos h1]
            simp only [List.mem_append, List.mem_map]
            right
            exact ⟨a, by rw [e1]; simp, rfl⟩
          · exact ⟨by omega, fun _ => by omega⟩
    rcases h with ⟨h1, h2⟩ | h'
    · rcases hr h1 with rfl | hA
      · left
        exact ⟨h1, fun a _ => rfl⟩
      · exact key hA
    · exact key h'
  · intro i hi
    rcases hi with hi | hi | hi
    · rcases hins i (.inl hi) with h | ⟨o, ho, h2, h3⟩
      · left; simp [h]
      · rcases hpost o ho with h | h
        · left; simp only [List.mem_append, List.mem_map]; right; exact ⟨o, h, h2⟩
        · right; right; left; exact ⟨o, h, h2⟩
    · rcases hins i (.inr hi) with h | ⟨o, ho, h2, h3⟩
      · left; simp [h]
      · rcases hpost o ho with h | h
        · left; simp only [List.mem_append, List.mem_map]; right; exact ⟨o, h, h2⟩
        · right; right; left; exact ⟨o, h, h2⟩
    · right; right; right; exact hi

theorem wanted_append {s : SplitSt} {o o' : Obj} {os : List Obj} {i : Nat} (h : Wanted s (o :: os) i)
    (hid : o'.id = o.id) (hty : o'.isAuth = o.isAuth) : Wanted (splitAppend s o') os i := by
  unfold Wanted
  rw [cur_append, postponed_append]
  rcases h with ⟨x, hx, h⟩ | h | ⟨x, hx, h⟩
  · exact .inl ⟨x, by simp [hx], h⟩
  · exact .inr (.inl h)
  · rcases List.mem_cons.1 hx with rfl | hx
    · exact .inl ⟨o', by simp, by rw [hty]; exact h.1, by rw [hid]; exact h.2⟩
    · exact .inr (.inr ⟨x, hx, h⟩)

theorem safe_mono {s : SplitSt} {o o' : Obj} {os : List Obj} {E : List Nat} (h : SafePp s (o :: os) E)
    (hty : o'.isAuth = o.isAuth) (hm : ';' ∉ o.el.misc → ';' ∉ o'.el.misc) : SafePp s (o' :: os) E := by
  rcases h with ⟨h1, h2⟩ | ⟨A, h1, h2⟩
  · left
    refine ⟨fun x hx => ?_, h2⟩
    rcases List.mem_cons.1 hx with rfl | hx
    · exact hm (h1 o (by simp))
    · exact h1 x (by simp [hx])
  · right
    refine ⟨A, ?_, h2⟩
    rw [nAuth_cons] at h1 ⊢
    rw [hty]; exact h1

/-- No author is lost when the postponed author is safe. -/
theorem split_authors : ∀ (os : List Obj) (s : SplitSt) (E : List Nat), SafePp s os E →
    ∀ i, Wanted s os i → i ∈ E ∨ ∃ c ∈ splitGo s os, ∃ o ∈ c, o.id = i
  | [], s, E, h, i, hi => by
    have hcase : ∀ o, (o ∈ s.cur ∧ o.id = i) → ∃ c ∈ splitGo s [], ∃ o ∈ c, o.id = i := by
      rintro o ⟨ho, h2⟩
      refine ⟨(insertPostponed s).1, by simp [splitGo], o, ?_, h2⟩
      unfold insertPostponed
      cases s.postponed with
      | none => exact ho
      | some a => dsimp only; split <;> simp [ho]
    rcases hi with ⟨o, ho, h1, h2⟩ | ⟨a, ha, h2⟩ | ⟨o, ho, _⟩
    · exact .inr (hcase o ⟨ho, h2⟩)
    · by_cases hc : s.numAuth = 0 ∨ s.prev = some .repeated
      · right
        refine ⟨(insertPostponed s).1, by simp [splitGo], a, ?_, h2⟩
        unfold insertPostponed
        rw [ha]; dsimp only; rw [if_pos hc]; simp
      · left
        rcases h with ⟨_, hs⟩ | ⟨A, hA, hB, hC⟩
        · exact absurd (.inr (hs a ha)) hc
        · rcases Classical.em (a.id ∈ E) with hE | hE
          · rw [← h2]; exact hE
          · have := (hC a ha).2 hE
            exact absurd (.inl (by omega)) hc
    · cases ho
  | o :: os, s, E, h, i, hi => by
    unfold splitGo
    split
    · exact split_authors os _ E (safe_append h) i (wanted_append hi rfl rfl)
    · obtain ⟨h1, h2⟩ := safe_yield .repeated h (fun _ => .inl rfl)
      rcases h2 i hi with hE | hw
      · rcases List.mem_append.1 hE with hE | hE
        · exact .inl hE
        · obtain ⟨x, hx, e⟩ := List.mem_map.1 hE
          exact .inr ⟨_, by simp, x, hx, e⟩
      · rcases split_authors os _ _ (safe_append h1) i (wanted_append hw rfl rfl) with hE | ⟨c, hc, x, hx, e⟩
        · rcases List.mem_append.1 hE with hE | hE
          · exact .inl hE
          · obtain ⟨x, hx, e⟩ := List.mem_map.1 hE
            exact .inr ⟨_, by simp, x, hx, e⟩
        · exact .inr ⟨c, by simp [hc], x, hx, e⟩
    · rename_i hsn
      have hsemi := splitNeeded_semi hsn
      split
      · rename_i m rest hs
        have hs' : SafePp { s with cur := s.cur ++ [⟨s.fresh, { ty := .misc, misc := m }⟩], fresh := s.fresh + 1 }
            (o :: os) E := h
        have hw' : Wanted { s with cur := s.cur ++ [⟨s.fresh, { ty := .misc, misc := m }⟩], fresh := s.fresh + 1 }
            (o :: os) i := by
          rcases hi with ⟨x, hx, h⟩ | h | h
          · exact .inl ⟨x, by simp [hx], h⟩
          · exact .inr (.inl h)
          · exact .inr (.inr h)
        obtain ⟨h1, h2⟩ := safe_yield .semicolon hs' (fun hno => absurd hsemi (hno o (by simp)))
        rcases h2 i hw' with hE | hw
        · rcases List.mem_append.1 hE with hE | hE
          · exact .inl hE
          · obtain ⟨x, hx, e⟩ := List.mem_map.1 hE
            exact .inr ⟨_, by simp, x, hx, e⟩
        · have h1' := safe_mono (o' := { o with el := { o.el with misc := rest } }) h1 rfl
            (fun hno => absurd hsemi hno)
          rcases split_authors os _ _ (safe_append h1') i (wanted_append (o' := { o with el := { o.el with misc := rest } })
            hw rfl rfl) with hE | ⟨c, hc, x, hx, e⟩
          · rcases List.mem_append.1 hE with hE | hE
            · exact .inl hE
            · obtain ⟨x, hx, e⟩ := List.mem_map.1 hE
              exact .inr ⟨_, by simp, x, hx, e⟩
          · exact .inr ⟨c, by simp [hc], x, hx, e⟩
      · rename_i hs
        exact absurd hsemi (split1_none hs)

end Py
