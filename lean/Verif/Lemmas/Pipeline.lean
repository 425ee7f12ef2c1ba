import Verif.Lemmas.Dedupe

/-!
# Helper lemmas: the steps of one reference line together
-/

namespace Py
open Spec

theorem bind_ok {α β : Type} {x : Py α} {f : α → Py β} {b : β} (h : (x >>= f) = .ok b) :
    ∃ a, x = .ok a ∧ f a = .ok b := by
  cases x with
  | error e => cases h
  | ok a => exact ⟨a, rfl, h⟩

theorem pure_ok {α : Type} {a b : α} (h : (pure a : Py α) = .ok b) : a = b := by
  cases h; rfl

/-! ### Kinds made by the transformations -/

/-- The kind stays, or becomes one that is never a record id. -/
def KindOk (e e' : El) : Prop :=
  e'.ty = e.ty ∨ e'.ty = .misc ∨ e'.ty = .reportnumber ∨ e'.ty = .hdl

theorem eachEl_all {f : El → Py El} {P : El → Prop} (hf : ∀ e e', P e → f e = .ok e' → P e') {es es' : List El}
    (h : ∀ e ∈ es, P e) (he : eachEl f es = .ok es') : ∀ e ∈ es', P e := by
  induction es generalizing es' with
  | nil => cases he; simp
  | cons e es ih =>
    simp only [eachEl] at he
    obtain ⟨a, h1, h2⟩ := bind_ok he
    obtain ⟨b, h3, h4⟩ := bind_ok h2
    have := pure_ok h4
    subst this
    intro x hx
    rcases List.mem_cons.1 hx with rfl | hx
    · exact hf _ _ (h e (by simp)) h1
    · exact ih (fun y hy => h y (by simp [hy])) h3 x hx

theorem kind_formatVolume [UnicodeDB] {e e' : El} (h : formatVolume1 e = .ok e') : KindOk e e' := by
  unfold formatVolume1 at h
  split at h
  · obtain ⟨v, h1, h⟩ := bind_ok h
    split at h
    · obtain ⟨n, h2, h⟩ := bind_ok h
      rw [← pure_ok h]; exact .inl rfl
    · rw [← pure_ok h]; exact .inl rfl
  · rw [← pure_ok h]; exact .inl rfl

theorem kind_special [UnicodeDB] {l : List Str} {e e' : El} (h : specialJournal1 l e = .ok e') : KindOk e e' := by
  have tail : ∀ {e1 : El}, KindOk e e1 → (do
      let page ← getStr e1.page
      if isdigit page then do
        let n ← pyInt page
        return { e1 with page := some (some (padNat 3 n)) }
      else return e1) = (.ok e' : Py El) → KindOk e e' := by
    intro e1 h1 h
    obtain ⟨p, h6, h⟩ := bind_ok h
    split at h
    · obtain ⟨n, h2, h⟩ := bind_ok h
      rw [← pure_ok h]; exact h1
    · rw [← pure_ok h]; exact h1
  have mid : ∀ {e2 : El} {vol : Str}, KindOk e e2 → (do
      let year ← getStr e2.year
      let n ← pyInt vol
      let e1 ← pure { e2 with volume := some (some (lastTwo year ++ padNat 2 n)) }
      let page ← getStr e1.page
      if isdigit page then do
        let n ← pyInt page
        return { e1 with page := some (some (padNat 3 n)) }
      else return e1) = (.ok e' : Py El) → KindOk e e' := by
    intro e2 vol h1 h
    obtain ⟨y, _, h⟩ := bind_ok h
    obtain ⟨n, _, h⟩ := bind_ok h
    obtain ⟨e1, h2, h⟩ := bind_ok h
    exact tail (by rw [← pure_ok h2]; exact h1) h
  unfold specialJournal1 at h
  split at h
  · obtain ⟨v, h1, h⟩ := bind_ok h
    split at h
    · obtain ⟨v, h1, h⟩ := bind_ok h
      dsimp only at h
      split at h
      · obtain ⟨y, h2, h⟩ := bind_ok h
        split at h
        · obtain ⟨p, h3, h⟩ := bind_ok h
          split at h
          · exact mid (.inr (.inl rfl)) h
          · exact mid (.inl rfl) h
        · exact mid (.inl rfl) h
      · exact tail (.inl rfl) h
    · rw [← pure_ok h]; exact .inl rfl
  · rw [← pure_ok h]; exact .inl rfl

theorem kind_report [UnicodeDB] {e e' : El} (h : formatReportNumber1 e = .ok e') : KindOk e e' := by
  unfold formatReportNumber1 at h
  split at h
  · obtain ⟨v, h1, h⟩ := bind_ok h
    rw [← pure_ok h]; exact .inl rfl
  · rw [← pure_ok h]; exact .inl rfl

theorem kind_hep {e e' : El} (h : formatHepEl e = .ok e') : KindOk e e' := by
  unfold formatHepEl at h
  split at h
  · obtain ⟨v, h1, h⟩ := bind_ok h
    rw [← pure_ok h]; exact .inl rfl
  · rw [← pure_ok h]; exact .inl rfl

theorem kind_ed {e e' : El} (h : formatAuthorEd1 e = .ok e') : KindOk e e' := by
  unfold formatAuthorEd1 at h
  split at h
  · obtain ⟨v, h1, h⟩ := bind_ok h
    rw [← pure_ok h]; exact .inl rfl
  · rw [← pure_ok h]; exact .inl rfl

theorem kind_split {e e' : El} (h : splitVolume1 e = .ok e') : KindOk e e' := by
  unfold splitVolume1 at h
  split at h
  · obtain ⟨v, h1, h⟩ := bind_ok h
    split at h
    · obtain ⟨v, h1, h⟩ := bind_ok h
      rw [← pure_ok h]; exact .inl rfl
    · rw [← pure_ok h]; exact .inl rfl
  · rw [← pure_ok h]; exact .inl rfl

theorem kind_removeB {e e' : El} (h : removeB1 e = .ok e') : KindOk e e' := by
  unfold removeB1 at h
  split at h
  · obtain ⟨v, h1, h⟩ := bind_ok h
    split at h
    · split at h
      · rw [← pure_ok h]; exact .inl rfl
      · obtain ⟨v, h1, h⟩ := bind_ok h
        split at h
        · rw [← pure_ok h]; exact .inl rfl
        · rw [← pure_ok h]; exact .inl rfl
    · rw [← pure_ok h]; exact .inl rfl
  · rw [← pure_ok h]; exact .inl rfl

theorem kind_mangle [UnicodeDB] {e e' : El} (h : mangleVolume1 e = .ok e') : KindOk e e' := by
  unfold mangleVolume1 at h
  split at h
  · obtain ⟨v, h1, h⟩ := bind_ok h
    rw [← pure_ok h]; exact .inl rfl
  · rw [← pure_ok h]; exact .inl rfl

theorem kind_arxivUrl {e e' : El} (h : arxivUrl1 e = .ok e') : KindOk e e' := by
  unfold arxivUrl1 at h
  split at h
  · obtain ⟨v, h1, h⟩ := bind_ok h
    split at h
    · rw [← pure_ok h]; exact .inr (.inr (.inl rfl))
    · rw [← pure_ok h]; exact .inl rfl
  · rw [← pure_ok h]; exact .inl rfl

theorem kind_hdlUrl [UnicodeDB] {e e' : El} (h : hdlUrl1 e = .ok e') : KindOk e e' := by
  unfold hdlUrl1 at h
  split at h
  · obtain ⟨v, h1, h⟩ := bind_ok h
    split at h
    · obtain ⟨v, h1, h⟩ := bind_ok h
      rw [← pure_ok h]; exact .inr (.inr (.inr rfl))
    · rw [← pure_ok h]; exact .inl rfl
  · rw [← pure_ok h]; exact .inl rfl

theorem kind_associate {l : Linker} {e e' : El} (h : associate1 l e = .ok e') : KindOk e e' := by
  unfold associate1 at h
  split at h <;> cases h <;> exact .inl rfl

theorem lookForBooks_all [UnicodeDB] {books : Books} {P : El → Prop} (hb : ∀ e, e.ty = .book → P e) {es es' : List El}
    (h : ∀ e ∈ es, P e) (he : lookForBooks books es = .ok es') : ∀ e ∈ es', P e := by
  unfold lookForBooks at he
  split at he
  · cases he; exact h
  · obtain ⟨v, h1, he⟩ := bind_ok he
    split at he
    · rw [← pure_ok he]; exact h
    · obtain ⟨b, h2, he⟩ := bind_ok he
      rw [← pure_ok he]
      intro e hm
      rcases List.mem_append.1 (List.mem_of_mem_erase hm) with hm | hm
      · exact h e hm
      · simp only [List.mem_singleton] at hm
        subst hm
        apply hb
        unfold bookElement at h2
        obtain ⟨_, _, h2⟩ := bind_ok h2
        obtain ⟨_, _, h2⟩ := bind_ok h2
        obtain ⟨_, _, h2⟩ := bind_ok h2
        rw [← pure_ok h2]

theorem insertAfter_mem {e x : El} {l l' : List El} (h : insertAfter e x l = some l') : ∀ y ∈ l', y ∈ l ∨ y = x := by
  induction l generalizing l' with
  | nil => cases h
  | cons a l ih =>
    simp only [insertAfter] at h
    split at h
    · cases h
      intro y hy
      simp only [List.mem_cons] at hy ⊢
      rcases hy with h | h | h
      · exact .inl (.inl h)
      · exact .inr h
      · exact .inl (.inr h)
    · cases hr : insertAfter e x l with
      | none => rw [hr] at h; cases h
      | some r =>
        rw [hr] at h; cases h
        intro y hy
        simp only [List.mem_cons] at hy ⊢
        rcases hy with h | h
        · exact .inl (.inl h)
        · rcases ih hr y h with h | h
          · exact .inl (.inr h)
          · exact .inr h

theorem hdlLoop_all {P : El → Prop} (hh : ∀ e, e.ty = .hdl → P e) (hm : ∀ e m, P e → P { e with misc := m })
    (ms : List Match) : ∀ (d : List El) (e : El) (a : List El), (∀ x ∈ d, P x) → P e → (∀ x ∈ a, P x) →
    (∀ x ∈ (hdlLoop d e a ms).1, P x) ∧ P (hdlLoop d e a ms).2.1 ∧ ∀ x ∈ (hdlLoop d e a ms).2.2, P x := by
  induction ms with
  | nil => intro d e a h1 h2 h3; exact ⟨h1, h2, h3⟩
  | cons m ms ih =>
    intro d e a h1 h2 h3
    simp only [hdlLoop]
    split
    · rename_i d' hd
      refine ih _ _ _ ?_ (hm _ _ h2) h3
      intro x hx
      rcases insertAfter_mem hd x hx with h | h
      · exact h1 x h
      · exact h ▸ hh _ rfl
    · refine ih _ _ _ h1 (hm _ _ h2) ?_
      intro x hx
      rcases List.mem_cons.1 hx with h | h
      · exact h ▸ hh _ rfl
      · exact h3 x h

theorem lookForHdl_all [UnicodeDB] {P : El → Prop} (hh : ∀ e, e.ty = .hdl → P e) (hm : ∀ e m, P e → P { e with misc := m })
    {es : List El} (h : ∀ e ∈ es, P e) : ∀ e ∈ lookForHdl es, P e := by
  have key : ∀ (es d : List El), (∀ e ∈ es, P e) → (∀ e ∈ d, P e) → ∀ e ∈ hdlGo d es, P e := by
    intro es
    induction es with
    | nil => intro d _ h; exact h
    | cons e es ih =>
      intro d h1 h2
      simp only [hdlGo]
      obtain ⟨k1, k2, k3⟩ := hdlLoop_all hh hm (finditer Rx.re_hdl e.misc).reverse d e [] h2 (h1 e (by simp)) (by simp)
      refine ih _ (fun x hx => h1 x (by simp [hx])) ?_
      intro x hx
      rcases List.mem_append.1 hx with hx | hx
      · exact k1 x hx
      · rcases List.mem_cons.1 hx with hx | hx
        · exact hx ▸ k2
        · exact k3 x hx
  exact key es [] h (by simp)

/-- The transformations make no record id elements. -/
theorem transform_noRecid [UnicodeDB] {special : List Str} {books : Books} {link : Option Linker} {es es' : List El}
    (h : ∀ e ∈ es, e.ty ≠ .recid) (he : transformElements special books link es = .ok es') : ∀ e ∈ es', e.ty ≠ .recid := by
  have step : ∀ {f : El → Py El}, (∀ e e', f e = .ok e' → KindOk e e') → ∀ {es es' : List El},
      (∀ e ∈ es, e.ty ≠ .recid) → eachEl f es = .ok es' → ∀ e ∈ es', e.ty ≠ .recid := by
    intro f hf es es' h he
    refine eachEl_all (P := fun e => e.ty ≠ .recid) ?_ h he
    intro e e' hp hfe
    rcases hf e e' hfe with h | h | h | h <;> rw [h] <;> first | exact hp | simp
  unfold transformElements at he
  obtain ⟨_, h1, he⟩ := bind_ok he
  replace h := step (fun _ _ => kind_split) h h1
  obtain ⟨_, h1, he⟩ := bind_ok he
  replace h := step (fun _ _ => kind_formatVolume) h h1
  obtain ⟨_, h1, he⟩ := bind_ok he
  replace h := step (fun _ _ => kind_special) h h1
  obtain ⟨_, h1, he⟩ := bind_ok he
  replace h := step (fun _ _ => kind_report) h h1
  obtain ⟨_, h1, he⟩ := bind_ok he
  replace h := step (fun _ _ => kind_ed) h h1
  obtain ⟨_, h1, he⟩ := bind_ok he
  replace h := lookForBooks_all (P := fun e => e.ty ≠ .recid) (fun e h => by rw [h]; simp) h h1
  obtain ⟨_, h1, he⟩ := bind_ok he
  replace h := step (fun _ _ => kind_hep) h h1
  obtain ⟨_, h1, he⟩ := bind_ok he
  replace h := step (fun _ _ => kind_removeB) h h1
  obtain ⟨_, h1, he⟩ := bind_ok he
  replace h := step (fun _ _ => kind_mangle) h h1
  obtain ⟨_, h1, he⟩ := bind_ok he
  replace h := step (fun _ _ => kind_arxivUrl) h h1
  replace h := lookForHdl_all (P := fun e => e.ty ≠ .recid) (fun e h => by rw [h]; simp) (fun e m h => h) h
  obtain ⟨_, h1, he⟩ := bind_ok he
  replace h := step (fun _ _ => kind_hdlUrl) h h1
  split at he
  · exact step (fun _ _ => kind_associate) h he
  · rw [← pure_ok he]; exact h

/-! ### The heap of the split citations -/

theorem foldl_max_le (l : List Nat) (n : Nat) : n ≤ l.foldl max n ∧ ∀ i ∈ l, i ≤ l.foldl max n := by
  induction l generalizing n with
  | nil => simp
  | cons a l ih =>
    simp only [List.foldl_cons]
    have := ih (max n a)
    refine ⟨by omega, ?_⟩
    intro i hi
    rcases List.mem_cons.1 hi with rfl | hi
    · omega
    · exact this.2 i hi

theorem heapOf_wf (els : List El) : ∀ c ∈ (splitCitations els).map (fun c => c.map (·.id)), WF (heapOf (splitCitations els)) c := by
  intro c hc
  obtain ⟨d, hd, rfl⟩ := List.mem_map.1 hc
  refine ⟨splitCitations_ids els d hd, ?_⟩
  intro i hi
  obtain ⟨o, ho, rfl⟩ := List.mem_map.1 hi
  have : o.id ∈ ((splitCitations els).flatten.map (·.id)) := List.mem_map_of_mem (List.mem_flatten.2 ⟨d, hd, ho⟩)
  have := (foldl_max_le _ 0).2 _ this
  simp only [heapOf]
  omega

/-- A predicate on all elements of a heap. -/
def HeapAll (P : El → Prop) (h : Heap) : Prop := ∀ i, P (h.get i)

theorem heapOf_all {P : El → Prop} (hm : ∀ m, P { ty := .misc, misc := m }) {cs : List (List Obj)}
    (h : ∀ c ∈ cs, ∀ o ∈ c, P o.el) : HeapAll P (heapOf cs) := by
  intro i
  simp only [heapOf]
  cases hf : cs.flatten.find? (·.id == i) with
  | none => exact hm []
  | some o =>
    obtain ⟨c, hc, ho⟩ := List.mem_flatten.1 (List.mem_of_find?_eq_some hf)
    exact h c hc o ho

theorem HeapAll.set {P : El → Prop} {h : Heap} (p : HeapAll P h) {i : Nat} {e : El} (he : P e) : HeapAll P (h.set i e) := by
  intro j
  simp only [Heap.set]
  split
  · exact he
  · exact p j

theorem HeapAll.alloc {P : El → Prop} {h : Heap} (p : HeapAll P h) {e : El} (he : P e) : HeapAll P (h.alloc e).1 := by
  intro j
  simp only [Heap.alloc]
  split
  · exact he
  · exact p j

/-- The kinds of elements that later steps may make, and texts may change. -/
structure Closed (P : El → Prop) : Prop where
  kind : ∀ e, e.ty = .journal ∨ e.ty = .year ∨ e.ty = .book → P e
  misc : ∀ e m, P e → P { e with misc := m }
  recid : ∀ e r, P e → P { e with recid := r }

theorem ibidLoop_ok [UnicodeDB] {P : El → Prop} (hP : Closed P) {j : Nat} :
    ∀ {c : List Nat} {h : Heap} {acc : List Nat} {h' : Heap} {new : List Nat},
    HeapAll P h → ibidLoop j h acc c = .ok (h', new) →
    HeapAll P h' ∧ h.next ≤ h'.next ∧ ∃ l, new = acc ++ l ∧ l.Nodup ∧ ∀ i ∈ l, h.next ≤ i ∧ i < h'.next := by
  intro c
  induction c with
  | nil =>
    intro h acc h' new p e
    simp only [ibidLoop, Except.ok.injEq, Prod.mk.injEq] at e
    rw [← e.1, ← e.2]
    exact ⟨p, Nat.le_refl _, [], by simp⟩
  | cons i c ih =>
    intro h acc h' new p e
    simp only [ibidLoop] at e
    split at e
    · obtain ⟨o, h1, e⟩ := bind_ok e
      cases o with
      | none => exact ih p e
      | some n =>
        simp only at e
        obtain ⟨vo, h2, e⟩ := bind_ok e
        obtain ⟨ti, h3, e⟩ := bind_ok e
        obtain ⟨pa, h4, e⟩ := bind_ok e
        obtain ⟨k1, k2, l, k3, k4, k5⟩ := ih (HeapAll.set (HeapAll.alloc p (hP.kind _ (.inl rfl))) (hP.misc _ _ (p i))) e
        have hn : ∀ (e1 e2 : El), ((h.alloc e1).1.set i e2).next = h.next + 1 := fun _ _ => rfl
        rw [hn] at k2 k5
        refine ⟨k1, by omega, h.next :: l, by rw [k3]; simp [Heap.alloc], ?_, ?_⟩
        · rw [List.nodup_cons]
          exact ⟨fun hm => by have := k5 _ hm; omega, k4⟩
        · intro x hx
          rcases List.mem_cons.1 hx with rfl | hx
          · omega
          · have := k5 x hx; omega
    · exact ih p e

theorem impliedIbids_ok [UnicodeDB] {P : El → Prop} (hP : Closed P) {cs : List (List Nat)} :
    ∀ {cur : Option Nat} {h h' : Heap} {cs' : List (List Nat)},
    HeapAll P h → (∀ c ∈ cs, WF h c) → impliedIbids cur h cs = .ok (h', cs') →
    HeapAll P h' ∧ (∀ c ∈ cs', WF h' c) ∧ h.next ≤ h'.next := by
  induction cs with
  | nil =>
    intro cur h h' cs' p w e
    simp only [impliedIbids, Except.ok.injEq, Prod.mk.injEq] at e
    rw [← e.1, ← e.2]
    exact ⟨p, by simp, Nat.le_refl _⟩
  | cons c cs ih =>
    intro cur h h' cs' p w e
    simp only [impliedIbids] at e
    obtain ⟨⟨h1, c1⟩, e1, e''⟩ := bind_ok e
    clear e
    obtain ⟨⟨h2, cs1⟩, e2, e3⟩ := bind_ok e''
    have := pure_ok e3
    clear e3 e''
    simp only [Prod.mk.injEq] at this
    obtain ⟨rfl, rfl⟩ := this
    have hc : HeapAll P h1 ∧ WF h1 c1 ∧ h.next ≤ h1.next := by
      have same : (h, c) = (h1, c1) → HeapAll P h1 ∧ WF h1 c1 ∧ h.next ≤ h1.next := by
        intro hh
        simp only [Prod.mk.injEq] at hh
        rw [← hh.1, ← hh.2]
        exact ⟨p, w c (by simp), Nat.le_refl _⟩
      unfold ibidStep at e1
      split at e1
      · split at e1
        · exact same (pure_ok e1)
        · obtain ⟨⟨h3, new⟩, e3, e1⟩ := bind_ok e1
          have := pure_ok e1
          simp only [Prod.mk.injEq] at this
          obtain ⟨rfl, rfl⟩ := this
          obtain ⟨k1, k2, l, k3, k4, k5⟩ := ibidLoop_ok hP p e3
          refine ⟨k1, ⟨?_, ?_⟩, k2⟩
          · rw [k3, List.nil_append, List.nodup_append]
            refine ⟨(w c (by simp)).nodup, k4, ?_⟩
            rintro i hi j hj rfl
            have := k5 i hj
            have := (w c (by simp)).lt i hi
            omega
          · intro i hi
            rcases List.mem_append.1 hi with hi | hi
            · have := (w c (by simp)).lt i hi; omega
            · rw [k3] at hi
              exact (k5 i hi).2
      · exact same (pure_ok e1)
    obtain ⟨k1, k2, k3⟩ := ih hc.1 (fun x hx => (w x (by simp [hx])).mono hc.2.2) e2
    refine ⟨k1, ?_, Nat.le_trans hc.2.2 k3⟩
    intro x hx
    rcases List.mem_cons.1 hx with rfl | hx
    · exact hc.2.1.mono k3
    · exact k2 x hx

/-- What a step needs to keep. -/
structure StepOk (P : El → Prop) (f : Heap → List Nat → Py (Heap × List Nat)) : Prop where
  wf : StepWF f
  all : ∀ h c h' c', HeapAll P h → f h c = .ok (h', c') → HeapAll P h'

theorem eachCit_ok {P : El → Prop} {f : Heap → List Nat → Py (Heap × List Nat)} (hf : StepOk P f) {h h' : Heap}
    {cs cs' : List (List Nat)} (p : HeapAll P h) (w : ∀ c ∈ cs, WF h c) (e : eachCit f h cs = .ok (h', cs')) :
    HeapAll P h' ∧ (∀ c ∈ cs', WF h' c) :=
  ⟨eachCit_heap (P := HeapAll P) hf.all p e, (eachCit_wf hf.wf w e).1⟩

theorem removeYearLoop_all [UnicodeDB] {P : El → Prop} (hP : Closed P) (y : Str) (c : List Nat) {h : Heap}
    (p : HeapAll P h) : HeapAll P (removeYearLoop y h c) := by
  induction c generalizing h with
  | nil => exact p
  | cons i c ih =>
    simp only [removeYearLoop]
    apply ih
    split
    · exact p.set (hP.misc _ _ (p i))
    · exact p

theorem addYear_ok [UnicodeDB] {P : El → Prop} (hP : Closed P) : StepOk P addYear := by
  constructor
  · intro h c h' c' w e
    unfold addYear at e
    obtain ⟨o, h1, e⟩ := bind_ok e
    cases o with
    | none =>
      have := pure_ok e
      simp only [Prod.mk.injEq] at this
      obtain ⟨rfl, rfl⟩ := this
      exact ⟨w, Nat.le_refl _⟩
    | some y =>
      have := pure_ok e
      simp only [Prod.mk.injEq] at this
      obtain ⟨rfl, rfl⟩ := this
      rw [removeYearLoop_next]
      refine ⟨?_, Nat.le_succ _⟩
      have := w.alloc { ty := .year, misc := [], year := some (some y) }
      refine ⟨this.nodup, ?_⟩
      rw [removeYearLoop_next]
      exact this.lt
  · intro h c h' c' p e
    unfold addYear at e
    obtain ⟨o, h1, e⟩ := bind_ok e
    cases o with
    | none =>
      have := pure_ok e
      simp only [Prod.mk.injEq] at this
      rw [← this.1]; exact p
    | some y =>
      have := pure_ok e
      simp only [Prod.mk.injEq] at this
      rw [← this.1]
      exact removeYearLoop_all hP _ _ (HeapAll.alloc p (hP.kind _ (.inr (.inl rfl))))

theorem bookInMisc_ty [UnicodeDB] {books : Books} {es : List El} {y : Val} {m : Str} {ts : List Str} {b : El} {m' : Str}
    (h : bookInMisc books es y m ts = .ok (some (b, m'))) : b.ty = .book := by
  induction ts with
  | nil => cases h
  | cons t ts ih =>
    simp only [bookInMisc] at h
    split at h
    · exact ih h
    · obtain ⟨_, _, h⟩ := bind_ok h
      obtain ⟨_, _, h⟩ := bind_ok h
      obtain ⟨_, _, h⟩ := bind_ok h
      split at h
      · obtain ⟨_, _, h⟩ := bind_ok h
        obtain ⟨_, _, h⟩ := bind_ok h
        obtain ⟨_, _, h⟩ := bind_ok h
        have := pure_ok h
        simp only [Option.some.injEq, Prod.mk.injEq] at this
        rw [← this.1]
      · exact ih h

theorem bookSearch_ok [UnicodeDB] {P : El → Prop} (hP : Closed P) {books : Books} {y : Val} {h h' : Heap} {c c' is : List Nat}
    (e : bookSearch books y h c is = .ok (h', c')) :
    (WF h c → WF h' c' ∧ h.next ≤ h'.next) ∧ (HeapAll P h → HeapAll P h') := by
  induction is with
  | nil =>
    simp only [bookSearch, Except.ok.injEq, Prod.mk.injEq] at e
    rw [← e.1, ← e.2]
    exact ⟨fun w => ⟨w, Nat.le_refl _⟩, id⟩
  | cons i is ih =>
    simp only [bookSearch] at e
    obtain ⟨o, h1, e⟩ := bind_ok e
    cases o with
    | none => exact ih e
    | some bm =>
      obtain ⟨b, m⟩ := bm
      have := pure_ok e
      simp only [Prod.mk.injEq] at this
      obtain ⟨rfl, rfl⟩ := this
      refine ⟨fun w => ⟨⟨(w.alloc b).nodup, (w.alloc b).lt⟩, Nat.le_succ _⟩, fun p => ?_⟩
      exact HeapAll.set (HeapAll.alloc p (hP.kind _ (.inr (.inr (bookInMisc_ty h1))))) (hP.misc _ _ (p i))

theorem undetectedBooks_ok [UnicodeDB] {P : El → Prop} (hP : Closed P) (books : Books) : StepOk P (undetectedBooks books) := by
  constructor
  · intro h c h' c' w e
    unfold undetectedBooks at e
    split at e
    · obtain ⟨y, h1, e⟩ := bind_ok e
      exact (bookSearch_ok hP e).1 w
    · simp only [Except.ok.injEq, Prod.mk.injEq] at e
      rw [← e.1, ← e.2]; exact ⟨w, Nat.le_refl _⟩
  · intro h c h' c' p e
    unfold undetectedBooks at e
    split at e
    · obtain ⟨y, h1, e⟩ := bind_ok e
      exact (bookSearch_ok hP e).2 p
    · simp only [Except.ok.injEq, Prod.mk.injEq] at e
      rw [← e.1]; exact p

theorem associate1_eq {l : Linker} {e e' : El} (h : associate1 l e = .ok e') : ∃ r, e' = { e with recid := r } := by
  unfold associate1 at h
  split at h <;> cases h <;> exact ⟨_, rfl⟩

theorem associateLoop_ok {P : El → Prop} (hP : Closed P) {l : Linker} {c : List Nat} {h h' : Heap}
    (e : associateLoop l h c = .ok h') : h'.next = h.next ∧ (HeapAll P h → HeapAll P h') := by
  induction c generalizing h with
  | nil => cases e; exact ⟨rfl, id⟩
  | cons i c ih =>
    simp only [associateLoop] at e
    obtain ⟨x, h1, e⟩ := bind_ok e
    obtain ⟨r, rfl⟩ := associate1_eq h1
    obtain ⟨k1, k2⟩ := ih e
    exact ⟨k1, fun p => k2 (p.set (hP.recid _ _ (p i)))⟩

theorem associateCit_ok {P : El → Prop} (hP : Closed P) (l : Linker) : StepOk P (associateCit l) := by
  constructor
  · intro h c h' c' w e
    unfold associateCit at e
    obtain ⟨x, h1, e⟩ := bind_ok e
    have := pure_ok e
    simp only [Prod.mk.injEq] at this
    obtain ⟨rfl, rfl⟩ := this
    have := (associateLoop_ok hP h1).1
    exact ⟨w.mono (Nat.le_of_eq this.symm), Nat.le_of_eq this.symm⟩
  · intro h c h' c' p e
    unfold associateCit at e
    obtain ⟨x, h1, e⟩ := bind_ok e
    have := pure_ok e
    simp only [Prod.mk.injEq] at this
    rw [← this.1]
    exact (associateLoop_ok hP h1).2 p

theorem enrich_ok [UnicodeDB] {P : El → Prop} (hP : Closed P) {books : Books} {link : Option Linker} {h h' : Heap}
    {cs cs' : List (List Nat)} (p : HeapAll P h) (w : ∀ c ∈ cs, WF h c) (e : enrich books link h cs = .ok (h', cs')) :
    HeapAll P h' ∧ ∀ c ∈ cs', WF h' c := by
  unfold enrich at e
  obtain ⟨⟨h1, c1⟩, e1, k1⟩ := bind_ok e
  clear e
  obtain ⟨p1, w1, -⟩ := impliedIbids_ok hP p w e1
  obtain ⟨⟨h2, c2⟩, e2, k2⟩ := bind_ok k1
  clear k1
  obtain ⟨p2, w2⟩ := eachCit_ok (addYear_ok hP) p1 w1 e2
  obtain ⟨⟨h3, c3⟩, e3, e⟩ := bind_ok k2
  clear k2
  obtain ⟨p3, w3⟩ := eachCit_ok (undetectedBooks_ok hP books) p2 w2 e3
  dsimp only at e
  split at e
  · exact eachCit_ok (associateCit_ok hP _) p3 w3 e
  · have := pure_ok e
    simp only [Prod.mk.injEq] at this
    rw [← this.1, ← this.2]; exact ⟨p3, w3⟩

/-! ### Removing duplicates -/

theorem dupAuthorsCit_eq {h h' : Heap} {c c' : List Nat} (w : WF h c) (e : dupAuthorsCit h c = .ok (h', c')) :
    c' = c ∧ FirstAuthorOnly (h.els c) (h'.els c) ∧ (∀ i, i ∉ c → h'.get i = h.get i) ∧ h'.next = h.next := by
  unfold dupAuthorsCit at e
  obtain ⟨x, h1, e⟩ := bind_ok e
  have := pure_ok e
  simp only [Prod.mk.injEq] at this
  obtain ⟨rfl, rfl⟩ := this
  exact ⟨rfl, dupAuthors_false w.nodup h1⟩

/-- Heaps in which fewer elements are authors and the others are the same. -/
def FewerAuthors (h h' : Heap) : Prop :=
  h'.next = h.next ∧ ∀ i, h'.get i = h.get i ∨ ((h.get i).ty = .auth ∧ (h'.get i).ty = .misc)

theorem FewerAuthors.refl (h : Heap) : FewerAuthors h h := ⟨rfl, fun _ => .inl rfl⟩

theorem FewerAuthors.trans {a b c : Heap} (h1 : FewerAuthors a b) (h2 : FewerAuthors b c) : FewerAuthors a c := by
  refine ⟨h2.1.trans h1.1, fun i => ?_⟩
  rcases h1.2 i with e | ⟨e1, e2⟩
  · rcases h2.2 i with e' | ⟨e1', e2'⟩
    · exact .inl (e'.trans e)
    · exact .inr ⟨by rw [← e]; exact e1', e2'⟩
  · rcases h2.2 i with e' | ⟨e1', e2'⟩
    · exact .inr ⟨e1, by rw [e']; exact e2⟩
    · rw [e2] at e1'; cases e1'

theorem dupAuthors_fewer {c : List Nat} : ∀ {f : Bool} {h h' : Heap}, dupAuthors f h c = .ok h' → FewerAuthors h h' := by
  induction c with
  | nil => intro f h h' e; cases e; exact .refl _
  | cons i c ih =>
    intro f h h' e
    simp only [dupAuthors] at e
    split at e
    · rename_i ht
      split at e
      · obtain ⟨a, ha, e⟩ := bind_ok e
        refine FewerAuthors.trans (b := h.set i _) ⟨rfl, fun j => ?_⟩ (ih e)
        by_cases hj : j = i
        · subst hj; exact .inr ⟨ht, by simp [Heap.set]⟩
        · exact .inl (by simp [Heap.set, hj])
      · exact ih e
    · exact ih e

theorem FewerAuthors.count {h h' : Heap} (f : FewerAuthors h h') (c : List Nat) :
    (kindEls .auth (h'.els c)).length ≤ (kindEls .auth (h.els c)).length := by
  induction c with
  | nil => exact Nat.le_refl _
  | cons i c ih =>
    simp only [kindEls, Heap.els, List.map_cons, List.filter_cons] at ih ⊢
    rcases f.2 i with e | ⟨e1, e2⟩
    · rw [e]
      split
      · simp only [List.length_cons]; omega
      · exact ih
    · have x1 : decide ((h'.get i).ty = Kind.auth) = false := by rw [e2]; rfl
      have x2 : decide ((h.get i).ty = Kind.auth) = true := by rw [e1]; rfl
      rw [x1, x2]
      simp only [Bool.false_eq_true, if_false, if_true, List.length_cons]
      omega

theorem authPass {cs : List (List Nat)} : ∀ {h h' : Heap} {cs' : List (List Nat)}, (∀ c ∈ cs, WF h c) →
    eachCit dupAuthorsCit h cs = .ok (h', cs') →
    cs' = cs ∧ FewerAuthors h h' ∧ ∀ c ∈ cs, (kindEls .auth (h'.els c)).length ≤ 1 := by
  induction cs with
  | nil =>
    intro h h' cs' w e
    simp only [eachCit, Except.ok.injEq, Prod.mk.injEq] at e
    rw [← e.1, ← e.2]; exact ⟨rfl, .refl _, by simp⟩
  | cons c cs ih =>
    intro h h' cs' w e
    obtain ⟨h1, c1, cs1, e1, e2, rfl⟩ := eachCit_cons e
    obtain ⟨rfl, k1, k2, k3⟩ := dupAuthorsCit_eq (w c (by simp)) e1
    have f1 : FewerAuthors h h1 := by
      unfold dupAuthorsCit at e1
      obtain ⟨x, h1, e⟩ := bind_ok e1
      have := pure_ok e
      simp only [Prod.mk.injEq] at this
      obtain ⟨rfl, -⟩ := this
      exact dupAuthors_fewer h1
    obtain ⟨r1, r2, r3⟩ := ih (fun x hx => (w x (by simp [hx])).mono (Nat.le_of_eq k3.symm)) e2
    refine ⟨by rw [r1], f1.trans r2, ?_⟩
    intro x hx
    rcases List.mem_cons.1 hx with rfl | hx
    · exact Nat.le_trans (r2.count _) (authStep_count k1)
    · exact r3 x hx

/-- What removing repeated DOIs does. -/
theorem dupDois_spec (h : Heap) (c : List Nat) :
    (h.els (dupDois h false c c)).filter (·.ty ≠ .doi) = (h.els c).filter (·.ty ≠ .doi) ∧
    kindEls .doi (h.els (dupDois h false c c)) = (kindEls .doi (h.els c)).take 1 := by
  rw [dupDois_els]
  simp only [Bool.false_eq_true, if_false]
  have hd : ∀ d ∈ ((h.els c).filter (·.ty = .doi)).tail, d.ty = .doi := by
    intro d hd
    simpa using (List.mem_filter.1 (List.mem_of_mem_tail hd)).2
  constructor
  · exact eraseAll_filter_not _ _ _ fun d hm => by simp [hd d hm]
  · unfold kindEls
    rw [eraseAll_filter _ _ _ fun d hm => by simp [hd d hm]]
    cases hl : (h.els c).filter (·.ty = .doi) with
    | nil => rfl
    | cons x l =>
      have := eraseAll_perm (l := x :: l) (x := [x]) (ds := l) (List.Perm.refl _)
      rw [List.tail_cons]
      exact List.perm_singleton.1 this

/-- What removing repeated collaborations does. -/
theorem dupCollabs_spec {h : Heap} {c c' : List Nat} (e : dupCollabs h [] c c = .ok c') :
    (h.els c').filter (·.ty ≠ .collaboration) = (h.els c).filter (·.ty ≠ .collaboration) ∧
    (names (kindEls .collaboration (h.els c'))).Nodup ∧
    (∀ k, k ∈ names (kindEls .collaboration (h.els c')) ↔ k ∈ names (kindEls .collaboration (h.els c))) ∧
    (∀ x ∈ kindEls .collaboration (h.els c'), x ∈ kindEls .collaboration (h.els c)) := by
  obtain ⟨h1, h2⟩ := dupCollabs_els e
  have hr : ∀ d ∈ repeatedNames [] ((h.els c).filter (·.ty = .collaboration)), d.ty = .collaboration := by
    intro d hd
    simpa using (List.mem_filter.1 (repeatedNames_sub _ _ d hd)).2
  have hp : (kindEls .collaboration (h.els c')).Perm (firstNames [] (kindEls .collaboration (h.els c))) := by
    unfold kindEls
    rw [h2, eraseAll_filter _ _ _ fun d hm => by simp [hr d hm]]
    exact eraseAll_perm (names_perm [] _ h1)
  have hn : (names (kindEls .collaboration (h.els c'))).Perm (names (firstNames [] (kindEls .collaboration (h.els c)))) :=
    hp.filterMap _
  obtain ⟨f1, f2, f3⟩ := firstNames_spec [] (kindEls .collaboration (h.els c))
  have hsub : ∀ x ∈ kindEls .collaboration (h.els c'), x ∈ kindEls .collaboration (h.els c) := by
    intro x hx
    have : x ∈ firstNames [] (kindEls .collaboration (h.els c)) := hp.mem_iff.1 hx
    exact (names_perm [] _ h1).mem_iff.2 (List.mem_append_left _ this)
  refine ⟨?_, hn.nodup_iff.2 f1, ?_, hsub⟩
  · rw [h2]
    exact eraseAll_filter_not _ _ _ fun d hm => by simp [hr d hm]
  · intro k
    constructor
    · intro hk
      obtain ⟨x, hx, hxk⟩ := List.mem_filterMap.1 hk
      exact List.mem_filterMap.2 ⟨x, hsub x hx, hxk⟩
    · intro hk
      rcases f3 k hk with h | h
      · cases h
      · exact hn.mem_iff.2 h

/-- A pass that leaves the heap alone. -/
theorem eachCit_pure {f : Heap → List Nat → Py (Heap × List Nat)} (R : List Nat → List Nat → Prop) {h : Heap}
    (hf : ∀ c h' c', f h c = .ok (h', c') → h' = h ∧ R c c') {cs cs' : List (List Nat)} {h' : Heap}
    (e : eachCit f h cs = .ok (h', cs')) : h' = h ∧ All2 R cs cs' := by
  induction cs generalizing cs' with
  | nil =>
    simp only [eachCit, Except.ok.injEq, Prod.mk.injEq] at e
    rw [← e.1, ← e.2]; exact ⟨rfl, .nil⟩
  | cons c cs ih =>
    obtain ⟨h1, c1, cs1, e1, e2, rfl⟩ := eachCit_cons e
    obtain ⟨rfl, r⟩ := hf _ _ _ e1
    obtain ⟨k1, k2⟩ := ih e2
    exact ⟨k1, .cons r k2⟩

theorem _root_.Spec.All2.right {α β : Type} {R : α → β → Prop} {l : List α} {l' : List β} (h : All2 R l l') :
    ∀ b ∈ l', ∃ a ∈ l, R a b := by
  induction h with
  | nil => simp
  | cons r _ ih =>
    intro b hb
    rcases List.mem_cons.1 hb with rfl | hb
    · exact ⟨_, by simp, r⟩
    · obtain ⟨a, ha, hr⟩ := ih b hb
      exact ⟨a, by simp [ha], hr⟩

theorem ofKind_sublist {k : Kind} {a b : List El} (h : a.Sublist b) : (kindEls k a).length ≤ (kindEls k b).length :=
  (h.filter _).length_le

/-- At most one of each, after removing duplicates. -/
theorem dedupe_ok {h h' : Heap} {cs cs' : List (List Nat)} (w : ∀ c ∈ cs, WF h c) (p : HeapAll (fun e => e.ty ≠ .recid) h)
    (e : dedupe h cs = .ok (h', cs')) : ∀ c ∈ cs',
      (kindEls .auth (h'.els c)).length ≤ 1 ∧ (kindEls .doi (h'.els c)).length ≤ 1 ∧
      (kindEls .recid (h'.els c)).length ≤ 1 ∧ (names (kindEls .collaboration (h'.els c))).Nodup := by
  unfold dedupe at e
  obtain ⟨⟨h1, c1⟩, e1, k1⟩ := bind_ok e
  clear e
  obtain ⟨⟨h2, c2⟩, e2, k2⟩ := bind_ok k1
  clear k1
  obtain ⟨⟨h3, c3⟩, e3, k3⟩ := bind_ok k2
  clear k2
  dsimp only at e2 e3 k3
  obtain ⟨rfl, f1, a1⟩ := authPass w e1
  obtain ⟨rfl, r2⟩ := eachCit_pure (fun c c' => c' = dupDois h1 false c c) (by
    intro c h' c' hh
    simp only [dupDoisCit, Except.ok.injEq, Prod.mk.injEq] at hh
    exact ⟨hh.1.symm, hh.2.symm⟩) e2
  obtain ⟨rfl, r3⟩ := eachCit_pure (fun c c' => dupCollabs h2 [] c c = .ok c') (by
    intro c h' c' hh
    unfold dupCollabsCit at hh
    obtain ⟨x, k1, k2⟩ := bind_ok hh
    have := pure_ok k2
    simp only [Prod.mk.injEq] at this
    exact ⟨this.1.symm, by rw [k1, this.2]⟩) e3
  have facts : ∀ c ∈ c3, WF h3 c ∧ (kindEls .auth (h3.els c)).length ≤ 1 ∧ (kindEls .doi (h3.els c)).length ≤ 1 ∧
      (kindEls .recid (h3.els c)).length = 0 ∧ (names (kindEls .collaboration (h3.els c))).Nodup := by
    intro c hc
    obtain ⟨b, hb, k3⟩ := r3.right c hc
    obtain ⟨a, ha, k2⟩ := r2.right b hb
    have s3 := dupCollabs_sublist k3
    have s2 : b.Sublist a := k2 ▸ dupDois_sublist _ _ _ _
    have wa : WF h3 a := (w a ha).mono (Nat.le_of_eq f1.1.symm)
    have sc : c.Sublist a := s3.trans s2
    refine ⟨⟨sc.nodup wa.nodup, fun i hi => wa.lt i (sc.subset hi)⟩, ?_, ?_, ?_, (dupCollabs_spec k3).2.1⟩
    · exact Nat.le_trans (ofKind_sublist (sc.map _)) (a1 a ha)
    · refine Nat.le_trans (ofKind_sublist (s3.map _)) ?_
      have := (dupDois_spec h3 a).2
      rw [← k2] at this
      change (kindEls .doi (h3.els b)).length ≤ 1
      rw [this, List.length_take]
      omega
    · rw [List.length_eq_zero_iff]
      unfold kindEls
      rw [List.filter_eq_nil_iff]
      intro x hx
      obtain ⟨i, hi, rfl⟩ := List.mem_map.1 hx
      rcases f1.2 i with g | ⟨g1, g2⟩
      · rw [g]; simpa using p i
      · rw [g2]; simp
  obtain ⟨r4, g4⟩ := eachCit_frame (R := RecidAdded) (by
    intro h c h' c' w e
    obtain ⟨h1, c1, k1, k2, k3, k4, k5⟩ := addRecid_step h c w
    rw [k1] at e
    simp only [Except.ok.injEq, Prod.mk.injEq] at e
    obtain ⟨rfl, rfl⟩ := e
    exact ⟨k2, k3, k4, k5⟩) (fun c hc => (facts c hc).1) k3
  intro c hc
  obtain ⟨es, hes, hr⟩ := r4.right (h'.els c) (List.mem_map_of_mem hc)
  obtain ⟨b, hb, rfl⟩ := List.mem_map.1 hes
  obtain ⟨-, q1, q2, q3, q4⟩ := facts b hb
  rcases hr with ⟨x, y, z, -, -, -, hq⟩ | ⟨-, hq⟩
  · rw [hq]
    simp only [kindEls, List.filter_append] at q1 q2 q3 q4 ⊢
    simp only [List.length_append]
    refine ⟨by simpa using q1, by simpa using q2, ?_, ?_⟩
    · rw [q3]; simp
    · simpa using q4
  · rw [hq]; exact ⟨q1, q2, by omega, q4⟩

theorem noRecid_closed : Closed fun e => e.ty ≠ .recid where
  kind := by rintro e (h | h | h) <;> rw [h] <;> simp
  misc := fun _ _ h => h
  recid := fun _ _ h => h

end Py
