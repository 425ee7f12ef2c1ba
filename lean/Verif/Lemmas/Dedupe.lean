import Verif.Lemmas.Year
import Verif.Lemmas.Split2

/-!
# Helper lemmas: duplicates and record ids
-/

namespace Py
open Spec

/-- The identifiers of a citation are distinct and in use. -/
structure WF (h : Heap) (c : List Nat) : Prop where
  nodup : c.Nodup
  lt : ∀ i ∈ c, i < h.next

theorem els_congr {h h' : Heap} {c : List Nat} (e : ∀ i ∈ c, h'.get i = h.get i) : h'.els c = h.els c :=
  List.map_congr_left e

/-! ### Authors -/

/-- An author as text. -/
def demote (e : El) (a : Str) : El := { e with ty := .misc, misc := e.misc ++ [' '] ++ a }

theorem dupAuthors_some {h : Heap} {i : Nat} {c : List Nat} {a : Str} (ht : (h.get i).ty = .auth)
    (ha : (h.get i).authTxt = some a) :
    dupAuthors true h (i :: c) = dupAuthors true (h.set i (demote (h.get i) a)) c := by
  simp only [dupAuthors, if_pos ht, if_true]
  have : getKey (h.get i).authTxt = .ok a := by rw [ha]; rfl
  rw [this]
  rfl

theorem set_els {h : Heap} {i : Nat} {c : List Nat} (e : El) (hi : i ∉ c) : (h.set i e).els c = h.els c :=
  els_congr fun j hj => by
    have : j ≠ i := by rintro rfl; exact hi hj
    simp [Heap.set, this]

theorem dupAuthors_true {h h' : Heap} {c : List Nat} (hc : c.Nodup) (e : dupAuthors true h c = .ok h') :
    All2 KeptOrDemoted (h.els c) (h'.els c) ∧ (∀ i, i ∉ c → h'.get i = h.get i) ∧ h'.next = h.next := by
  induction c generalizing h with
  | nil => cases e; exact ⟨.nil, fun _ _ => rfl, rfl⟩
  | cons i c ih =>
    simp only [List.nodup_cons] at hc
    by_cases ht : (h.get i).ty = .auth
    · cases ha : (h.get i).authTxt with
      | none =>
        simp only [dupAuthors, if_pos ht, if_true] at e
        have : getKey (h.get i).authTxt = (.error .keyError : Py Str) := by rw [ha]; rfl
        rw [this] at e; cases e
      | some a =>
        rw [dupAuthors_some ht ha] at e
        obtain ⟨h1, h2, h3⟩ := ih hc.2 e
        rw [set_els _ hc.1] at h1
        refine ⟨.cons (.inr ⟨ht, a, ha, ?_⟩) h1, ?_, h3⟩
        · rw [h2 i hc.1]; simp [Heap.set, demote]
        · intro j hj
          simp only [List.mem_cons, not_or] at hj
          rw [h2 j hj.2]; simp [Heap.set, hj.1]
    · simp only [dupAuthors] at e
      rw [if_neg ht] at e
      obtain ⟨h1, h2, h3⟩ := ih hc.2 e
      refine ⟨.cons (.inl ⟨ht, h2 i hc.1⟩) h1, ?_, h3⟩
      intro j hj
      simp only [List.mem_cons, not_or] at hj
      exact h2 j hj.2

theorem dupAuthors_false {h h' : Heap} {c : List Nat} (hc : c.Nodup) (e : dupAuthors false h c = .ok h') :
    FirstAuthorOnly (h.els c) (h'.els c) ∧ (∀ i, i ∉ c → h'.get i = h.get i) ∧ h'.next = h.next := by
  induction c generalizing h with
  | nil => cases e; exact ⟨.none (by simp [Heap.els]), fun _ _ => rfl, rfl⟩
  | cons i c ih =>
    simp only [List.nodup_cons] at hc
    simp only [dupAuthors] at e
    by_cases ht : (h.get i).ty = .auth
    · rw [if_pos ht] at e
      simp only [Bool.false_eq_true, if_false] at e
      obtain ⟨h1, h2, h3⟩ := dupAuthors_true hc.2 e
      refine ⟨?_, ?_, h3⟩
      · have := FirstAuthorOnly.some (a := []) (e := h.get i) (by simp) ht h1
        simp only [Heap.els, List.map_cons, h2 i hc.1]
        exact this
      · intro j hj
        simp only [List.mem_cons, not_or] at hj
        exact h2 j hj.2
    · rw [if_neg ht] at e
      obtain ⟨h1, h2, h3⟩ := ih hc.2 e
      refine ⟨?_, ?_, h3⟩
      · have hi := h2 i hc.1
        simp only [Heap.els, List.map_cons, hi]
        simp only [Heap.els] at h1
        generalize c.map h.get = es at h1
        generalize c.map h'.get = es' at h1
        cases h1 with
        | none hn => exact .none (by intro x hx; rcases List.mem_cons.1 hx with rfl | hx; exact ht; exact hn x hx)
        | @some a e b b' hn hty hb =>
          have := FirstAuthorOnly.some (a := h.get i :: a) (by
            intro x hx
            rcases List.mem_cons.1 hx with rfl | hx
            · exact ht
            · exact hn x hx) hty hb
          exact this
      · intro j hj
        simp only [List.mem_cons, not_or] at hj
        exact h2 j hj.2

theorem dupAuthors_ok {h : Heap} {c : List Nat} (f : Bool) (hc : c.Nodup)
    (ha : ∀ e ∈ h.els c, e.ty = .auth → e.authTxt ≠ none) : ∃ h', dupAuthors f h c = .ok h' := by
  induction c generalizing h f with
  | nil => exact ⟨h, rfl⟩
  | cons i c ih =>
    simp only [List.nodup_cons] at hc
    have hs : ∀ e ∈ h.els c, e.ty = .auth → e.authTxt ≠ none := fun e he =>
      ha e (by simp only [Heap.els, List.map_cons]; exact List.mem_cons_of_mem _ he)
    by_cases ht : (h.get i).ty = .auth
    · cases f with
      | false => simp only [dupAuthors, if_pos ht]; exact ih true hc.2 hs
      | true =>
        cases hat : (h.get i).authTxt with
        | none => exact absurd hat (ha _ (by simp [Heap.els]) ht)
        | some a =>
          rw [dupAuthors_some ht hat]
          exact ih true hc.2 (by rw [set_els _ hc.1]; exact hs)
    · simp only [dupAuthors, if_neg ht]
      exact ih f hc.2 hs

theorem all2_demoted_auth {b b' : List El} (h : All2 KeptOrDemoted b b') : ∀ x ∈ b', x.ty ≠ .auth := by
  induction h with
  | nil => simp
  | cons hab _ ih =>
    intro x hx
    rcases List.mem_cons.1 hx with rfl | hx
    · rcases hab with ⟨h1, rfl⟩ | ⟨_, a, _, rfl⟩
      · exact h1
      · simp
    · exact ih x hx

theorem authStep_count {es es' : List El} (h : FirstAuthorOnly es es') : (es'.filter (·.ty = .auth)).length ≤ 1 := by
  cases h with
  | none hn =>
    rw [List.filter_eq_nil_iff.2 (by simpa using hn)]; simp
  | some hn hty hb =>
    rw [List.filter_append, List.filter_eq_nil_iff.2 (by simpa using hn), List.filter_cons]
    rw [List.filter_eq_nil_iff.2 (by simpa using all2_demoted_auth hb)]
    split <;> simp

/-! ### Removal by equality -/

theorem removeEq_els (h : Heap) (e : El) (c : List Nat) : h.els (removeEq h e c) = (h.els c).erase e := by
  induction c with
  | nil => rfl
  | cons i c ih =>
    simp only [removeEq, Heap.els, List.map_cons] at ih ⊢
    by_cases hi : h.get i = e
    · simp [hi]
    · rw [List.eraseP_cons_of_neg (by simpa using hi), List.map_cons, ih, List.erase_cons_tail (by simpa using hi)]

theorem removeEq_sublist (h : Heap) (e : El) (c : List Nat) : (removeEq h e c).Sublist c := List.eraseP_sublist

theorem dupDois_sublist (h : Heap) (f : Bool) (c s : List Nat) : (dupDois h f c s).Sublist c := by
  induction s generalizing f c with
  | nil => exact List.Sublist.refl _
  | cons i s ih =>
    simp only [dupDois]
    split
    · split
      · exact (ih _ _).trans (removeEq_sublist _ _ _)
      · exact ih _ _
    · exact ih _ _

/-- Elements erased one after the other. -/
def eraseAll (l : List El) (ds : List El) : List El := ds.foldl List.erase l

theorem dupDois_els (h : Heap) (f : Bool) (c s : List Nat) :
    h.els (dupDois h f c s) = eraseAll (h.els c) (let ds := (h.els s).filter (·.ty = .doi); if f then ds else ds.tail) := by
  induction s generalizing f c with
  | nil => cases f <;> rfl
  | cons i s ih =>
    simp only [dupDois]
    by_cases ht : (h.get i).ty = .doi
    · rw [if_pos ht]
      have hf : (h.els (i :: s)).filter (·.ty = .doi) = h.get i :: (h.els s).filter (·.ty = .doi) := by
        simp [Heap.els, ht]
      cases f with
      | true =>
        simp only [if_true]
        rw [ih, removeEq_els]
        simp only [hf, if_true, eraseAll, List.foldl_cons]
      | false =>
        simp only [Bool.false_eq_true, if_false]
        rw [ih]
        simp only [hf, if_true, List.tail_cons]
    · rw [if_neg ht]
      have hf : (h.els (i :: s)).filter (·.ty = .doi) = (h.els s).filter (·.ty = .doi) := by
        simp [Heap.els, ht]
      rw [ih]
      simp only [hf]

theorem eraseAll_filter (p : El → Bool) (l ds : List El) (hd : ∀ d ∈ ds, p d = true) :
    (eraseAll l ds).filter p = eraseAll (l.filter p) ds := by
  induction ds generalizing l with
  | nil => rfl
  | cons d ds ih =>
    simp only [eraseAll, List.foldl_cons] at ih ⊢
    rw [ih _ fun x hx => hd x (by simp [hx])]
    congr 1
    have hp := hd d (by simp)
    induction l with
    | nil => rfl
    | cons x l ihl =>
      by_cases hx : x = d
      · subst hx; simp [hp]
      · rw [List.erase_cons_tail (by simpa using hx)]
        by_cases hpx : p x = true
        · rw [List.filter_cons_of_pos hpx, List.filter_cons_of_pos hpx, List.erase_cons_tail (by simpa using hx), ihl]
        · rw [List.filter_cons_of_neg hpx, List.filter_cons_of_neg hpx, ihl]

theorem eraseAll_filter_not (p : El → Bool) (l ds : List El) (hd : ∀ d ∈ ds, p d = false) :
    (eraseAll l ds).filter p = l.filter p := by
  induction ds generalizing l with
  | nil => rfl
  | cons d ds ih =>
    simp only [eraseAll, List.foldl_cons] at ih ⊢
    rw [ih _ fun x hx => hd x (by simp [hx])]
    have hp := hd d (by simp)
    induction l with
    | nil => rfl
    | cons x l ihl =>
      by_cases hx : x = d
      · subst hx; simp [hp]
      · rw [List.erase_cons_tail (by simpa using hx)]
        by_cases hpx : p x = true
        · rw [List.filter_cons_of_pos hpx, List.filter_cons_of_pos hpx, ihl]
        · rw [List.filter_cons_of_neg hpx, List.filter_cons_of_neg hpx, ihl]

theorem eraseAll_perm {l x ds : List El} (h : l.Perm (x ++ ds)) : (eraseAll l ds).Perm x := by
  induction ds generalizing l with
  | nil => simpa [eraseAll] using h
  | cons d ds ih =>
    simp only [eraseAll, List.foldl_cons] at ih ⊢
    apply ih
    have h1 : (l.erase d).Perm ((x ++ d :: ds).erase d) := h.erase d
    have h2 : (x ++ d :: ds).Perm (d :: (x ++ ds)) := List.perm_middle
    have h3 := h2.erase d
    rw [List.erase_cons_head] at h3
    exact h1.trans h3

/-! ### Collaborations -/

theorem dupCollabs_sublist {h : Heap} {seen : List Str} {c s c' : List Nat} (e : dupCollabs h seen c s = .ok c') :
    c'.Sublist c := by
  induction s generalizing seen c with
  | nil => cases e; exact List.Sublist.refl _
  | cons i s ih =>
    simp only [dupCollabs] at e
    split at e
    · cases hk : (h.get i).collaboration with
      | none => rw [hk] at e; cases e
      | some k =>
        rw [hk] at e
        simp only [getKey, bind, Except.bind] at e
        split at e
        · exact (ih e).trans (removeEq_sublist _ _ _)
        · exact ih e
    · exact ih e

/-- The elements whose name has been seen before. -/
def repeatedNames : List Str → List El → List El
  | _, [] => []
  | seen, e :: es =>
    match e.collaboration with
    | some k => if seen.contains k then e :: repeatedNames seen es else repeatedNames (seen ++ [k]) es
    | none => repeatedNames seen es

/-- The elements whose name has not been seen before. -/
def firstNames : List Str → List El → List El
  | _, [] => []
  | seen, e :: es =>
    match e.collaboration with
    | some k => if seen.contains k then firstNames seen es else e :: firstNames (seen ++ [k]) es
    | none => firstNames seen es

theorem dupCollabs_els {h : Heap} {seen : List Str} {c s c' : List Nat} (e : dupCollabs h seen c s = .ok c') :
    (∀ x ∈ (h.els s).filter (·.ty = .collaboration), x.collaboration ≠ none) ∧
    h.els c' = eraseAll (h.els c) (repeatedNames seen ((h.els s).filter (·.ty = .collaboration))) := by
  induction s generalizing seen c with
  | nil => cases e; exact ⟨by simp [Heap.els], rfl⟩
  | cons i s ih =>
    simp only [dupCollabs] at e
    by_cases ht : (h.get i).ty = .collaboration
    · rw [if_pos ht] at e
      have hf : (h.els (i :: s)).filter (·.ty = .collaboration) = h.get i :: (h.els s).filter (·.ty = .collaboration) := by
        simp [Heap.els, ht]
      cases hk : (h.get i).collaboration with
      | none => rw [hk] at e; cases e
      | some k =>
        rw [hk] at e
        simp only [getKey, bind, Except.bind] at e
        rw [hf]
        simp only [repeatedNames, hk]
        by_cases hs : seen.contains k = true
        · rw [if_pos hs] at e
          obtain ⟨h1, h2⟩ := ih e
          rw [if_pos hs, h2, removeEq_els]
          refine ⟨?_, rfl⟩
          intro x hx
          rcases List.mem_cons.1 hx with rfl | hx
          · rw [hk]; simp
          · exact h1 x hx
        · rw [if_neg hs] at e
          obtain ⟨h1, h2⟩ := ih e
          rw [if_neg hs, h2]
          refine ⟨?_, rfl⟩
          intro x hx
          rcases List.mem_cons.1 hx with rfl | hx
          · rw [hk]; simp
          · exact h1 x hx
    · rw [if_neg ht] at e
      have hf : (h.els (i :: s)).filter (·.ty = .collaboration) = (h.els s).filter (·.ty = .collaboration) := by
        simp [Heap.els, ht]
      rw [hf]
      exact ih e

theorem repeatedNames_sub (seen : List Str) (l : List El) : ∀ x ∈ repeatedNames seen l, x ∈ l := by
  induction l generalizing seen with
  | nil => simp [repeatedNames]
  | cons e l ih =>
    intro x hx
    simp only [repeatedNames] at hx
    split at hx
    · split at hx
      · rcases List.mem_cons.1 hx with rfl | hx
        · simp
        · exact List.mem_cons_of_mem _ (ih _ x hx)
      · exact List.mem_cons_of_mem _ (ih _ x hx)
    · exact List.mem_cons_of_mem _ (ih _ x hx)

theorem names_perm (seen : List Str) (l : List El) (hl : ∀ x ∈ l, x.collaboration ≠ none) :
    l.Perm (firstNames seen l ++ repeatedNames seen l) := by
  induction l generalizing seen with
  | nil => exact List.Perm.nil
  | cons e l ih =>
    have ih' := fun seen => ih seen fun x hx => hl x (by simp [hx])
    simp only [firstNames, repeatedNames]
    cases hk : e.collaboration with
    | none => exact absurd hk (hl e (by simp))
    | some k =>
      simp only
      split
      · exact ((ih' seen).cons e).trans List.perm_middle.symm
      · exact (ih' _).cons e

theorem firstNames_spec (seen : List Str) (l : List El) :
    (names (firstNames seen l)).Nodup ∧ (∀ k ∈ names (firstNames seen l), k ∉ seen) ∧
    ∀ k ∈ names l, k ∈ seen ∨ k ∈ names (firstNames seen l) := by
  induction l generalizing seen with
  | nil => simp [firstNames, names]
  | cons e l ih =>
    simp only [firstNames]
    cases hk : e.collaboration with
    | none =>
      simp only
      have hn : names (e :: l) = names l := by simp [names, hk]
      rw [hn]; exact ih seen
    | some k =>
      simp only
      have hn : names (e :: l) = k :: names l := by simp [names, hk]
      rw [hn]
      by_cases hs : seen.contains k = true
      · rw [if_pos hs]
        obtain ⟨h1, h2, h3⟩ := ih seen
        refine ⟨h1, h2, ?_⟩
        intro x hx
        rcases List.mem_cons.1 hx with rfl | hx
        · left; simpa using hs
        · exact h3 x hx
      · rw [if_neg hs]
        obtain ⟨h1, h2, h3⟩ := ih (seen ++ [k])
        have hn' : names (e :: firstNames (seen ++ [k]) l) = k :: names (firstNames (seen ++ [k]) l) := by
          simp [names, hk]
        rw [hn']
        refine ⟨?_, ?_, ?_⟩
        · rw [List.nodup_cons]
          exact ⟨fun h => h2 k h (by simp), h1⟩
        · intro x hx
          rcases List.mem_cons.1 hx with rfl | hx
          · simpa using hs
          · have := h2 x hx; simp at this; exact this.1
        · intro x hx
          rcases List.mem_cons.1 hx with rfl | hx
          · right; simp
          · rcases h3 x hx with h | h
            · simp at h
              rcases h with h | rfl
              · exact .inl h
              · right; simp
            · right; simp [h]

/-! ### Passes over all citations -/

/-- A step keeps distinct identifiers distinct and in use, and frees none. -/
def StepWF (f : Heap → List Nat → Py (Heap × List Nat)) : Prop :=
  ∀ h c h' c', WF h c → f h c = .ok (h', c') → WF h' c' ∧ h.next ≤ h'.next

theorem WF.mono {h h' : Heap} {c : List Nat} (w : WF h c) (hn : h.next ≤ h'.next) : WF h' c :=
  ⟨w.nodup, fun i hi => Nat.lt_of_lt_of_le (w.lt i hi) hn⟩

theorem eachCit_cons {f : Heap → List Nat → Py (Heap × List Nat)} {h : Heap} {c : List Nat} {cs : List (List Nat)}
    {h' : Heap} {cs' : List (List Nat)} (e : eachCit f h (c :: cs) = .ok (h', cs')) :
    ∃ h1 c1 cs1, f h c = .ok (h1, c1) ∧ eachCit f h1 cs = .ok (h', cs1) ∧ cs' = c1 :: cs1 := by
  simp only [eachCit] at e
  cases hf : f h c with
  | error x => rw [hf] at e; cases e
  | ok p =>
    obtain ⟨h1, c1⟩ := p
    rw [hf] at e
    simp only [bind, Except.bind] at e
    cases hr : eachCit f h1 cs with
    | error x => rw [hr] at e; cases e
    | ok q =>
      obtain ⟨h2, cs1⟩ := q
      rw [hr] at e
      simp only [pure, Except.pure, Except.ok.injEq, Prod.mk.injEq] at e
      exact ⟨h1, c1, cs1, rfl, by rw [hr, e.1], e.2.symm⟩

theorem eachCit_wf {f : Heap → List Nat → Py (Heap × List Nat)} (hf : StepWF f) {h : Heap} {cs : List (List Nat)}
    {h' : Heap} {cs' : List (List Nat)} (w : ∀ c ∈ cs, WF h c) (e : eachCit f h cs = .ok (h', cs')) :
    (∀ c ∈ cs', WF h' c) ∧ h.next ≤ h'.next := by
  induction cs generalizing h cs' with
  | nil =>
    simp only [eachCit, Except.ok.injEq, Prod.mk.injEq] at e
    rw [← e.1, ← e.2]; exact ⟨by simp, Nat.le_refl _⟩
  | cons c cs ih =>
    obtain ⟨h1, c1, cs1, e1, e2, rfl⟩ := eachCit_cons e
    obtain ⟨w1, n1⟩ := hf _ _ _ _ (w c (by simp)) e1
    obtain ⟨w2, n2⟩ := ih (fun x hx => (w x (by simp [hx])).mono n1) e2
    refine ⟨?_, Nat.le_trans n1 n2⟩
    intro x hx
    rcases List.mem_cons.1 hx with rfl | hx
    · exact w1.mono n2
    · exact w2 x hx

/-- A property of all elements in the heap kept by a pass. -/
theorem eachCit_heap {f : Heap → List Nat → Py (Heap × List Nat)} {P : Heap → Prop}
    (hf : ∀ h c h' c', P h → f h c = .ok (h', c') → P h') {h : Heap} {cs : List (List Nat)}
    {h' : Heap} {cs' : List (List Nat)} (p : P h) (e : eachCit f h cs = .ok (h', cs')) : P h' := by
  induction cs generalizing h cs' with
  | nil =>
    simp only [eachCit, Except.ok.injEq, Prod.mk.injEq] at e
    rw [← e.1]; exact p
  | cons c cs ih =>
    obtain ⟨h1, c1, cs1, e1, e2, rfl⟩ := eachCit_cons e
    exact ih (hf _ _ _ _ p e1) e2

/-- A pass that changes the heap only by new elements acts on each citation separately. -/
theorem eachCit_frame {f : Heap → List Nat → Py (Heap × List Nat)} {R : List El → List El → Prop}
    (hf : ∀ h c h' c', WF h c → f h c = .ok (h', c') →
      WF h' c' ∧ h.next ≤ h'.next ∧ (∀ i < h.next, h'.get i = h.get i) ∧ R (h.els c) (h'.els c'))
    {h : Heap} {cs : List (List Nat)} {h' : Heap} {cs' : List (List Nat)} (w : ∀ c ∈ cs, WF h c)
    (e : eachCit f h cs = .ok (h', cs')) :
    All2 R (cs.map h.els) (cs'.map h'.els) ∧ ∀ i < h.next, h'.get i = h.get i := by
  induction cs generalizing h cs' with
  | nil =>
    simp only [eachCit, Except.ok.injEq, Prod.mk.injEq] at e
    rw [← e.1, ← e.2]; exact ⟨.nil, fun _ _ => rfl⟩
  | cons c cs ih =>
    obtain ⟨h1, c1, cs1, e1, e2, rfl⟩ := eachCit_cons e
    obtain ⟨w1, n1, g1, r1⟩ := hf _ _ _ _ (w c (by simp)) e1
    obtain ⟨r2, g2⟩ := ih (fun x hx => (w x (by simp [hx])).mono n1) e2
    refine ⟨?_, fun i hi => by rw [g2 i (Nat.lt_of_lt_of_le hi n1), g1 i hi]⟩
    have hc1 : h'.els c1 = h1.els c1 := els_congr fun i hi => g2 i (w1.lt i hi)
    have hcs : cs.map h1.els = cs.map h.els :=
      List.map_congr_left fun x hx => els_congr fun i hi => g1 i ((w x (by simp [hx])).lt i hi)
    rw [hcs] at r2
    simp only [List.map_cons]
    exact .cons (hc1 ▸ r1) r2

theorem alloc_next (h : Heap) (e : El) : (h.alloc e).1.next = h.next + 1 := rfl
theorem alloc_new (h : Heap) (e : El) : (h.alloc e).1.get h.next = e := by simp [Heap.alloc]
theorem alloc_old (h : Heap) (e : El) {i : Nat} (hi : i < h.next) : (h.alloc e).1.get i = h.get i := by
  have : i ≠ h.next := by omega
  simp [Heap.alloc, this]

theorem WF.alloc {h : Heap} {c : List Nat} (w : WF h c) (e : El) : WF (h.alloc e).1 (c ++ [h.next]) := by
  refine ⟨?_, ?_⟩
  · rw [List.nodup_append]
    refine ⟨w.nodup, by simp, ?_⟩
    rintro i hi j hj rfl
    simp at hj; subst hj
    exact Nat.lt_irrefl _ (w.lt _ hi)
  · intro i hi
    rw [alloc_next]
    rcases List.mem_append.1 hi with hi | hi
    · exact Nat.lt_succ_of_lt (w.lt i hi)
    · simp at hi; omega

theorem WF.els_alloc {h : Heap} {c : List Nat} (w : WF h c) (e : El) :
    (h.alloc e).1.els (c ++ [h.next]) = h.els c ++ [e] := by
  simp only [Heap.els, List.map_append, List.map_cons, List.map_nil, alloc_new]
  congr 1
  exact List.map_congr_left fun i hi => alloc_old h e (w.lt i hi)

theorem hasRecid_iff (e : El) : hasRecid e = true ↔ Linked e := by
  unfold hasRecid Linked
  constructor
  · intro h
    split at h
    · rename_i r hr; exact ⟨r, hr, h⟩
    · cases h
  · rintro ⟨r, h1, h2⟩; rw [h1]; exact h2

theorem addRecid_step (h : Heap) (c : List Nat) (w : WF h c) :
    ∃ h' c', addRecid h c = .ok (h', c') ∧ WF h' c' ∧ h.next ≤ h'.next ∧ (∀ i < h.next, h'.get i = h.get i) ∧
      RecidAdded (h.els c) (h'.els c') := by
  unfold addRecid
  cases hf : c.find? fun i => hasRecid (h.get i) with
  | none =>
    refine ⟨h, c, rfl, w, Nat.le_refl _, fun _ _ => rfl, .inr ⟨?_, rfl⟩⟩
    intro e he hl
    rw [List.find?_eq_none] at hf
    obtain ⟨i, hi, rfl⟩ := List.mem_map.1 he
    exact hf i hi ((hasRecid_iff _).2 hl)
  | some i =>
    rw [List.find?_eq_some_iff_append] at hf
    obtain ⟨h1, a, b, h2, h3⟩ := hf
    refine ⟨_, _, rfl, w.alloc _, Nat.le_succ _, fun j hj => alloc_old h _ hj, .inl ?_⟩
    refine ⟨h.els a, h.get i, h.els b, by rw [h2]; simp [Heap.els], (hasRecid_iff _).1 h1, ?_, w.els_alloc _⟩
    intro x hx hl
    obtain ⟨j, hj, rfl⟩ := List.mem_map.1 hx
    have := h3 j hj
    rw [(hasRecid_iff _).2 hl] at this
    cases this

end Py
