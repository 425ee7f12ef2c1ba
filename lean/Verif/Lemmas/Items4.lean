import Verif.Props.Implied
import Verif.Lemmas.Items3

/-!
# Books and quoted titles are kept (C105)
-/

open Spec
open scoped List

namespace Py

/-- A step on a citation keeps what is asked for and may add to it. -/
def StepMore (p : Kind → Bool) (f : Heap → List Nat → Py (Heap × List Nat)) : Prop :=
  ∀ h c h' c', WF h c → f h c = .ok (h', c') → WF h' c' ∧ SameView p h h' ∧ ofKinds p (h.els c) <+ ofKinds p (h'.els c')

theorem StepView.more {p : Kind → Bool} {f : Heap → List Nat → Py (Heap × List Nat)} (hf : StepView p f) : StepMore p f := by
  intro h c h' c' w e
  obtain ⟨k1, k2, k3⟩ := hf h c h' c' w e
  exact ⟨k1, k2, by rw [k3]; exact List.Sublist.refl _⟩

theorem eachCit_more {p : Kind → Bool} {f : Heap → List Nat → Py (Heap × List Nat)} (hf : StepMore p f) {cs : List (List Nat)} :
    ∀ {h h' : Heap} {cs' : List (List Nat)}, (∀ c ∈ cs, WF h c) → eachCit f h cs = .ok (h', cs') →
    (∀ c ∈ cs', WF h' c) ∧ SameView p h h' ∧ All2 (fun c c' => ofKinds p c <+ ofKinds p c') (cs.map h.els) (cs'.map h'.els) := by
  induction cs with
  | nil =>
    intro h h' cs' w e
    simp only [eachCit, Except.ok.injEq, Prod.mk.injEq] at e
    obtain ⟨rfl, rfl⟩ := e
    exact ⟨by simp, .refl _ _, .nil⟩
  | cons c cs ih =>
    intro h h' cs' w e
    obtain ⟨h1, c1, cs1, e1, e2, rfl⟩ := eachCit_cons e
    obtain ⟨w1, s1, v1⟩ := hf _ _ _ _ (w c (by simp)) e1
    have ws : ∀ x ∈ cs, WF h x := fun x hx => w x (by simp [hx])
    obtain ⟨w2, s2, v2⟩ := ih (fun x hx => (ws x hx).mono s1.1) e2
    refine ⟨?_, s1.trans s2, ?_⟩
    · intro x hx
      rcases List.mem_cons.1 hx with rfl | hx
      · exact w1.mono s2.1
      · exact w2 x hx
    · refine .cons ?_ ?_
      · rw [s2.els w1.lt]; exact v1
      · have key : ∀ (cs : List (List Nat)) (ds : List (List El)), (∀ c ∈ cs, ofKinds p (h1.els c) = ofKinds p (h.els c)) →
            All2 (fun c c' => ofKinds p c <+ ofKinds p c') (cs.map h1.els) ds → All2 (fun c c' => ofKinds p c <+ ofKinds p c') (cs.map h.els) ds := by
          intro cs
          induction cs with
          | nil => intro ds _ k; exact k
          | cons c cs ih2 =>
            intro ds hc k
            rw [List.map_cons] at k ⊢
            cases k with
            | cons k1 k2 => exact .cons (by rw [← hc c (by simp)]; exact k1) (ih2 _ (fun x hx => hc x (by simp [hx])) k2)
        exact key _ _ (fun x hx => s1.els (ws x hx).lt) v2

variable [UnicodeDB] {p : Kind → Bool}

theorem bookSearch_more {books : Books} {y : Val} {c : List Nat} {is : List Nat} :
    ∀ {h h' : Heap} {c' : List Nat}, WF h c → (∀ i ∈ is, i ∈ c) → bookSearch books y h c is = .ok (h', c') →
    SameView p h h' ∧ ofKinds p (h.els c) <+ ofKinds p (h'.els c') := by
  induction is with
  | nil =>
    intro h h' c' _ _ e
    simp only [bookSearch, Except.ok.injEq, Prod.mk.injEq] at e
    obtain ⟨rfl, rfl⟩ := e
    exact ⟨.refl _ _, List.Sublist.refl _⟩
  | cons i is ih =>
    intro h h' c' w hi e
    simp only [bookSearch] at e
    obtain ⟨o, h1, e⟩ := bind_ok e
    cases o with
    | none => exact ih w (fun x hx => hi x (by simp [hx])) e
    | some q =>
      obtain ⟨b, misc⟩ := q
      have := pure_ok e
      simp only [Prod.mk.injEq] at this
      obtain ⟨rfl, rfl⟩ := this
      have hic := w.lt i (hi i (by simp))
      have s1 := SameView.alloc p h b
      have s2 : SameView p (h.alloc b).1 ((h.alloc b).1.set i { h.get i with misc := misc }) := by
        refine .set ?_
        rw [viewOf_misc]
        simp only [Heap.alloc]
        rw [if_neg (Nat.ne_of_lt hic)]
      refine ⟨s1.trans s2, ?_⟩
      have e2 := s2.els (c := c ++ [h.next]) (by
        intro x hx
        rcases List.mem_append.1 hx with hx | hx
        · exact Nat.lt_succ_of_lt (w.lt x hx)
        · rw [List.mem_singleton.1 hx]; exact Nat.lt_succ_self _)
      have e3 : (h.alloc b).1.els (c ++ [h.next]) = (h.alloc b).1.els c ++ [b] := by simp [Heap.els, Heap.alloc]
      rw [e3, ofKinds_append, s1.els w.lt] at e2
      have e4 : (h.alloc b).2 = h.next := rfl
      rw [e4, e2]
      exact List.sublist_append_left _ _

theorem undetectedBooks_more (books : Books) : StepMore p (undetectedBooks books) := by
  intro h c h' c' w e
  have wf := (undetectedBooks_ok (P := fun _ => True) ⟨fun _ _ => trivial, fun _ _ _ => trivial, fun _ _ _ => trivial⟩ books).wf h c h' c' w e
  refine ⟨wf.1, ?_⟩
  unfold undetectedBooks at e
  split at e
  · obtain ⟨y, -, e⟩ := bind_ok e
    exact bookSearch_more w (fun _ h => h) e
  · have := pure_ok e
    simp only [Prod.mk.injEq] at this
    obtain ⟨rfl, rfl⟩ := this
    exact ⟨.refl _ _, List.Sublist.refl _⟩

omit [UnicodeDB] in
theorem kinds_trans {a b c : List (List El)} (h : All2 (fun c c' => ofKinds p c <+ ofKinds p c') a b)
    (h' : All2 (fun c c' => ofKinds p c <+ ofKinds p c') b c) : All2 (fun c c' => ofKinds p c <+ ofKinds p c') a c := by
  induction h generalizing c with
  | nil => cases h'; exact .nil
  | cons k _ ih => cases h' with
    | cons k' h' => exact .cons (k.trans k') (ih h')

/-- Later steps keep the items of a line, apart from texts, authors and things that are put aside or found once more. -/
theorem post_kept (u : Untouched p) {special : List Str} {books : Books} {link : Option Linker} {els : List El}
    {cs : List (List El)} (e : postProcess special books link els = .ok cs) :
    ∃ els', transformElements special books link els = .ok els' ∧ ofKinds p els' <+ ofKinds p cs.flatten := by
  unfold postProcess at e
  obtain ⟨els', h1, k1⟩ := bind_ok e
  clear e
  dsimp only at k1
  obtain ⟨⟨h, c1⟩, h2, k2⟩ := bind_ok k1
  clear k1
  obtain ⟨⟨h', c2⟩, h3, k3⟩ := bind_ok k2
  clear k2
  have := pure_ok k3
  subst this
  unfold enrich at h2
  obtain ⟨⟨g1, d1⟩, e1, m1⟩ := bind_ok h2
  clear h2
  obtain ⟨⟨g2, d2⟩, e2, m2⟩ := bind_ok m1
  clear m1
  obtain ⟨⟨g3, d3⟩, e3, m3⟩ := bind_ok m2
  clear m2
  have w0 := heapOf_wf els'
  have wi := impliedIbids_ok (P := fun _ => True) ⟨fun _ _ => trivial, fun _ _ _ => trivial, fun _ _ _ => trivial⟩ (fun _ => trivial) w0 e1
  obtain ⟨-, w1, -⟩ := wi
  have sh : ((splitCitations els').map fun c => c.map (·.id)).Pairwise (NoSharedText (heapOf (splitCitations els'))) := by
    rw [List.pairwise_map]
    refine List.Pairwise.imp_of_mem ?_ (splitCitations_shared els')
    intro a b ha hb hab i hi hi'
    obtain ⟨o, ho, rfl⟩ := List.mem_map.1 hi
    obtain ⟨q, hq, e⟩ := List.mem_map.1 hi'
    obtain ⟨-, hau⟩ := hab o ho q hq e.symm
    rw [heapOf_get els' ha ho]
    have : o.el.ty = .auth := by simpa [Obj.isAuth] using hau
    rw [this]; simp
  obtain ⟨-, -, comp⟩ := impliedIbids_spec (prev := []) w0 sh (by simp) e1
  have e0 : ((splitCitations els').map fun c => c.map (·.id)).map (heapOf (splitCitations els')).els =
      (splitCitations els').map fun c => c.map (·.el) := by
    rw [List.map_map]
    exact List.map_congr_left fun c hc => heapOf_els els' hc
  rw [e0] at comp
  have v1 := Props.completed_sublist u.misc comp
  obtain ⟨w2, -, v2⟩ := eachCit_more (addYear_view u).more w1 e2
  obtain ⟨w3, -, v3⟩ := eachCit_more (undetectedBooks_more books) w2 e3
  have v13 := kinds_trans v1 (kinds_trans v2 v3)
  refine ⟨els', h1, ?_⟩
  have fin : ∀ {a : Heap} {b : List (List Nat)}, (∀ c ∈ b, WF a c) → dedupe a b = .ok (h', c2) →
      All2 (fun c c' => ofKinds p c <+ ofKinds p c') (d3.map g3.els) (b.map a.els) → ofKinds p els' <+ ofKinds p (c2.map h'.els).flatten := by
    intro a b wb eb vb
    have k := dedupe_view u wb eb
    have k2 := Props.all2_flatten (kinds_trans v13 vb)
    rw [Props.split_kinds u.misc u.auth] at k2
    refine k2.trans ?_
    rw [Props.ofKinds_flatten, List.map_map, List.map_map]
    unfold Function.comp
    rw [← k]
    exact List.Sublist.refl _
  cases link with
  | none =>
    have := pure_ok m3
    simp only [Prod.mk.injEq] at this
    obtain ⟨rfl, rfl⟩ := this
    refine fin w3 h3 ?_
    generalize d3.map g3.els = x
    induction x with
    | nil => exact .nil
    | cons a x ih => exact .cons (List.Sublist.refl _) ih
  | some l =>
    obtain ⟨w4, -, v4⟩ := eachCit_more (associate_view l).more w3 m3
    exact fin w4 h3 v4

omit [UnicodeDB] in
theorem withHandles_kinds {a b : List El} (h : WithHandles a b) : WithHandles (ofKinds p a) (ofKinds p b) := by
  induction h with
  | nil => exact .nil
  | both _ ih =>
    rename_i e es es' _
    unfold ofKinds at ih ⊢
    rw [List.filter_cons, List.filter_cons]
    split
    · exact .both ih
    · exact ih
  | handle he _ ih =>
    unfold ofKinds at ih ⊢
    rw [List.filter_cons]
    split
    · exact .handle he ih
    · exact ih

omit [UnicodeDB] in
theorem ofKinds_entries (hp : ∀ k, p k = true → isEntry k = true) (es : List El) : ofKinds p (entries es) = ofKinds p es := by
  unfold entries ofKinds
  induction es with
  | nil => rfl
  | cons e es ih =>
    by_cases h : p e.ty = true
    · have h2 := hp _ h
      rw [List.filter_cons, if_pos h2, List.map_cons, List.filter_cons, if_pos (by exact h), List.filter_cons, if_pos h, List.map_cons, ih]
      rfl
    · by_cases h2 : isEntry e.ty = true
      · rw [List.filter_cons, if_pos h2, List.map_cons, List.filter_cons, if_neg (by exact h), ih, List.filter_cons, if_neg h]
      · rw [List.filter_cons, if_neg h2, ih, List.filter_cons, if_neg h]

end Py
