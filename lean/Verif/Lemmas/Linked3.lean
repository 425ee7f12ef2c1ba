import Verif.Lemmas.Linked2

/-!
# Helper lemmas: linking, and removing duplicates with record ids (C122)
-/

open Spec
open scoped List

namespace Py

/-! ### Linking -/

/-- The record id is the linker's answer on the element. -/
def Answered (link : Linker) (e : El) : Prop := e.recid = some (answer link e)

theorem _root_.Spec.Steady.answer {link : Linker} (hs : Steady link) (e : El) (r : Option (Option RecId)) : Py.answer link { e with recid := r } = Py.answer link e := by
  unfold Py.answer
  rw [hs.pure]

theorem _root_.Spec.Steady.associate1 {link : Linker} (hs : Steady link) (e : El) :
    Py.associate1 link e = .ok { e with recid := some (Py.answer link e) } := by
  unfold Py.associate1 Py.answer
  cases h : link e with
  | ok r => rfl
  | error x => rcases hs.calm e x h with rfl | rfl <;> rfl

theorem associateLoop_steady {link : Linker} (hs : Steady link) : ∀ (c : List Nat) (h : Heap), ∃ h', associateLoop link h c = .ok h' ∧
    h'.bare = h.bare ∧ (∀ i ∈ c, Answered link (h'.get i)) ∧ ∀ i, Answered link (h.get i) → Answered link (h'.get i)
  | [], h => ⟨h, rfl, rfl, by simp, fun _ k => k⟩
  | i :: c, h => by
    obtain ⟨h', h1, h2, h3, h4⟩ := associateLoop_steady hs c (h.set i { h.get i with recid := some (Py.answer link (h.get i)) })
    have k : Answered link { h.get i with recid := some (Py.answer link (h.get i)) } :=
      congrArg some (hs.answer (h.get i) _).symm
    have k' : ∀ j, Answered link (h.get j) ∨ j = i → Answered link ((h.set i { h.get i with recid := some (Py.answer link (h.get i)) }).get j) := by
      intro j hj
      by_cases e : j = i
      · subst e; simpa [Heap.set] using k
      · rcases hj with hj | hj
        · simpa [Heap.set, e] using hj
        · exact absurd hj e
    refine ⟨h', ?_, ?_, ?_, fun j hj => h4 j (k' j (.inl hj))⟩
    · simp only [associateLoop]
      rw [hs.associate1]
      exact h1
    · rw [h2, set_bare]
      unfold Heap.set Heap.bare
      simp only [Heap.mk.injEq, and_true]
      funext j
      split
      · rename_i e; rw [e]; rfl
      · rfl
    · intro j hj
      rcases List.mem_cons.1 hj with rfl | hj
      · exact h4 _ (k' _ (.inr rfl))
      · exact h3 j hj

theorem associateAll_steady {link : Linker} (hs : Steady link) : ∀ (cs : List (List Nat)) (h : Heap), ∃ h', eachCit (associateCit link) h cs = .ok (h', cs) ∧
    h'.bare = h.bare ∧ (∀ c ∈ cs, ∀ i ∈ c, Answered link (h'.get i)) ∧ ∀ i, Answered link (h.get i) → Answered link (h'.get i)
  | [], h => ⟨h, rfl, rfl, by simp, fun _ k => k⟩
  | c :: cs, h => by
    obtain ⟨h1, a1, a2, a3, a4⟩ := associateLoop_steady hs c h
    obtain ⟨h2, b1, b2, b3, b4⟩ := associateAll_steady hs cs h1
    refine ⟨h2, ?_, b2.trans a2, ?_, fun i hi => b4 i (a4 i hi)⟩
    · simp only [eachCit, associateCit]
      rw [a1]
      simp only [bind, Except.bind, pure, Except.pure]
      rw [b1]
    · intro x hx i hi
      rcases List.mem_cons.1 hx with rfl | hx
      · exact b4 i (a3 i hi)
      · exact b3 x hx i hi

/-! ### Removing duplicates -/

/-- The record id is an answer of the linker, on the element itself unless this was turned into text. -/
def Sound (link : Linker) (e : El) : Prop := (∃ x, e.recid = some (answer link x)) ∧ (e.ty ≠ .misc → Answered link e)

theorem Answered.sound {link : Linker} {e : El} (h : Answered link e) : Sound link e := ⟨⟨e, h⟩, fun _ => h⟩

theorem _root_.Spec.Steady.bare {link : Linker} (hs : Steady link) (e : El) : Py.answer link e.bare = Py.answer link e := hs.answer e none

theorem bare_inj {a b : El} (h : a.bare = b.bare) (hr : a.recid = b.recid) : a = b := by
  cases a
  cases b
  simp only [El.bare, El.mk.injEq] at h hr ⊢
  simp [h, hr]

theorem sound_eq {link : Linker} (hs : Steady link) {a b : El} (ha : Sound link a) (hb : Sound link b) (ht : b.ty ≠ .misc) : a.bare = b.bare ↔ a = b := by
  constructor
  · intro h
    refine bare_inj h ?_
    have e1 : a.ty = b.ty := congrArg (·.ty) h
    have e2 := ha.2 (e1 ▸ ht)
    have e3 := hb.2 ht
    unfold Answered at e2 e3
    rw [e2, e3, ← hs.bare a, ← hs.bare b, h]
  · rintro rfl; rfl

theorem dupAuthors_bare : ∀ (c : List Nat) (f : Bool) (h : Heap), dupAuthors f h.bare c = (dupAuthors f h c).map Heap.bare
  | [], f, h => rfl
  | i :: c, f, h => by
    have g1 : (h.bare.get i).ty = (h.get i).ty := rfl
    have g2 : (h.bare.get i).authTxt = (h.get i).authTxt := rfl
    simp only [dupAuthors, g1, g2]
    split
    · split
      · cases getKey (h.get i).authTxt with
        | error e => rfl
        | ok a =>
          have e := dupAuthors_bare c true (h.set i { h.get i with ty := .misc, misc := (h.get i).misc ++ [' '] ++ a })
          rw [set_bare] at e
          exact e
      · exact dupAuthors_bare c true h
    · exact dupAuthors_bare c f h

theorem dupAuthors_sound {link : Linker} : ∀ {c : List Nat} {f : Bool} {h h' : Heap}, dupAuthors f h c = .ok h' → ∀ i, Sound link (h.get i) → Sound link (h'.get i)
  | [], f, h, h', e => by cases e; exact fun _ k => k
  | j :: c, f, h, h', e => by
    simp only [dupAuthors] at e
    split at e
    · split at e
      · obtain ⟨a, -, e⟩ := bind_ok e
        intro i hi
        refine dupAuthors_sound e i ?_
        by_cases hij : i = j
        · subst hij
          simp only [Heap.set, if_true]
          exact ⟨hi.1, fun k => absurd rfl k⟩
        · simpa [Heap.set, hij] using hi
      · exact dupAuthors_sound e
    · exact dupAuthors_sound e

theorem dupAuthorsCit_bare (h : Heap) (c : List Nat) : dupAuthorsCit h.bare c = bareOut (dupAuthorsCit h c) := by
  unfold dupAuthorsCit
  rw [dupAuthors_bare]
  cases dupAuthors false h c <;> rfl

theorem removeEq_bare {link : Linker} (hs : Steady link) {h : Heap} {i : Nat} (hi : Sound link (h.get i)) (ht : (h.get i).ty ≠ .misc) :
    ∀ {c : List Nat}, (∀ j ∈ c, Sound link (h.get j)) → removeEq h.bare (h.bare.get i) c = removeEq h (h.get i) c
  | [], _ => rfl
  | j :: c, hc => by
    have ih := removeEq_bare hs hi ht (c := c) fun k hk => hc k (by simp [hk])
    unfold removeEq at ih ⊢
    simp only [List.eraseP_cons, ih]
    have e : (h.bare.get j = h.bare.get i) = (h.get j = h.get i) := propext (sound_eq hs (hc j (by simp)) hi ht)
    simp only [e]

theorem dupDois_bare {link : Linker} (hs : Steady link) {h : Heap} : ∀ {s c : List Nat} {f : Bool}, (∀ j ∈ c, Sound link (h.get j)) → (∀ j ∈ s, Sound link (h.get j)) →
    dupDois h.bare f c s = dupDois h f c s
  | [], c, f, _, _ => rfl
  | i :: s, c, f, hc, h2 => by
    have g1 : (h.bare.get i).ty = (h.get i).ty := rfl
    have h2' : ∀ j ∈ s, Sound link (h.get j) := fun j hj => h2 j (by simp [hj])
    simp only [dupDois, g1]
    split
    · rename_i ht
      split
      · rw [removeEq_bare hs (h2 i (by simp)) (by rw [ht]; simp) hc]
        exact dupDois_bare hs (fun j hj => hc j ((removeEq_sublist _ _ _).subset hj)) h2'
      · exact dupDois_bare hs hc h2'
    · exact dupDois_bare hs hc h2'

theorem dupCollabs_bare {link : Linker} (hs : Steady link) {h : Heap} : ∀ {s c : List Nat} {seen : List Str}, (∀ j ∈ c, Sound link (h.get j)) → (∀ j ∈ s, Sound link (h.get j)) →
    dupCollabs h.bare seen c s = dupCollabs h seen c s
  | [], c, f, _, _ => rfl
  | i :: s, c, f, hc, h2 => by
    have g1 : (h.bare.get i).ty = (h.get i).ty := rfl
    have g2 : (h.bare.get i).collaboration = (h.get i).collaboration := rfl
    have h2' : ∀ j ∈ s, Sound link (h.get j) := fun j hj => h2 j (by simp [hj])
    simp only [dupCollabs, g1, g2]
    split
    · rename_i ht
      cases getKey (h.get i).collaboration with
      | error e => rfl
      | ok k =>
        simp only [bind, Except.bind]
        split
        · rw [removeEq_bare hs (h2 i (by simp)) (by rw [ht]; simp) hc]
          exact dupCollabs_bare hs (fun j hj => hc j ((removeEq_sublist _ _ _).subset hj)) h2'
        · exact dupCollabs_bare hs hc h2'
    · exact dupCollabs_bare hs hc h2'

/-- A pass that leaves the heap alone, with and without record ids. -/
theorem eachCit_quiet {f : Heap → List Nat → Py (Heap × List Nat)} {h : Heap} : ∀ {cs : List (List Nat)}, (∀ c ∈ cs, f h.bare c = bareOut (f h c)) →
    (∀ c h' c', f h c = .ok (h', c') → h' = h) → eachCit f h.bare cs = bareOut (eachCit f h cs)
  | [], _, _ => rfl
  | c :: cs, hf, hh => by
    simp only [eachCit]
    rw [hf c (by simp)]
    cases hx : f h c with
    | error e => rfl
    | ok p =>
      obtain ⟨h', c'⟩ := p
      obtain rfl := hh _ _ _ hx
      have := eachCit_quiet (fun c hc => hf c (by simp [hc])) hh (cs := cs)
      simp only [bareOut, Except.map, bind, Except.bind] at this ⊢
      rw [this]
      cases eachCit f h' cs <;> rfl

theorem eachCit_still {f : Heap → List Nat → Py (Heap × List Nat)} {h : Heap} : ∀ {cs : List (List Nat)}, (∀ c ∈ cs, f h c = .ok (h, c)) → eachCit f h cs = .ok (h, cs)
  | [], _ => rfl
  | c :: cs, hf => by
    simp only [eachCit]
    rw [hf c (by simp)]
    simp only [bind, Except.bind]
    rw [eachCit_still fun c hc => hf c (by simp [hc])]
    rfl

theorem eachCit_total {f : Heap → List Nat → Py (Heap × List Nat)} (hf : ∀ h c, ∃ p, f h c = .ok p) : ∀ (cs : List (List Nat)) (h : Heap), ∃ p, eachCit f h cs = .ok p
  | [], h => ⟨_, rfl⟩
  | c :: cs, h => by
    obtain ⟨⟨h1, c1⟩, e1⟩ := hf h c
    obtain ⟨⟨h2, cs2⟩, e2⟩ := eachCit_total hf cs h1
    refine ⟨(h2, c1 :: cs2), ?_⟩
    simp only [eachCit]
    rw [e1]
    simp only [bind, Except.bind]
    rw [e2]
    rfl

theorem addRecid_total (h : Heap) (c : List Nat) : ∃ p, addRecid h c = .ok p := by
  unfold addRecid
  split <;> exact ⟨_, rfl⟩

theorem addRecid_bare (h : Heap) (c : List Nat) : addRecid h.bare c = .ok (h.bare, c) := by
  unfold addRecid
  have : (c.find? fun i => hasRecid (h.bare.get i)) = none := by
    rw [List.find?_eq_none]
    intro i _
    simp [hasRecid, Heap.bare, El.bare]
  rw [this]

/-- The citation without and with record ids. -/
def Twin (link : Linker) (a b : List El) : Prop :=
  ∃ m, a = m.map El.bare ∧ (∀ e ∈ m, Sound link e ∧ e.ty ≠ .recid) ∧ RecidAdded m b

theorem all2_twin {link : Linker} : ∀ {ms bs : List (List El)}, All2 RecidAdded ms bs → (∀ m ∈ ms, ∀ e ∈ m, Sound link e ∧ e.ty ≠ .recid) →
    All2 (Twin link) (ms.map (List.map El.bare)) bs := by
  intro ms bs h
  induction h with
  | nil => intro _; exact .nil
  | cons r _ ih =>
    intro hm
    exact .cons ⟨_, rfl, hm _ (by simp), r⟩ (ih fun m hmm => hm m (by simp [hmm]))

theorem dedupe_twin {link : Linker} (hs : Steady link) {h : Heap} {cs : List (List Nat)} (w : ∀ c ∈ cs, WF h c) (p : HeapAll (fun e => e.ty ≠ .recid) h)
    (hm : ∀ c ∈ cs, ∀ i ∈ c, Answered link (h.get i)) :
    Both (fun a b => All2 (Twin link) (a.2.map a.1.els) (b.2.map b.1.els)) (dedupe h.bare cs) (dedupe h cs) := by
  unfold dedupe
  rw [eachCit_bare dupAuthorsCit_bare]
  cases e1 : eachCit dupAuthorsCit h cs with
  | error x => exact .error x
  | ok q =>
    obtain ⟨h1, c1⟩ := q
    obtain ⟨rfl, f1, -⟩ := authPass w e1
    have s1 : ∀ c ∈ c1, ∀ i ∈ c, Sound link (h1.get i) := by
      have := eachCit_heap (P := fun k => ∀ i, Sound link (h.get i) → Sound link (k.get i)) (by
        intro k c k' c' hk hx i hi
        unfold dupAuthorsCit at hx
        obtain ⟨y, h2, hx⟩ := bind_ok hx
        have := pure_ok hx
        simp only [Prod.mk.injEq] at this
        rw [← this.1]
        exact dupAuthors_sound h2 i (hk i hi)) (fun _ k => k) e1
      exact fun c hc i hi => this i (hm c hc i hi).sound
    have p1 : HeapAll (fun e => e.ty ≠ .recid) h1 := by
      intro i
      rcases f1.2 i with e | ⟨-, e⟩
      · rw [e]; exact p i
      · rw [e]; simp
    have w1 : ∀ c ∈ c1, WF h1 c := fun c hc => (w c hc).mono (Nat.le_of_eq f1.1.symm)
    simp only [bareOut, Except.map, bind, Except.bind]
    have e2 : eachCit dupDoisCit h1.bare c1 = bareOut (eachCit dupDoisCit h1 c1) := by
      refine eachCit_quiet (fun c hc => ?_) (fun c h' c' hx => ?_)
      · unfold dupDoisCit
        rw [dupDois_bare hs (s1 c hc) (s1 c hc)]
        rfl
      · simp only [dupDoisCit, Except.ok.injEq, Prod.mk.injEq] at hx
        exact hx.1.symm
    rw [e2]
    cases e2 : eachCit dupDoisCit h1 c1 with
    | error x => exact .error x
    | ok q =>
      obtain ⟨h2, c2⟩ := q
      obtain ⟨rfl, r2⟩ := eachCit_pure (fun c c' => c'.Sublist c) (by
        intro c h' c' hh
        simp only [dupDoisCit, Except.ok.injEq, Prod.mk.injEq] at hh
        exact ⟨hh.1.symm, hh.2 ▸ dupDois_sublist _ _ _ _⟩) e2
      have s2 : ∀ c ∈ c2, WF h2 c ∧ ∀ i ∈ c, Sound link (h2.get i) := by
        intro c hc
        obtain ⟨a, ha, hsub⟩ := r2.right c hc
        exact ⟨⟨hsub.nodup (w1 a ha).nodup, fun i hi => (w1 a ha).lt i (hsub.subset hi)⟩, fun i hi => s1 a ha i (hsub.subset hi)⟩
      simp only [bareOut, Except.map]
      have e3 : eachCit dupCollabsCit h2.bare c2 = bareOut (eachCit dupCollabsCit h2 c2) := by
        refine eachCit_quiet (fun c hc => ?_) (fun c h' c' hx => ?_)
        · unfold dupCollabsCit
          rw [dupCollabs_bare hs (s2 c hc).2 (s2 c hc).2]
          cases dupCollabs h2 [] c c <;> rfl
        · unfold dupCollabsCit at hx
          obtain ⟨_, _, hx⟩ := bind_ok hx
          have := pure_ok hx
          simp only [Prod.mk.injEq] at this
          exact this.1.symm
      rw [e3]
      cases e3 : eachCit dupCollabsCit h2 c2 with
      | error x => exact .error x
      | ok q =>
        obtain ⟨h3, c3⟩ := q
        obtain ⟨rfl, r3⟩ := eachCit_pure (fun c c' => c'.Sublist c) (by
          intro c h' c' hh
          unfold dupCollabsCit at hh
          obtain ⟨x, k1, k2⟩ := bind_ok hh
          have := pure_ok k2
          simp only [Prod.mk.injEq] at this
          exact ⟨this.1.symm, this.2 ▸ dupCollabs_sublist k1⟩) e3
        have s3 : ∀ c ∈ c3, WF h3 c ∧ ∀ i ∈ c, Sound link (h3.get i) := by
          intro c hc
          obtain ⟨a, ha, hsub⟩ := r3.right c hc
          exact ⟨⟨hsub.nodup (s2 a ha).1.nodup, fun i hi => (s2 a ha).1.lt i (hsub.subset hi)⟩, fun i hi => (s2 a ha).2 i (hsub.subset hi)⟩
        simp only [bareOut, Except.map]
        rw [eachCit_still fun c _ => addRecid_bare h3 c]
        obtain ⟨⟨h4, c4⟩, e4⟩ := eachCit_total addRecid_total c3 h3
        rw [e4]
        refine .ok ?_
        obtain ⟨r4, -⟩ := eachCit_frame (R := RecidAdded) (by
          intro h c h' c' w e
          obtain ⟨h1, c1, k1, k2, k3, k4, k5⟩ := addRecid_step h c w
          rw [k1] at e
          simp only [Except.ok.injEq, Prod.mk.injEq] at e
          obtain ⟨rfl, rfl⟩ := e
          exact ⟨k2, k3, k4, k5⟩) (fun c hc => (s3 c hc).1) e4
        have := all2_twin (link := link) r4 (by
          intro m hm e he
          obtain ⟨c, hc, rfl⟩ := List.mem_map.1 hm
          obtain ⟨i, hi, rfl⟩ := List.mem_map.1 he
          exact ⟨(s3 c hc).2 i hi, p1 i⟩)
        rw [List.map_map] at this
        have e5 : (List.map El.bare ∘ h3.els) = h3.bare.els := funext fun c => (els_bare h3 c).symm
        rw [e5] at this
        exact this

/-! ### Everything after parsing -/

theorem all2_bare {a b : List El} (h : All2 Lk a b) : a = b.map El.bare := by
  induction h with
  | nil => rfl
  | cons r _ ih => rw [List.map_cons, ← ih, ← r.bare]

theorem enrich_link [UnicodeDB] (books : Books) (link : Linker) (h : Heap) (cs : List (List Nat)) :
    enrich books (some link) h cs = enrich books none h cs >>= fun p => eachCit (associateCit link) p.1 p.2 := by
  unfold enrich
  simp only [bind_assoc, pure_bind]

theorem heapOf_noRecid {es : List El} (h : ∀ e ∈ es, e.ty ≠ .recid) : HeapAll (fun e => e.ty ≠ .recid) (heapOf (splitCitations es)) := by
  refine heapOf_all (fun m => by simp) ?_
  refine split_all (fun e => e.ty ≠ .recid) (fun m => by simp) (fun e m h => h) _ _ (by simp) (by simp) ?_
  intro o ho
  have : o.el ∈ (number 0 es).map (·.el) := List.mem_map_of_mem ho
  rw [number_map] at this
  exact h _ this

theorem postProcess_twin [UnicodeDB] {special : List Str} {books : Books} {link : Linker} (hs : Steady link) {els : List El}
    (h : ∀ e ∈ els, e.recid = none ∧ e.ty ≠ .recid) :
    Both (All2 (Twin link)) (postProcess special books none els) (postProcess special books (some link) els) := by
  unfold postProcess
  have h0 := transform_linked (special := special) (books := books) hs h
  cases hx : transformElements special books (some link) els with
  | error e =>
    rw [hx] at h0
    cases hy : transformElements special books none els with
    | error e' =>
      rw [hy] at h0
      cases h0
      exact .error _
    | ok a => rw [hy] at h0; cases h0
  | ok es =>
    rw [hx] at h0
    cases hy : transformElements special books none els with
    | error e' => rw [hy] at h0; cases h0
    | ok a =>
      rw [hy] at h0
      cases h0 with
      | ok h0 =>
        have e0 := all2_bare h0
        have n0 := transform_noRecid (fun e he => (h e he).2) hx
        subst e0
        simp only [bind, Except.bind]
        rw [splitCitations_bare, heapOf_bare, ids_bare, enrich_bare]
        rw [show enrich books (some link) (heapOf (splitCitations es)) (List.map (fun c => List.map (fun x => x.id) c) (splitCitations es)) = _ from enrich_link _ _ _ _]
        cases he : enrich books none (heapOf (splitCitations es)) (List.map (fun c => List.map (fun x => x.id) c) (splitCitations es)) with
        | error e => exact .error e
        | ok p =>
          obtain ⟨k, cs⟩ := p
          obtain ⟨p1, w1⟩ := enrich_ok noRecid_closed (heapOf_noRecid n0) (heapOf_wf es) he
          obtain ⟨k', a1, a2, a3, -⟩ := associateAll_steady hs cs k
          simp only [bareOut, Except.map, bind, Except.bind]
          rw [a1]
          simp only
          obtain ⟨p2, w2⟩ := eachCit_ok (associateCit_ok noRecid_closed link) p1 w1 a1
          have := dedupe_twin hs w2 p2 a3
          rw [a2] at this
          exact this.bind fun a b r => .ok r

end Py
