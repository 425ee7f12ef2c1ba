import Verif.Lemmas.Unknown3
import Verif.Lemmas.Implied
import Verif.Spec.Reports

/-!
# Helper lemmas: one element with text around it, from the elements to the reference
-/

namespace Py
open Spec
open scoped List

variable [UnicodeDB]

omit [UnicodeDB] in
theorem texts_step {s : SplitSt} (h1 : .kind .misc ∉ s.types) (h2 : s.last ≠ some (.kind .misc)) : ∀ (ts : List Str) (n : Nat) (done : List Obj), (∀ t ∈ ts, ';' ∉ t) → s.postponed = none →
    splitGo { s with cur := done } (number n (ts.map textEl)) = [done ++ number n (ts.map textEl)]
  | [], n, done, _, hp => by simp [number, splitGo, insertPostponed, hp]
  | t :: ts, n, done, hs, hp => by
    have e1 : splitNeeded (textEl t) s.types s.last = none := by
      have h3 : (s.last == some (TypeKey.kind Kind.misc)) = false := by simpa using h2
      have h4 : s.types.contains (TypeKey.kind Kind.misc) = false := by simpa using h1
      have h5 : typeKey (textEl t) = .kind .misc := rfl
      have h6 : (textEl t).misc.contains ';' = false := by simpa [textEl] using hs t (by simp)
      rw [splitNeeded, h5, h3, h4, h6]
      rfl
    simp only [List.map_cons, number, splitGo]
    rw [e1]
    have e2 : splitAppend { s with cur := done } ⟨n, textEl t⟩ = { s with cur := done ++ [⟨n, textEl t⟩] } := by
      simp [splitAppend, textEl]
    simp only [e2]
    rw [texts_step h1 h2 ts (n + 1) _ (fun t ht => hs t (by simp [ht])) hp]
    simp

omit [UnicodeDB] in
/-- One element and texts are one citation. -/
theorem split_lone {e : El} {ts : List Str} (he : e.ty ≠ .misc ∧ e.ty ≠ .auth) (hs : ';' ∉ e.misc) (ht : ∀ t ∈ ts, ';' ∉ t) :
    splitCitations (e :: ts.map textEl) = [number 0 (e :: ts.map textEl)] := by
  unfold splitCitations
  simp only [number, splitGo]
  have e1 : splitNeeded e [] none = none := by
    have h6 : e.misc.contains ';' = false := by simpa using hs
    rw [splitNeeded, h6]
    rfl
  simp only [e1]
  have e2 : splitAppend { fresh := (e :: ts.map textEl).length } ⟨0, e⟩ =
      { fresh := (e :: ts.map textEl).length, cur := [⟨0, e⟩], last := some (typeKey e), types := [typeKey e] } := by
    simp [splitAppend, he.1, he.2]
  rw [e2]
  have hk : typeKey e ≠ .kind .misc := by
    unfold typeKey
    split
    · intro h; cases h
    · intro h; exact he.1 (by injection h)
  exact texts_step (s := { fresh := (e :: ts.map textEl).length, last := some (typeKey e), types := [typeKey e] }) (by simpa using fun h => hk h.symm)
    (by simpa using hk) ts 1 [⟨0, e⟩] ht rfl

omit [UnicodeDB] in
theorem number_el : ∀ (es : List El) (n : Nat), (number n es).map (·.el) = es
  | [], _ => rfl
  | e :: es, n => by simp [number, number_el es]

omit [UnicodeDB] in
/-- The last steps change nothing when there is one identifier at most. -/
theorem finish_lone {h : Heap} {i : Nat} {c : List Nat} (k0 : (h.get i).ty ∉ [.auth, .collaboration] ∧ (h.get i).recid = none)
    (k : ∀ i ∈ c, (h.get i).ty ∉ [.auth, .doi, .collaboration] ∧ (h.get i).recid = none) : dedupe h [i :: c] = .ok (h, [i :: c]) := by
  have h1 : ∀ (is : List Nat) (b : Bool), (∀ i ∈ is, (h.get i).ty ≠ .auth) → dupAuthors b h is = .ok h := by
    intro is
    induction is with
    | nil => intro b _; rfl
    | cons i is ih =>
      intro b hi
      simp only [dupAuthors]
      rw [if_neg (hi i (by simp))]
      exact ih b fun j hj => hi j (by simp [hj])
  have h2 : ∀ (is d : List Nat) (b : Bool), (∀ i ∈ is, (h.get i).ty ≠ .doi) → dupDois h b d is = d := by
    intro is
    induction is with
    | nil => intro d b _; rfl
    | cons i is ih =>
      intro d b hi
      rw [dupDois, if_neg (hi i (by simp))]
      exact ih d b fun j hj => hi j (by simp [hj])
  have h3 : ∀ (is d : List Nat) (b : List Str), (∀ i ∈ is, (h.get i).ty ≠ .collaboration) → dupCollabs h b d is = .ok d := by
    intro is
    induction is with
    | nil => intro d b _; rfl
    | cons i is ih =>
      intro d b hi
      rw [dupCollabs, if_neg (hi i (by simp))]
      exact ih d b fun j hj => hi j (by simp [hj])
  have h4 : (i :: c).find? (fun i => hasRecid (h.get i)) = none := by
    rw [List.find?_eq_none]
    intro j hj
    rcases List.mem_cons.1 hj with rfl | hj
    · simp [hasRecid, k0.2]
    · simp [hasRecid, (k j hj).2]
  have e1 := h1 (i :: c) false fun j hj he => by
    rcases List.mem_cons.1 hj with rfl | hj
    · exact k0.1 (by simp [he])
    · exact (k j hj).1 (by simp [he])
  have e2 : dupDois h false (i :: c) (i :: c) = i :: c := by
    have := fun b => h2 c (i :: c) b fun j hj he => (k j hj).1 (by simp [he])
    rw [dupDois]
    simp only [Bool.false_eq_true, if_false, this, ite_self]
  have e3 := h3 (i :: c) (i :: c) [] fun j hj he => by
    rcases List.mem_cons.1 hj with rfl | hj
    · exact k0.1 (by simp [he])
    · exact (k j hj).1 (by simp [he])
  simp [dedupe, eachCit, dupAuthorsCit, dupDoisCit, dupCollabsCit, addRecid, e1, e2, e3, h4, okBind, pure, Except.pure, bind, Except.bind]

/-- The kinds of elements that are neither texts nor dated nor compared with others. -/
def loneKinds : List Kind := [.reportnumber, .doi, .isbn, .url, .hdl, .publisher, .quoted]

omit [UnicodeDB] in
theorem lone_of {P : Kind → Prop} (h : ∀ k ∈ loneKinds, P k) {e : El} (he : e.ty ∈ loneKinds) : P e.ty := h _ he

theorem cleanEl_ty (y : Str) (e : El) : (cleanEl y e).ty = e.ty := by unfold cleanEl; split <;> rfl
theorem cleanEl_recid (y : Str) (e : El) : (cleanEl y e).recid = e.recid := by unfold cleanEl; split <;> rfl
theorem cleanEl_year (y : Str) (e : El) : (cleanEl y e).year = e.year := by unfold cleanEl; split <;> rfl

theorem yearOf_lone {e : El} {ts : List Str} (he : e.ty ∈ loneKinds) {y : Str} : YearOf (e :: ts.map textEl) y ↔ LastTextYear (e :: ts.map textEl) y := by
  have nd : ∀ x, ¬ FirstDated (e :: ts.map textEl) x := by
    rintro x ⟨a, b, h, hd, -⟩
    have hx : x ∈ e :: ts.map textEl := by rw [h]; simp
    rcases List.mem_cons.1 hx with rfl | hx
    · have := lone_of (P := fun k => k ≠ .journal ∧ k ≠ .book) (by decide) he
      rcases hd with h | ⟨h, -⟩
      · exact this.1 h
      · exact this.2 h
    · obtain ⟨t, -, rfl⟩ := List.mem_map.1 hx
      rcases hd with h | ⟨h, -⟩ <;> cases h
  constructor
  · rintro (⟨e, he, -⟩ | ⟨-, h⟩)
    · exact absurd he (nd e)
    · exact h
  · exact fun h => .inr ⟨fun e he => absurd he (nd e), h⟩

theorem undetected_lone {books : Books} {h : Heap} {c : List Nat} {k : Kind} (hx : ∃ x ∈ h.els c, x.ty = k)
    (ho : k ∉ [.doi, .isbn] → undetectedBooks books h c = .ok (h, c)) : undetectedBooks books h c = .ok (h, c) := by
  by_cases hk : k ∈ [Kind.doi, Kind.isbn]
  · unfold undetectedBooks
    rw [if_neg]
    intro hu
    obtain ⟨x, hx, rfl⟩ := hx
    have := List.all_eq_true.1 hu x hx
    simp only [List.mem_cons, List.not_mem_nil, or_false] at hk
    rcases hk with hk | hk <;> simp [hk] at this
  · exact ho hk

theorem post_lone {special : List Str} {books : Books} {els : List El} {e : El} {ts : List Str} (ht : transformElements special books none els = .ok (e :: ts.map textEl))
    (he : e.ty ∈ loneKinds) (hr : e.recid = none) (hs : ';' ∉ e.misc) (hts : ∀ t ∈ ts, ';' ∉ t)
    (hb0 : e.ty ∉ [.doi, .isbn] → (¬ ∃ y, LastTextYear (e :: ts.map textEl) y) → ∀ q ∈ books, ∀ x ∈ e :: ts.map textEl, ¬ alnums (upper q.1) <:+: alnums (upper x.misc))
    (hb1 : e.ty ∉ [.doi, .isbn] → ∀ y, y ≠ [] → LastTextYear (e :: ts.map textEl) y → ∀ q ∈ books, ∀ x ∈ e :: ts.map textEl, ¬ alnums (upper q.1) <:+: alnums (upper (cleanEl y x).misc)) :
    ((¬ ∃ y, LastTextYear (e :: ts.map textEl) y) ∧ postProcess special books none els = .ok [e :: ts.map textEl]) ∨
    ∃ y, y ≠ [] ∧ LastTextYear (e :: ts.map textEl) y ∧ postProcess special books none els = .ok [(e :: ts.map textEl).map (cleanEl y) ++ [yearEl y]] := by
  have hk := lone_of (P := fun k => k ≠ .misc ∧ k ≠ .auth ∧ k ≠ .journal ∧ k ≠ .year ∧ k ≠ .collaboration) (by decide) he
  have hsplit := split_lone ⟨hk.1, hk.2.1⟩ hs hts
  have hmem : number 0 (e :: ts.map textEl) ∈ splitCitations (e :: ts.map textEl) := by rw [hsplit]; simp
  have hels := heapOf_els (e :: ts.map textEl) hmem
  have hwf := heapOf_wf (e :: ts.map textEl) _ (List.mem_map_of_mem hmem)
  rw [hsplit, number_el] at hels
  rw [hsplit] at hwf
  generalize hc : (number 0 (e :: ts.map textEl)).map (·.id) = c at hels hwf
  generalize hh : heapOf [number 0 (e :: ts.map textEl)] = h at hels hwf
  have hty : ∀ i ∈ c, (h.get i) ∈ e :: ts.map textEl := by
    intro i hi
    rw [← hels]
    exact List.mem_map_of_mem hi
  have hcne : ∃ i0 c', c = i0 :: c' := by
    cases c with
    | nil => simp [Heap.els] at hels
    | cons i0 c' => exact ⟨i0, c', rfl⟩
  obtain ⟨i0, c', hcc⟩ := hcne
  have hi0 : h.get i0 = e := by
    rw [hcc] at hels
    simp only [Heap.els, List.map_cons, List.cons.injEq] at hels
    exact hels.1
  have hc' : ∀ i ∈ c', ∃ t ∈ ts, h.get i = textEl t := by
    intro i hi
    rw [hcc] at hels
    simp only [Heap.els, List.map_cons, List.cons.injEq] at hels
    have : h.get i ∈ ts.map textEl := by rw [← hels.2]; exact List.mem_map_of_mem hi
    obtain ⟨t, ht, e⟩ := List.mem_map.1 this
    exact ⟨t, ht, e.symm⟩
  have himp : impliedIbids none h [c] = .ok (h, [c]) := rfl
  have hno : ∀ x ∈ e :: ts.map textEl, x.ty = .journal → x.year ≠ none := by
    intro x hx hj
    rcases List.mem_cons.1 hx with rfl | hx
    · exact absurd hj hk.2.2.1
    · obtain ⟨t, -, rfl⟩ := List.mem_map.1 hx
      cases hj
  have key : ∀ {h' : Heap} {c2 : List Nat}, addYear h c = .ok (h', c2) → undetectedBooks books h' c2 = .ok (h', c2) → dedupe h' [c2] = .ok (h', [c2]) →
      postProcess special books none els = .ok [h'.els c2] := by
    intro h' c2 k1 k2 k3
    unfold postProcess
    rw [ht, okBind]
    dsimp only
    rw [hsplit, List.map_singleton, hc, hh]
    simp [enrich, himp, eachCit, okBind, k1, k2, k3, pure, Except.pure, bind, Except.bind]
  rcases citationYear_spec (e :: ts.map textEl) hno with ⟨y, hcy, hy, hyo⟩ | ⟨hcy, hn⟩
  · right
    rw [yearOf_lone he] at hyo
    refine ⟨y, hy, hyo, ?_⟩
    have hni : h.next ∉ c := fun hm => Nat.lt_irrefl _ (hwf.lt _ hm)
    have hnd : (c ++ [h.next]).Nodup := by
      rw [List.nodup_append]
      exact ⟨hwf.nodup, by simp, by intro a ha b hb; rw [List.mem_singleton.1 hb]; rintro rfl; exact hni ha⟩
    have hadd : addYear h c = .ok (removeYearLoop y (h.alloc (yearEl y)).1 (c ++ [h.next]), c ++ [h.next]) := by
      unfold addYear
      rw [hels, hcy, okBind]
      rfl
    generalize hH : removeYearLoop y (h.alloc (yearEl y)).1 (c ++ [h.next]) = H at hadd
    have g1 : ∀ i ∈ c, H.get i = cleanEl y (h.get i) := by
      intro i hi
      have : i ≠ h.next := fun e => hni (e ▸ hi)
      rw [← hH, removeYearLoop_get y _ hnd, if_pos (by simp [hi])]
      simp [Heap.alloc, this]
    have g2 : H.get h.next = yearEl y := by
      rw [← hH, removeYearLoop_get y _ hnd, if_pos (by simp)]
      have : (h.alloc (yearEl y)).1.get h.next = yearEl y := by simp [Heap.alloc]
      rw [this]
      unfold cleanEl
      rw [if_neg]
      intro hcon
      obtain ⟨u, v, e⟩ := (contains_iff _ _).1 hcon
      have : [] = u ++ y ++ v := e
      simp [hy] at this
    have hall : H.els (c ++ [h.next]) = (e :: ts.map textEl).map (cleanEl y) ++ [yearEl y] := by
      rw [← hels]
      simp only [Heap.els, List.map_append, List.map_map, List.map_cons, List.map_nil, g2]
      congr 1
      exact List.map_congr_left g1
    rw [← hall]
    refine key hadd (undetected_lone (k := e.ty) ?_ fun hde => undetected_none ?_ ?_) ?_
    · refine ⟨cleanEl y e, by rw [hall]; simp, cleanEl_ty y e⟩
    · intro x hx hxy
      rw [hall] at hx
      rcases List.mem_append.1 hx with hx | hx
      · obtain ⟨z, hz, rfl⟩ := List.mem_map.1 hx
        rw [cleanEl_ty] at hxy
        rcases List.mem_cons.1 hz with rfl | hz
        · exact absurd hxy hk.2.2.2.1
        · obtain ⟨t, -, rfl⟩ := List.mem_map.1 hz
          cases hxy
      · rw [List.mem_singleton.1 hx]; simp [yearEl]
    · intro i hi q hq
      rcases List.mem_append.1 hi with hi | hi
      · rw [g1 i hi]
        exact hb1 hde y hy hyo q hq _ (hty i hi)
      · rw [List.mem_singleton.1 hi, g2]
        intro hi
        refine hb1 hde y hy hyo q hq e (by simp) ?_
        have h0 : alnums (upper (yearEl y).misc) = [] := by
          have h0 : upper (yearEl y).misc = [] := rfl
          rw [h0]; rfl
        rw [h0] at hi
        rw [List.infix_nil.1 hi]
        exact List.nil_infix
    · rw [hcc, List.cons_append]
      refine finish_lone ?_ ?_
      · rw [g1 i0 (by rw [hcc]; simp), hi0, cleanEl_ty, cleanEl_recid]
        exact ⟨by simp [hk.2.1, hk.2.2.2.2], hr⟩
      · intro i hi
        rcases List.mem_append.1 hi with hi | hi
        · rw [g1 i (by rw [hcc]; simp [hi]), cleanEl_ty, cleanEl_recid]
          obtain ⟨t, -, ht⟩ := hc' i hi
          rw [ht]
          exact ⟨by simp [textEl], rfl⟩
        · rw [List.mem_singleton.1 hi, g2]
          exact ⟨by simp [yearEl], rfl⟩
  · left
    have hn' : ¬ ∃ y, LastTextYear (e :: ts.map textEl) y := fun ⟨y, h⟩ => hn ⟨y, (yearOf_lone he).2 h⟩
    refine ⟨hn', ?_⟩
    rw [← hels]
    have hadd : addYear h c = .ok (h, c) := by
      unfold addYear
      rw [hels, hcy, okBind]
      rfl
    refine key hadd (undetected_lone (k := e.ty) ?_ fun hde => undetected_none ?_ ?_) ?_
    · exact ⟨e, by rw [hels]; simp, rfl⟩
    · intro x hx hxy
      rw [hels] at hx
      rcases List.mem_cons.1 hx with rfl | hz
      · exact absurd hxy hk.2.2.2.1
      · obtain ⟨t, -, rfl⟩ := List.mem_map.1 hz
        cases hxy
    · intro i hi q hq
      exact hb0 hde hn' q hq _ (hty i hi)
    · rw [hcc]
      refine finish_lone ?_ ?_
      · rw [hi0]
        exact ⟨by simp [hk.2.1, hk.2.2.2.2], hr⟩
      · intro i hi
        obtain ⟨t, -, ht⟩ := hc' i hi
        rw [ht]
        exact ⟨by simp [textEl], rfl⟩

/-- The text without the year. -/
def taken (y s : Str) : Str := if contains s y then removeYear s y else s

theorem taken_spec {y s : Str} (hy : y ≠ []) : YearTaken y s (taken y s) := by
  unfold taken
  constructor
  · rintro ⟨a, b, e⟩
    rw [if_pos ((contains_iff _ _).2 ⟨a, b, e.symm⟩)]
    exact removeYear_erased s y hy
  · intro h
    rw [if_neg]
    rintro hc
    obtain ⟨a, b, e⟩ := (contains_iff _ _).1 hc
    exact h ⟨a, b, e.symm⟩

theorem cleanEl_eq (y : Str) (e : El) : cleanEl y e = { e with misc := taken y e.misc } := by
  unfold cleanEl taken
  split <;> rfl

theorem noYear_stops {t : Str} (h : ¬ LeftOver t) : NoYear t := by
  rintro ⟨a, y, b, rfl, ⟨c, x, z, rfl, -, hx, -⟩, -⟩
  apply h
  refine ⟨x, by simp, ?_⟩
  intro hm
  simp only [List.mem_cons, List.not_mem_nil, or_false] at hm
  rcases hm with rfl | rfl | rfl | rfl
  · have : isDec ' ' = false := rfl
    rw [this] at hx; cases hx
  · have : isDec '.' = false := rfl
    rw [this] at hx; cases hx
  · have : isDec ';' = false := rfl
    rw [this] at hx; cases hx
  · have : isDec ',' = false := rfl
    rw [this] at hx; cases hx

omit [UnicodeDB] in
theorem reported_stops {t : Str} (h : ¬ LeftOver t) (hs : ';' ∉ t) : reported t = [] := by
  have : ¬ HasContent t := by
    rintro ⟨c, hc, hn⟩
    refine h ⟨c, hc, fun hm => hn ?_⟩
    have : c ≠ ';' := by rintro rfl; exact hs hc
    simp only [List.mem_cons, List.not_mem_nil, or_false] at hm
    rcases hm with rfl | rfl | rfl | rfl
    · exact (by decide : ' ' ∈ py! "., [](){}")
    · exact (by decide : '.' ∈ py! "., [](){}")
    · exact absurd rfl this
    · exact (by decide : ',' ∈ py! "., [](){}")
  rw [reported, if_neg this]

/-- The texts behind an item. -/
def after (t : Str) : List Str := if LeftOver t then [t] else []

theorem firstYear_not {s y : Str} (h : FirstYear s y) : ¬ NoYear s := by
  obtain ⟨a, b, h1, h2, -⟩ := h
  exact fun hn => hn ⟨a, y, b, h1, h2⟩

theorem lastYear_two {e : El} {t y : Str} : LastTextYear (e :: (after t).map textEl) y ↔ (FirstYear t y ∨ (NoYear t ∧ FirstYear e.misc y)) := by
  unfold after
  by_cases ht : LeftOver t
  · rw [if_pos ht]
    constructor
    · rintro ⟨a, x, b, h1, h2, h3⟩
      cases a with
      | nil =>
        simp only [List.map_cons, List.map_nil, List.nil_append, List.cons.injEq] at h1
        obtain ⟨rfl, rfl⟩ := h1
        exact .inr ⟨h3 (textEl t) (by simp), h2⟩
      | cons z a =>
        cases a with
        | nil =>
          simp only [List.map_cons, List.map_nil, List.cons_append, List.nil_append, List.cons.injEq] at h1
          obtain ⟨rfl, rfl, rfl⟩ := h1
          exact .inl h2
        | cons w a => simp at h1
    · rintro (h | ⟨h, h'⟩)
      · exact ⟨[e], textEl t, [], rfl, h, by simp⟩
      · exact ⟨[], e, [textEl t], rfl, h', by simpa [textEl] using h⟩
  · rw [if_neg ht]
    constructor
    · rintro ⟨a, x, b, h1, h2, h3⟩
      cases a with
      | nil =>
        simp only [List.map_nil, List.nil_append, List.cons.injEq] at h1
        obtain ⟨rfl, rfl⟩ := h1
        exact .inr ⟨noYear_stops ht, h2⟩
      | cons z a => simp at h1
    · rintro (h | ⟨h, h'⟩)
      · exact absurd (noYear_stops ht) (firstYear_not h)
      · exact ⟨[], e, [], rfl, h', by simp⟩

theorem build_some {fmt : List FmtPart} : ∀ {es : List El}, (∀ e ∈ es, ∀ f, ∃ f', addTyped fmt f e = .ok f') → ∀ f, ∃ f', buildLoop fmt f es = .ok f'
  | [], _, f => ⟨f, rfl⟩
  | e :: es, h, f => by
    obtain ⟨f1, h1⟩ := h e (by simp) (addMisc f e.misc)
    obtain ⟨f2, h2⟩ := build_some (es := es) (fun e he => h e (by simp [he])) f1
    exact ⟨f2, by rw [buildLoop, h1, okBind, h2]⟩

theorem references_lone {undesirable : Str → Str} {lib : Lib} {kbs : Kbs} {fmt : List FmtPart} {n : Nat} {raw s t : Str} {els : List El} {e : El} {c : Counts}
    {count : List (Str × Nat)} {item : List (Str × Str)} (hrep : washRepair undesirable raw = raw)
    (hparse : ∀ cs, postProcess kbs.special kbs.books none els = .ok cs → parseReferenceLine lib kbs none raw [] = .ok (cs, bracketed n, c, count))
    (ht : transformElements kbs.special kbs.books none els = .ok (e :: (after t).map textEl)) (he : e.ty ∈ loneKinds) (hr : e.recid = none)
    (hm : e.misc = s) (hs : ';' ∉ s) (hs' : ';' ∉ t)
    (hb : e.ty ∉ [.doi, .isbn] → ∀ q ∈ kbs.books, ∀ u v y, YearOfTwo s t u v y → ¬ alnums (upper q.1) <:+: alnums (upper u) ∧ ¬ alnums (upper q.1) <:+: alnums (upper v))
    (hem : ∀ m, emits { e with misc := m } (jrefOf fmt { e with misc := m }) = item.map fun p => (p.1, some p.2)) (hne : ∀ p ∈ item, p.2 ≠ [])
    (hadd : ∀ m f, ∃ f', addTyped fmt f { e with misc := m } = .ok f') :
    ∃ r u v y, parseReferences undesirable lib kbs fmt none [raw] = .ok ([r], [0, c.reportnum, c.title, c.auth, c.url, c.doi, c.misc]) ∧ YearOfTwo s t u v y ∧
      ∀ k, vals r k = under k (loneRecord n raw u item v y) := by
  subst hm
  have haft : ∀ x ∈ after t, x = t ∧ LeftOver t := by
    intro x hx
    unfold after at hx
    split at hx
    · next h => exact ⟨List.mem_singleton.1 hx, h⟩
    · cases hx
  have e2 : ∀ u, elEmits fmt (textEl u) = miscEmit u := fun u => by rw [elEmits]; exact List.append_nil _
  have e3 : ∀ m, elEmits fmt { e with misc := m } = ((reported m) ++ item).map fun p => (p.1, some p.2) := by
    intro m
    rw [elEmits, hem, List.map_append, ← miscEmit_eq]
  have htxt : ∀ u f, ∃ f', addTyped fmt f (textEl u) = .ok f' := fun u f => ⟨_, rfl⟩
  have hy0 : ∀ y f, ∃ f', addTyped fmt f (yearEl y) = .ok f' := fun u f => ⟨_, rfl⟩
  have hty : ∀ {y x : Str}, FirstYear x y → ¬ LeftOver t → taken y t = t := by
    rintro y x ⟨a, b, -, ⟨⟨c, z, w, rfl, -, hz, -⟩, -⟩, -⟩ h
    unfold taken
    rw [if_neg]
    intro hc
    obtain ⟨p, q, e⟩ := (contains_iff _ _).1 hc
    refine h ⟨z, by rw [e]; simp, ?_⟩
    intro hm
    simp only [List.mem_cons, List.not_mem_nil, or_false] at hm
    rcases hm with rfl | rfl | rfl | rfl
    · have : isDec ' ' = false := rfl
      rw [this] at hz; cases hz
    · have : isDec '.' = false := rfl
      rw [this] at hz; cases hz
    · have : isDec ';' = false := rfl
      rw [this] at hz; cases hz
    · have : isDec ',' = false := rfl
      rw [this] at hz; cases hz
  have haf : ∀ g : Str → Str, (¬ LeftOver t → g t = t) → ((after t).map fun x => textEl (g x)).flatMap (elEmits fmt) = (reported (g t)).map fun p => (p.1, some p.2) := by
    intro g hg
    unfold after
    split
    · rw [List.map_singleton, List.flatMap_singleton, e2, miscEmit_eq]
    · next h => rw [hg h, reported_stops h hs']; rfl
  have htne : ∀ u v, ∀ p ∈ reported u ++ item ++ reported v, p.2 ≠ [] := by
    intro u v p hp
    simp only [List.mem_append] at hp
    rcases hp with (hp | hp) | hp
    · exact reported_ne _ p hp
    · exact hne p hp
    · exact reported_ne _ p hp
  have two0 : (¬ ∃ y, LastTextYear (e :: (after t).map textEl) y) → YearOfTwo e.misc t e.misc t none := by
    intro h1
    have hn1 : NoYear t := by
      rcases firstYear_or t with ⟨y, h⟩ | h
      · exact absurd ⟨y, lastYear_two.2 (.inl h)⟩ h1
      · exact h
    have hn2 : NoYear e.misc := by
      rcases firstYear_or e.misc with ⟨y, h⟩ | h
      · exact absurd ⟨y, lastYear_two.2 (.inr ⟨hn1, h⟩)⟩ h1
      · exact h
    exact ⟨hn2, hn1, rfl, rfl⟩
  have two1 : ∀ y, y ≠ [] → LastTextYear (e :: (after t).map textEl) y → YearOfTwo e.misc t (taken y e.misc) (taken y t) (some y) :=
    fun y hy h => ⟨lastYear_two.1 h, taken_spec hy, taken_spec hy⟩
  have b0 : e.ty ∉ [.doi, .isbn] → (¬ ∃ y, LastTextYear (e :: (after t).map textEl) y) → ∀ q ∈ kbs.books, ∀ x ∈ e :: (after t).map textEl, ¬ alnums (upper q.1) <:+: alnums (upper x.misc) := by
    intro hde h1 q hq x hx
    have := hb hde q hq _ _ _ (two0 h1)
    rcases List.mem_cons.1 hx with rfl | hx
    · exact this.1
    · obtain ⟨u, hu, rfl⟩ := List.mem_map.1 hx
      rw [(haft u hu).1]
      exact this.2
  have b1 : e.ty ∉ [.doi, .isbn] → ∀ y, y ≠ [] → LastTextYear (e :: (after t).map textEl) y → ∀ q ∈ kbs.books, ∀ x ∈ e :: (after t).map textEl,
      ¬ alnums (upper q.1) <:+: alnums (upper (cleanEl y x).misc) := by
    intro hde y hy h1 q hq x hx
    have := hb hde q hq _ _ _ (two1 y hy h1)
    rw [cleanEl_eq]
    rcases List.mem_cons.1 hx with rfl | hx
    · exact this.1
    · obtain ⟨u, hu, rfl⟩ := List.mem_map.1 hx
      rw [(haft u hu).1]
      exact this.2
  rcases post_lone (books := kbs.books) ht he hr hs (fun x hx => by rw [(haft x hx).1]; exact hs') b0 b1 with ⟨h1, h2⟩ | ⟨y, hy, h1, h2⟩
  · obtain ⟨r, hr⟩ : ∃ r, buildReferenceFields (e :: (after t).map textEl) (bracketed n) raw fmt = .ok r := by
      refine build_some ?_ _
      intro x hx
      rcases List.mem_cons.1 hx with rfl | hx
      · exact hadd x.misc
      · obtain ⟨u, -, rfl⟩ := List.mem_map.1 hx
        exact htxt u
    refine ⟨r, e.misc, t, none, references_of hrep (hparse _ h2) hr, two0 h1, ?_⟩
    intro k
    unfold loneRecord
    rw [build_table (table := reported e.misc ++ item ++ reported t) hr]
    · simp
    · have h0 : ((after t).map textEl).flatMap (elEmits fmt) = (reported t).map fun p => (p.1, some p.2) := haf id fun _ => rfl
      rw [List.flatMap_cons, e3 e.misc, h0, List.map_append (l₂ := reported t)]
    · exact htne _ _
  · have hmap : (e :: (after t).map textEl).map (cleanEl y) ++ [yearEl y] = { e with misc := taken y e.misc } :: ((after t).map fun x => textEl (taken y x)) ++ [yearEl y] := by
      rw [List.map_cons, List.map_map, cleanEl_eq]
      congr 2
      refine List.map_congr_left fun x _ => ?_
      rw [Function.comp, cleanEl_eq]
      rfl
    rw [hmap] at h2
    obtain ⟨r, hr⟩ : ∃ r, buildReferenceFields ({ e with misc := taken y e.misc } :: ((after t).map fun x => textEl (taken y x)) ++ [yearEl y]) (bracketed n) raw fmt = .ok r := by
      refine build_some ?_ _
      intro x hx
      simp only [List.cons_append, List.mem_cons, List.mem_append, List.not_mem_nil, or_false] at hx
      rcases hx with rfl | hx | rfl
      · exact hadd _
      · obtain ⟨u, -, rfl⟩ := List.mem_map.1 hx
        exact htxt _
      · exact hy0 y
    refine ⟨r, taken y e.misc, taken y t, some y, references_of hrep (hparse _ h2) hr, two1 y hy h1, ?_⟩
    intro k
    unfold loneRecord
    rw [build_table (table := reported (taken y e.misc) ++ item ++ reported (taken y t) ++ [(py! "year", y)]) hr]
    · simp
    · have e4 : elEmits fmt (yearEl y) = [(py! "year", some y)] := rfl
      rw [List.cons_append, List.flatMap_cons, List.flatMap_append, e3 _, haf (taken y), List.flatMap_singleton, e4, List.map_append (l₂ := [(py! "year", y)]),
        List.map_append (l₂ := reported (taken y t)), List.append_assoc]
      · rfl
      · rcases lastYear_two.1 h1 with h | ⟨-, h⟩
        · exact hty h
        · exact hty h
    · intro p hp
      rcases List.mem_append.1 hp with hp | hp
      · exact htne _ _ p hp
      · rw [List.mem_singleton.1 hp]; exact hy

end Py
