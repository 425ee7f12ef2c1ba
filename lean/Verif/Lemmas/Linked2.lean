import Verif.Lemmas.Linked

/-!
# Helper lemmas: the steps before linking do not look at record ids (C122)
-/

open Spec
open scoped List

namespace Py

/-- The element without its record id. -/
def El.bare (e : El) : El := { e with recid := none }

/-- The object without its record id. -/
def Obj.bare (o : Obj) : Obj := ⟨o.id, o.el.bare⟩

/-- The heap without its record ids. -/
def Heap.bare (h : Heap) : Heap := ⟨fun i => (h.get i).bare, h.next⟩

theorem Lk.bare {e e' : El} (h : Lk e e') : e = e'.bare := by
  obtain ⟨h1, -, r, rfl⟩ := h
  cases e
  simp only at h1
  simp [El.bare, h1]

/-! ### Splitting -/

/-- The state without record ids. -/
def SplitSt.bare (s : SplitSt) : SplitSt := { s with cur := s.cur.map Obj.bare, postponed := s.postponed.map Obj.bare }

theorem popLast_bare (l : List Obj) : popLast Obj.isAuth (l.map Obj.bare) = (popLast Obj.isAuth l).map fun p => (p.1.bare, p.2.map Obj.bare) := by
  induction l with
  | nil => rfl
  | cons a l ih =>
    simp only [List.map_cons, popLast, ih]
    cases h : popLast Obj.isAuth l with
    | some p => rfl
    | none =>
      simp only [Option.map_none]
      have : a.bare.isAuth = a.isAuth := rfl
      rw [this]
      split <;> rfl

theorem postpone_bare (l : List Obj) (n : Nat) :
    postponeLastAuth (l.map Obj.bare) n = ((postponeLastAuth l n).1.map Obj.bare, (postponeLastAuth l n).2.map Obj.bare) := by
  unfold postponeLastAuth
  rw [popLast_bare]
  split
  · rfl
  · cases popLast Obj.isAuth l with
    | none => rfl
    | some p =>
      simp only [Option.map_some]
      split <;> rfl

theorem insert_bare (s : SplitSt) : insertPostponed s.bare = ((insertPostponed s).1.map Obj.bare, (insertPostponed s).2) := by
  unfold insertPostponed SplitSt.bare
  cases s.postponed with
  | none => rfl
  | some a =>
    simp only [Option.map_some]
    split <;> rfl

theorem splitAppend_bare (s : SplitSt) (o : Obj) : splitAppend s.bare o.bare = (splitAppend s o).bare := by
  have h1 : o.bare.el.ty = o.el.ty := rfl
  have h2 : typeKey o.bare.el = typeKey o.el := rfl
  unfold splitAppend
  simp only [h1, h2]
  split
  · simp [SplitSt.bare]
  · split <;> simp [SplitSt.bare]

theorem splitYield_bare (s : SplitSt) (r : SplitReason) : splitYield s.bare r = ((splitYield s r).1.map Obj.bare, (splitYield s r).2.bare) := by
  unfold splitYield
  simp only [insert_bare, postpone_bare]
  rfl

theorem splitGo_bare : ∀ (os : List Obj) (s : SplitSt), splitGo s.bare (os.map Obj.bare) = (splitGo s os).map (List.map Obj.bare)
  | [], s => by simp [splitGo, insert_bare]
  | o :: os, s => by
    have h1 : splitNeeded o.bare.el s.bare.types s.bare.last = splitNeeded o.el s.types s.last := rfl
    simp only [List.map_cons, splitGo]
    rw [h1]
    split
    · rw [splitAppend_bare, splitGo_bare os]
    · simp only [splitYield_bare, splitAppend_bare, splitGo_bare os, List.map_cons]
    · have h2 : o.bare.el.misc = o.el.misc := rfl
      rw [h2]
      cases hx : split1 ';' o.el.misc with
      | none => simp only [splitAppend_bare, splitGo_bare os]
      | some p =>
        obtain ⟨m, rest⟩ := p
        simp only
        have h3 : ({ s.bare with cur := s.bare.cur ++ [⟨s.bare.fresh, { ty := .misc, misc := m }⟩], fresh := s.bare.fresh + 1 } : SplitSt)
            = SplitSt.bare { s with cur := s.cur ++ [⟨s.fresh, { ty := .misc, misc := m }⟩], fresh := s.fresh + 1 } := by
          simp [SplitSt.bare, Obj.bare, El.bare]
        have h4 : ({ o.bare with el := { o.bare.el with misc := rest } } : Obj) = Obj.bare { o with el := { o.el with misc := rest } } := rfl
        rw [h3, h4, splitYield_bare]
        simp only [splitAppend_bare, splitGo_bare os, List.map_cons]

theorem number_bare (es : List El) : ∀ n, number n (es.map El.bare) = (number n es).map Obj.bare := by
  induction es with
  | nil => intro n; rfl
  | cons e es ih => intro n; simp only [List.map_cons, number, ih]; rfl

theorem splitCitations_bare (es : List El) : splitCitations (es.map El.bare) = (splitCitations es).map (List.map Obj.bare) := by
  unfold splitCitations
  rw [number_bare, List.length_map]
  exact splitGo_bare _ { fresh := es.length }

theorem ids_bare (cs : List (List Obj)) : (cs.map (List.map Obj.bare)).map (fun c => c.map (·.id)) = cs.map fun c => c.map (·.id) := by
  rw [List.map_map]
  refine List.map_congr_left fun c _ => ?_
  simp only [Function.comp, List.map_map]
  rfl

theorem heapOf_bare (cs : List (List Obj)) : heapOf (cs.map (List.map Obj.bare)) = (heapOf cs).bare := by
  have e1 : (cs.map (List.map Obj.bare)).flatten = cs.flatten.map Obj.bare := by
    rw [List.map_flatten]
  unfold heapOf Heap.bare
  rw [e1]
  simp only [List.map_map, Heap.mk.injEq]
  refine ⟨?_, rfl⟩
  funext i
  rw [List.find?_map]
  have : ((fun x : Obj => x.id == i) ∘ Obj.bare) = fun x => x.id == i := rfl
  rw [this]
  cases cs.flatten.find? fun x => x.id == i <;> rfl

/-! ### The steps on the heap -/

theorem set_bare (h : Heap) (i : Nat) (e : El) : (h.set i e).bare = h.bare.set i e.bare := by
  unfold Heap.bare Heap.set
  simp only [Heap.mk.injEq, and_true]
  funext j
  split <;> rfl

theorem alloc_bare (h : Heap) (e : El) : h.bare.alloc e.bare = ((h.alloc e).1.bare, (h.alloc e).2) := by
  unfold Heap.bare Heap.alloc
  simp only [Prod.mk.injEq, Heap.mk.injEq, and_true]
  funext j
  split <;> rfl

theorem els_bare (h : Heap) (c : List Nat) : h.bare.els c = (h.els c).map El.bare := by
  simp [Heap.els, Heap.bare]

/-- A result without its record ids. -/
def bareOut {α : Type} (x : Py (Heap × α)) : Py (Heap × α) := x.map fun p => (p.1.bare, p.2)

theorem ibidLoop_bare [UnicodeDB] (j : Nat) : ∀ (c : List Nat) (h : Heap) (acc : List Nat), ibidLoop j h.bare acc c = bareOut (ibidLoop j h acc c)
  | [], h, acc => rfl
  | i :: c, h, acc => by
    have g : ∀ k, h.bare.get k = (h.get k).bare := fun _ => rfl
    have g1 : (h.get i).bare.ty = (h.get i).ty := rfl
    have g2 : (h.get i).bare.misc = (h.get i).misc := rfl
    have g3 : (h.get j).bare.volume = (h.get j).volume := rfl
    have g4 : (h.get j).bare.title = (h.get j).title := rfl
    have g5 : ∀ n, ibidVolume n (h.get j).bare = ibidVolume n (h.get j) := fun _ => rfl
    simp only [ibidLoop, g, g1, g2, g4, g5]
    split
    · cases findNumeration (h.get i).misc with
      | error x => rfl
      | ok n =>
        cases n with
        | none => exact ibidLoop_bare j c h acc
        | some n =>
          simp only [bind, Except.bind]
          cases ibidVolume n (h.get j) with
          | error x => rfl
          | ok v =>
            simp only
            cases getKey (h.get j).title with
            | error x => rfl
            | ok t =>
              simp only
              cases ibidPage n with
              | error x => rfl
              | ok p =>
                simp only
                generalize hk : ({ ty := .journal, misc := [], title := some t, volume := some v, year := some n.year, page := some (some p),
                                   pageEnd := some n.pageEnd, isIbid := some true, extraIbids := some [] } : El) = k
                have e1 : k = k.bare := by rw [← hk]; rfl
                have e2 := alloc_bare h k
                rw [← e1] at e2
                rw [e2]
                simp only
                have e3 := ibidLoop_bare j c ((h.alloc k).1.set i { h.get i with misc := (h.get i).misc.drop n.len }) (acc ++ [(h.alloc k).2])
                rw [set_bare] at e3
                exact e3
    · exact ibidLoop_bare j c h acc

theorem bareOut_bind {α β : Type} {x : Py (Heap × α)} {f g : Heap × α → Py (Heap × β)} (h : ∀ k a, f (k.bare, a) = bareOut (g (k, a))) :
    bareOut x >>= f = bareOut (x >>= g) := by
  cases x with
  | error e => rfl
  | ok p => exact h p.1 p.2

theorem lastJournal_bare (h : Heap) (c : List Nat) : lastJournal h.bare c = lastJournal h c := rfl

theorem ibidStep_bare [UnicodeDB] (cur : Option Nat) (h : Heap) (c : List Nat) : ibidStep cur h.bare c = bareOut (ibidStep cur h c) := by
  unfold ibidStep
  cases cur with
  | none => rfl
  | some j =>
    have e1 : (c.any fun i => (h.bare.get i).ty = .journal) = c.any fun i => (h.get i).ty = .journal := rfl
    simp only [e1]
    split
    · rfl
    · rw [ibidLoop_bare]
      exact bareOut_bind fun _ _ => rfl

theorem impliedIbids_bare [UnicodeDB] : ∀ (cs : List (List Nat)) (cur : Option Nat) (h : Heap),
    impliedIbids cur h.bare cs = bareOut (impliedIbids cur h cs)
  | [], cur, h => rfl
  | c :: cs, cur, h => by
    simp only [impliedIbids]
    rw [ibidStep_bare]
    refine bareOut_bind fun k a => ?_
    simp only [lastJournal_bare]
    rw [impliedIbids_bare cs]
    exact bareOut_bind fun _ _ => rfl

theorem eachCit_bare {f : Heap → List Nat → Py (Heap × List Nat)} (hf : ∀ h c, f h.bare c = bareOut (f h c)) :
    ∀ (cs : List (List Nat)) (h : Heap), eachCit f h.bare cs = bareOut (eachCit f h cs)
  | [], h => rfl
  | c :: cs, h => by
    simp only [eachCit]
    rw [hf]
    refine bareOut_bind fun k a => ?_
    simp only
    rw [eachCit_bare hf cs]
    exact bareOut_bind fun _ _ => rfl

theorem find_bare (p : El → Bool) (hp : ∀ e, p e.bare = p e) (es : List El) : (es.map El.bare).find? p = (es.find? p).map El.bare := by
  rw [List.find?_map]
  have : p ∘ El.bare = p := funext hp
  rw [this]

theorem firstDated_bare (es : List El) : firstDated (es.map El.bare) = firstDated es := by
  unfold firstDated
  rw [find_bare _ fun e => rfl]
  cases es.find? fun e => e.ty = .journal || (e.ty = .book && e.year.isSome) <;> rfl

theorem lastMiscYear_bare [UnicodeDB] (es : List El) : lastMiscYear (es.map El.bare) = lastMiscYear es := by
  unfold lastMiscYear
  rw [List.foldl_map]
  rfl

theorem citationYear_bare [UnicodeDB] (es : List El) : citationYear (es.map El.bare) = citationYear es := by
  unfold citationYear
  rw [firstDated_bare, lastMiscYear_bare]

theorem removeYearLoop_bare [UnicodeDB] (y : Str) : ∀ (c : List Nat) (h : Heap), removeYearLoop y h.bare c = (removeYearLoop y h c).bare
  | [], h => rfl
  | i :: c, h => by
    simp only [removeYearLoop]
    have g1 : (h.bare.get i).misc = (h.get i).misc := rfl
    rw [g1, ← removeYearLoop_bare y c]
    split
    · rw [set_bare]; rfl
    · rfl

theorem addYear_bare [UnicodeDB] (h : Heap) (c : List Nat) : addYear h.bare c = bareOut (addYear h c) := by
  unfold addYear
  rw [els_bare, citationYear_bare]
  cases citationYear (h.els c) with
  | error e => rfl
  | ok o =>
    cases o with
    | none => rfl
    | some y =>
      simp only [bind, Except.bind]
      have e2 := alloc_bare h { ty := .year, misc := [], year := some (some y) }
      have e1 : ({ ty := .year, misc := [], year := some (some y) } : El).bare = { ty := .year, misc := [], year := some (some y) } := rfl
      rw [e1] at e2
      rw [e2]
      simp only [removeYearLoop_bare]
      rfl

theorem possibleAuthors_bare (es : List El) : possibleAuthors (es.map El.bare) = possibleAuthors es := by
  unfold possibleAuthors
  rw [find_bare _ fun e => rfl]
  cases es.find? (·.ty = .auth) <;> rfl

theorem bookInMisc_bare [UnicodeDB] (books : Books) (es : List El) (year : Val) (misc : Str) : ∀ titles,
    bookInMisc books (es.map El.bare) year misc titles = bookInMisc books es year misc titles
  | [] => rfl
  | t :: ts => by
    simp only [bookInMisc]
    rw [bookInMisc_bare books es year misc ts, possibleAuthors_bare]

theorem bookInMisc_new [UnicodeDB] {books : Books} {es : List El} {year : Val} {misc : Str} : ∀ {titles : List Str} {b : El} {m : Str},
    bookInMisc books es year misc titles = .ok (some (b, m)) → b = b.bare
  | [], b, m, h => by cases h
  | t :: ts, b, m, h => by
    simp only [bookInMisc] at h
    split at h
    · exact bookInMisc_new h
    · obtain ⟨_, _, h⟩ := bind_ok h
      obtain ⟨_, _, h⟩ := bind_ok h
      obtain ⟨_, _, h⟩ := bind_ok h
      split at h
      · obtain ⟨_, _, h⟩ := bind_ok h
        obtain ⟨_, _, h⟩ := bind_ok h
        obtain ⟨_, _, h⟩ := bind_ok h
        have := pure_ok h
        simp only [Option.some.injEq, Prod.mk.injEq] at this
        rw [← this.1]; rfl
      · exact bookInMisc_new h

theorem bookSearch_bare [UnicodeDB] (books : Books) (year : Val) (h : Heap) (c : List Nat) : ∀ is,
    bookSearch books year h.bare c is = bareOut (bookSearch books year h c is)
  | [] => rfl
  | i :: is => by
    simp only [bookSearch]
    have g1 : (h.bare.get i).misc = (h.get i).misc := rfl
    rw [els_bare, g1, bookInMisc_bare]
    cases hb : bookInMisc books (h.els c) year (h.get i).misc (books.map (·.1)) with
    | error e => rfl
    | ok o =>
      cases o with
      | none => exact bookSearch_bare books year h c is
      | some p =>
        obtain ⟨b, m⟩ := p
        have e1 := bookInMisc_new hb
        have e2 := alloc_bare h b
        rw [← e1] at e2
        simp only [bind, Except.bind]
        rw [e2]
        have e3 : ({ h.bare.get i with misc := m } : El) = El.bare { h.get i with misc := m } := rfl
        simp only [e3, ← set_bare]
        rfl

theorem isUnknown_bare (es : List El) : isUnknown (es.map El.bare) = isUnknown es := by
  unfold isUnknown
  rw [List.all_map]
  rfl

theorem yearFrom_bare (es : List El) : yearFromCitation (es.map El.bare) = yearFromCitation es := by
  unfold yearFromCitation
  rw [find_bare _ fun e => rfl]
  cases es.find? (·.ty = .year) <;> rfl

theorem undetected_bare [UnicodeDB] (books : Books) (h : Heap) (c : List Nat) : undetectedBooks books h.bare c = bareOut (undetectedBooks books h c) := by
  unfold undetectedBooks
  rw [els_bare, isUnknown_bare, yearFrom_bare]
  split
  · cases yearFromCitation (h.els c) with
    | error e => rfl
    | ok y => exact bookSearch_bare books y h c c
  · rfl

theorem enrich_bare [UnicodeDB] (books : Books) (h : Heap) (cs : List (List Nat)) : enrich books none h.bare cs = bareOut (enrich books none h cs) := by
  unfold enrich
  rw [impliedIbids_bare]
  refine bareOut_bind fun k a => ?_
  simp only
  rw [eachCit_bare addYear_bare]
  refine bareOut_bind fun k a => ?_
  simp only
  rw [eachCit_bare (undetected_bare books)]
  exact bareOut_bind fun _ _ => rfl

end Py
