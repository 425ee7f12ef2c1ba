import Verif.Lemmas.DoiList

/-!
# Helper lemmas: a line with several DOIs, from the elements to the references
-/

namespace Py
open Spec
open scoped List

variable [UnicodeDB]

/-- The elements of the line. -/
def doiEls (toks : List DoiItem) (ts : List Str) : List El := toks.map (fun t => doiEl t.pre t.doi) ++ ts.map textEl

theorem transform_dois {special : List Str} {books : Books} {toks : List DoiItem} {ts : List Str} (hs : ∀ t ∈ toks, finditer Rx.re_hdl t.pre = [])
    (ht : ∀ t ∈ ts, finditer Rx.re_hdl t = []) : transformElements special books none (doiEls toks ts) = .ok (doiEls toks ts) := by
  have cases : ∀ e ∈ doiEls toks ts, (∃ t ∈ toks, e = doiEl t.pre t.doi) ∨ ∃ t ∈ ts, e = textEl t := by
    intro e he
    rcases List.mem_append.1 he with he | he
    · obtain ⟨t, h, rfl⟩ := List.mem_map.1 he; exact .inl ⟨t, h, rfl⟩
    · obtain ⟨t, h, rfl⟩ := List.mem_map.1 he; exact .inr ⟨t, h, rfl⟩
  have step : ∀ (f : El → Py El), (∀ s r, f (doiEl s r) = .ok (doiEl s r)) → (∀ t, f (textEl t) = .ok (textEl t)) →
      eachEl f (doiEls toks ts) = .ok (doiEls toks ts) := by
    intro f h1 h2
    refine eachEl_same fun e he => ?_
    rcases cases e he with ⟨t, -, rfl⟩ | ⟨t, -, rfl⟩
    · exact h1 _ _
    · exact h2 _
  unfold transformElements
  rw [step splitVolume1 (fun _ _ => rfl) (fun _ => rfl), okBind, step formatVolume1 (fun _ _ => rfl) (fun _ => rfl), okBind,
    step (specialJournal1 special) (fun _ _ => rfl) (fun _ => rfl), okBind,
    step formatReportNumber1 (fun _ _ => rfl) (fun _ => rfl), okBind, step formatAuthorEd1 (fun _ _ => rfl) (fun _ => rfl), okBind]
  have hb : lookForBooks books (doiEls toks ts) = .ok (doiEls toks ts) := by
    unfold lookForBooks
    have : (doiEls toks ts).find? (·.ty = .quoted) = none := by
      rw [List.find?_eq_none]
      intro e he
      rcases cases e he with ⟨t, -, rfl⟩ | ⟨t, -, rfl⟩
      · simp [doiEl]
      · simp [textEl]
    rw [this]
  rw [hb, okBind, step formatHepEl (fun _ _ => rfl) (fun _ => rfl), okBind, step removeB1 (fun _ _ => rfl) (fun _ => rfl), okBind,
    step mangleVolume1 (fun _ _ => rfl) (fun _ => rfl), okBind, step arxivUrl1 (fun _ _ => rfl) (fun _ => rfl), okBind]
  have hg : lookForHdl (doiEls toks ts) = doiEls toks ts := by
    rw [lookForHdl, hdlGo_none]
    · rfl
    · intro e he
      rcases cases e he with ⟨t, h, rfl⟩ | ⟨t, h, rfl⟩
      · exact hs t h
      · exact ht t h
  simp only [hg]
  rw [step hdlUrl1 (fun _ _ => rfl) (fun _ => rfl), okBind]
  rfl

/-- The citations of the line. -/
def doiCits : List DoiItem → Str → List (List El)
  | [], _ => []
  | [t], tail => [doiEl t.pre t.doi :: (after tail).map textEl]
  | t :: u :: ts, tail => (doiEl t.pre t.doi :: (after []).map textEl) :: doiCits (u :: ts) tail

omit [UnicodeDB] in
theorem split_next {tail : Str} (ht : ';' ∉ tail) : ∀ (toks : List DoiItem) (t : DoiItem) (n k f : Nat) (p : Option SplitReason), (∀ t ∈ toks, ';' ∉ t.pre) →
    (splitGo { cur := [⟨k, doiEl t.pre t.doi⟩], types := [.kind .doi], last := some (.kind .doi), prev := p, fresh := f }
      (number n (doiEls toks (after tail)))).map (fun c => c.map (·.el)) = doiCits (t :: toks) tail
  | [], t, n, k, f, p, _ => by
    have hts : ∀ x ∈ after tail, ';' ∉ x := by
      intro x hx
      unfold after at hx
      split at hx
      · rw [List.mem_singleton.1 hx]; exact ht
      · cases hx
    have := texts_step (s := { types := [.kind .doi], last := some (.kind .doi), prev := p, fresh := f }) (by simp) (by simp) (after tail) n [⟨k, doiEl t.pre t.doi⟩] hts rfl
    rw [doiEls, List.map_nil, List.nil_append, this, List.map_singleton, List.map_append, number_el]
    rfl
  | u :: toks, t, n, k, f, p, hp => by
    have e0 : doiEls (u :: toks) (after tail) = doiEl u.pre u.doi :: doiEls toks (after tail) := rfl
    rw [e0, number, splitGo]
    have hu : ';' ∉ u.pre := hp u (by simp)
    have e1 : splitNeeded (doiEl u.pre u.doi) [.kind .doi] (some (.kind .doi)) = some .repeated := by
      have h6 : (doiEl u.pre u.doi).misc.contains ';' = false := by simpa [doiEl] using hu
      rw [splitNeeded, h6]
      rfl
    simp only [e1]
    have e2 := split_next ht toks u (n + 1) n f (some .repeated) fun t h => hp t (by simp [h])
    rw [doiCits]
    have e3 : (splitYield { cur := [⟨k, doiEl t.pre t.doi⟩], types := [.kind .doi], last := some (.kind .doi), prev := p, fresh := f } .repeated) =
        ([⟨k, doiEl t.pre t.doi⟩], { prev := some .repeated, fresh := f }) := rfl
    rw [e3, List.map_cons]
    congr 1

omit [UnicodeDB] in
theorem split_dois {tail : Str} {toks : List DoiItem} (hne : toks ≠ []) (ht : ';' ∉ tail) (hp : ∀ t ∈ toks, ';' ∉ t.pre) :
    (splitCitations (doiEls toks (after tail))).map (fun c => c.map (·.el)) = doiCits toks tail := by
  cases toks with
  | nil => exact absurd rfl hne
  | cons t toks =>
    have e0 : doiEls (t :: toks) (after tail) = doiEl t.pre t.doi :: doiEls toks (after tail) := rfl
    unfold splitCitations
    rw [e0, number, splitGo]
    have e1 : splitNeeded (doiEl t.pre t.doi) [] none = none := by
      have h6 : (doiEl t.pre t.doi).misc.contains ';' = false := by simpa [doiEl] using hp t (by simp)
      rw [splitNeeded, h6]
      rfl
    simp only [e1]
    exact split_next ht toks t 1 0 _ none fun t h => hp t (by simp [h])

/-! ### After splitting -/

theorem eachCit_same {f : Heap → List Nat → Py (Heap × List Nat)} {h : Heap} : ∀ {cs : List (List Nat)}, (∀ c ∈ cs, f h c = .ok (h, c)) → eachCit f h cs = .ok (h, cs)
  | [], _ => rfl
  | c :: cs, hc => by
    rw [eachCit, hc c (by simp), okBind]
    dsimp only
    rw [eachCit_same fun c h => hc c (by simp [h]), okBind]
    rfl

/-- A citation with one DOI, without a year. -/
def Settled (es : List El) : Prop :=
  ∃ e ts, es = e :: ts ∧ e.ty = .doi ∧ e.recid = none ∧ NoYear e.misc ∧ ∀ x ∈ ts, x.ty = .misc ∧ x.recid = none ∧ NoYear x.misc

theorem settled_year {es : List El} (h : Settled es) : citationYear es = .ok none := by
  obtain ⟨e, ts, rfl, h1, h2, h3, h4⟩ := h
  have ty : ∀ x ∈ e :: ts, x.ty = .doi ∨ x.ty = .misc := by
    intro x hx
    rcases List.mem_cons.1 hx with rfl | hx
    · exact .inl h1
    · exact .inr (h4 x hx).1
  rcases citationYear_spec (e :: ts) (fun x hx hj => by rcases ty x hx with h | h <;> rw [h] at hj <;> cases hj) with ⟨y, -, -, hy⟩ | ⟨h, -⟩
  · exfalso
    rcases hy with ⟨x, ⟨a, b, e1, hd, -⟩, -⟩ | ⟨-, a, x, b, e1, hy, -⟩
    · rcases ty x (by rw [e1]; simp) with h | h <;> rcases hd with hd | ⟨hd, -⟩ <;> rw [h] at hd <;> cases hd
    · have hx : x ∈ e :: ts := by rw [e1]; simp
      refine firstYear_not hy ?_
      rcases List.mem_cons.1 hx with rfl | hx
      · exact h3
      · exact (h4 x hx).2.2
  · exact h

theorem dedupe_settled {h : Heap} {cs : List (List Nat)} (hc : ∀ c ∈ cs, ∃ i is, c = i :: is ∧ ((h.get i).ty = .doi ∧ (h.get i).recid = none) ∧
    ∀ j ∈ is, (h.get j).ty = .misc ∧ (h.get j).recid = none) : dedupe h cs = .ok (h, cs) := by
  have h1 : ∀ (is : List Nat) (b : Bool), (∀ i ∈ is, (h.get i).ty ≠ .auth) → dupAuthors b h is = .ok h := by
    intro is
    induction is with
    | nil => intro b _; rfl
    | cons i is ih =>
      intro b hi
      simp only [dupAuthors]
      rw [if_neg (hi i (by simp))]
      exact ih b fun j hj => hi j (by simp [hj])
  have h2 : ∀ (is d : List Nat) (b : Bool), (∀ i ∈ is, (h.get i).ty ≠ .doi) → dupDois h b d is = d := by
    intro is
    induction is with
    | nil => intro d b _; rfl
    | cons i is ih =>
      intro d b hi
      rw [dupDois, if_neg (hi i (by simp))]
      exact ih d b fun j hj => hi j (by simp [hj])
  have h3 : ∀ (is d : List Nat) (b : List Str), (∀ i ∈ is, (h.get i).ty ≠ .collaboration) → dupCollabs h b d is = .ok d := by
    intro is
    induction is with
    | nil => intro d b _; rfl
    | cons i is ih =>
      intro d b hi
      rw [dupCollabs, if_neg (hi i (by simp))]
      exact ih d b fun j hj => hi j (by simp [hj])
  have g1 : eachCit dupAuthorsCit h cs = .ok (h, cs) := eachCit_same fun c hm => by
    obtain ⟨i, is, rfl, k0, k⟩ := hc c hm
    have := h1 (i :: is) false fun j hj he => by
      rcases List.mem_cons.1 hj with rfl | hj
      · rw [k0.1] at he; cases he
      · rw [(k j hj).1] at he; cases he
    unfold dupAuthorsCit
    rw [this, okBind]
    rfl
  have g2 : eachCit dupDoisCit h cs = .ok (h, cs) := eachCit_same fun c hm => by
    obtain ⟨i, is, rfl, k0, k⟩ := hc c hm
    have := fun b => h2 is (i :: is) b fun j hj he => by rw [(k j hj).1] at he; cases he
    rw [dupDoisCit, dupDois]
    simp only [Bool.false_eq_true, if_false, this, ite_self]
  have g3 : eachCit dupCollabsCit h cs = .ok (h, cs) := eachCit_same fun c hm => by
    obtain ⟨i, is, rfl, k0, k⟩ := hc c hm
    have := h3 (i :: is) (i :: is) [] fun j hj he => by
      rcases List.mem_cons.1 hj with rfl | hj
      · rw [k0.1] at he; cases he
      · rw [(k j hj).1] at he; cases he
    unfold dupCollabsCit
    rw [this, okBind]
    rfl
  have g4 : eachCit addRecid h cs = .ok (h, cs) := eachCit_same fun c hm => by
    obtain ⟨i, is, rfl, k0, k⟩ := hc c hm
    have : (i :: is).find? (fun i => hasRecid (h.get i)) = none := by
      rw [List.find?_eq_none]
      intro j hj
      rcases List.mem_cons.1 hj with rfl | hj
      · simp [hasRecid, k0.2]
      · simp [hasRecid, (k j hj).2]
    unfold addRecid
    rw [this]
  unfold dedupe
  rw [g1, okBind]
  dsimp only
  rw [g2, okBind]
  dsimp only
  rw [g3, okBind]
  exact g4

theorem post_settled {special : List Str} {books : Books} {els es : List El} (ht : transformElements special books none els = .ok es)
    (hs : ∀ c ∈ splitCitations es, Settled (c.map (·.el))) : postProcess special books none els = .ok ((splitCitations es).map fun c => c.map (·.el)) := by
  have hels := fun c hc => heapOf_els es (c := c) hc
  unfold postProcess
  rw [ht, okBind]
  dsimp only
  generalize splitCitations es = cs at *
  generalize heapOf cs = h at *
  have hS : ∀ c ∈ cs.map (fun c => c.map (·.id)), Settled (h.els c) := by
    intro c hc
    obtain ⟨d, hd, rfl⟩ := List.mem_map.1 hc
    rw [hels d hd]
    exact hs d hd
  have hmap : (cs.map fun c => c.map (·.id)).map h.els = cs.map fun c => c.map (·.el) := by
    rw [List.map_map]
    exact List.map_congr_left fun c hc => hels c hc
  generalize (cs.map fun c => c.map (·.id)) = ids at *
  have himp : ∀ ids : List (List Nat), (∀ c ∈ ids, Settled (h.els c)) → impliedIbids none h ids = .ok (h, ids) := by
    intro ids
    induction ids with
    | nil => intro _; rfl
    | cons c ids ih =>
      intro hS
      have hj : lastJournal h c = none := by
        unfold lastJournal
        rw [List.find?_eq_none]
        intro i hi
        obtain ⟨e, ts, e1, e2, -, -, e5⟩ := hS c (by simp)
        have hm : h.get i ∈ e :: ts := by rw [← e1]; exact List.mem_map_of_mem (List.mem_reverse.1 hi)
        rcases List.mem_cons.1 hm with hm | hm
        · rw [hm, e2]; simp
        · rw [(e5 _ hm).1]; simp
      have h0 : ibidStep none h c = .ok (h, c) := rfl
      rw [impliedIbids, h0, okBind]
      dsimp only
      rw [hj, ih fun c hc => hS c (by simp [hc]), okBind]
      rfl
  have hy : eachCit addYear h ids = .ok (h, ids) := eachCit_same fun c hc => by
    unfold addYear
    rw [settled_year (hS c hc), okBind]
    rfl
  have hb : eachCit (undetectedBooks books) h ids = .ok (h, ids) := eachCit_same fun c hc => by
    obtain ⟨e, ts, e1, e2, -⟩ := hS c hc
    exact undetected_lone (k := .doi) ⟨e, by rw [e1]; simp, e2⟩ fun h => absurd (by simp) h
  have hd : dedupe h ids = .ok (h, ids) := dedupe_settled fun c hc => by
    obtain ⟨e, ts, e1, e2, e3, -, e5⟩ := hS c hc
    cases c with
    | nil => cases e1
    | cons i is =>
      simp only [Heap.els, List.map_cons, List.cons.injEq] at e1
      refine ⟨i, is, rfl, by rw [e1.1]; exact ⟨e2, e3⟩, fun j hj => ?_⟩
      have := e5 (h.get j) (by rw [← e1.2]; exact List.mem_map_of_mem hj)
      exact ⟨this.1, this.2.1⟩
  unfold enrich
  rw [himp ids hS, okBind]
  dsimp only
  rw [hy, okBind]
  dsimp only
  rw [hb, okBind]
  have hp : (pure (h, ids) : Py (Heap × List (List Nat))) = .ok (h, ids) := rfl
  dsimp only
  rw [hp, okBind]
  dsimp only
  rw [hd, okBind]
  dsimp only
  rw [hmap]
  rfl

/-! ### The references -/

omit [UnicodeDB] in
theorem mapM_all2 {α β : Type} {f : α → Py β} : ∀ {as : List α} {bs : List β}, All2 (fun a b => f a = .ok b) as bs → as.mapM f = .ok bs
  | [], _, .nil => rfl
  | a :: as, b :: bs, .cons h1 h2 => by
    rw [List.mapM_cons, h1, okBind, mapM_all2 h2, okBind]
    rfl

theorem references_many {undesirable : Str → Str} {lib : Lib} {kbs : Kbs} {fmt : List FmtPart} {link : Option Linker} {n : Nat} {raw : Str} {cs : List (List El)} {c : Counts}
    {count : List (Str × Nat)} {rs : List Field} (hrep : washRepair undesirable raw = raw)
    (hp : parseReferenceLine lib kbs link raw [] = .ok (cs, bracketed n, c, count)) (hr : All2 (fun els r => buildReferenceFields els (bracketed n) raw fmt = .ok r) cs rs) :
    parseReferences undesirable lib kbs fmt link [raw] = .ok (rs, [0, c.reportnum, c.title, c.auth, c.url, c.doi, c.misc]) := by
  unfold parseReferences parseElements
  have hstep : [raw].foldlM (elementsStep undesirable lib kbs link) ([], ({} : Counts).dict, []) = .ok ([⟨cs, bracketed n, raw⟩], c.dict, count) := by
    rw [List.foldlM_cons]
    unfold elementsStep
    rw [hrep, hp, okBind]
    dsimp only
    rw [sum_counts, okBind]
    simp [pure, Except.pure, bind, Except.bind, List.foldlM]
  rw [hstep, okBind]
  dsimp only
  have hbuild : buildReferences fmt [⟨cs, bracketed n, raw⟩] = .ok rs := by
    unfold buildReferences
    simp only [List.mapM_cons, List.mapM_nil, mapM_all2 hr, okBind]
    show Except.ok ([rs].flatten) = _
    simp
  rw [hbuild, okBind, stats_dict, okBind]
  rfl

theorem build_doi {fmt : List FmtPart} {n : Nat} {raw p d t : Str} (ht : ';' ∉ t) :
    ∃ r, buildReferenceFields (doiEl p d :: (after t).map textEl) (bracketed n) raw fmt = .ok r ∧
      ∀ k, vals r k = under k (loneRecord n raw p [(py! "doi", py! "doi:" ++ d)] t none) := by
  have e2 : ∀ u, elEmits fmt (textEl u) = miscEmit u := fun u => by rw [elEmits]; exact List.append_nil _
  have e3 : elEmits fmt (doiEl p d) = (reported p ++ [(py! "doi", py! "doi:" ++ d)]).map fun p => (p.1, some p.2) := by
    have : emits (doiEl p d) (jrefOf fmt (doiEl p d)) = [(py! "doi", py! "doi:" ++ d)].map fun p => (p.1, some p.2) := rfl
    rw [elEmits, this, List.map_append, ← miscEmit_eq]
    rfl
  obtain ⟨r, hr⟩ : ∃ r, buildReferenceFields (doiEl p d :: (after t).map textEl) (bracketed n) raw fmt = .ok r := by
    refine build_some ?_ _
    intro x hx
    rcases List.mem_cons.1 hx with rfl | hx
    · exact fun f => ⟨_, rfl⟩
    · obtain ⟨u, -, rfl⟩ := List.mem_map.1 hx
      exact fun f => ⟨_, rfl⟩
  refine ⟨r, hr, fun k => ?_⟩
  unfold loneRecord
  rw [build_table (table := reported p ++ [(py! "doi", py! "doi:" ++ d)] ++ reported t) hr]
  · simp
  · have h0 : ((after t).map textEl).flatMap (elEmits fmt) = (reported t).map fun p => (p.1, some p.2) := by
      unfold after
      split
      · rw [List.map_singleton, List.flatMap_singleton, e2, miscEmit_eq]
      · next h => rw [reported_stops h ht]; rfl
    rw [List.flatMap_cons, e3, h0, List.map_append (l₂ := reported t)]
  · intro q hq
    simp only [List.mem_append] at hq
    rcases hq with (hq | hq) | hq
    · exact reported_ne _ q hq
    · rw [List.mem_singleton.1 hq]; simp
    · exact reported_ne _ q hq

theorem build_dois {fmt : List FmtPart} {n : Nat} {raw tail : Str} (ht : ';' ∉ tail) : ∀ (toks : List DoiItem),
    ∃ rs, All2 (fun els r => buildReferenceFields els (bracketed n) raw fmt = .ok r) (doiCits toks tail) rs ∧
      All2 (fun table r => ∀ k, vals r k = under k table) (doiRecords n raw toks tail) rs
  | [] => ⟨[], .nil, .nil⟩
  | [t] => by
    obtain ⟨r, h1, h2⟩ := build_doi (fmt := fmt) (n := n) (raw := raw) (p := t.pre) (d := t.doi) ht
    exact ⟨[r], .cons h1 .nil, .cons h2 .nil⟩
  | t :: u :: ts => by
    obtain ⟨r, h1, h2⟩ := build_doi (fmt := fmt) (n := n) (raw := raw) (p := t.pre) (d := t.doi) (t := []) (by simp)
    obtain ⟨rs, h3, h4⟩ := build_dois (fmt := fmt) (n := n) (raw := raw) ht (u :: ts)
    exact ⟨r :: rs, .cons h1 h3, .cons h2 h4⟩

theorem settled_dois {tail : Str} (ht : NoYear tail) : ∀ {toks : List DoiItem}, (∀ t ∈ toks, NoYear t.pre) → ∀ c ∈ doiCits toks tail, Settled c
  | [], _, c, hc => by cases hc
  | [t], hp, c, hc => by
    rw [doiCits, List.mem_singleton] at hc
    subst hc
    refine ⟨_, _, rfl, rfl, rfl, hp t (by simp), ?_⟩
    intro x hx
    obtain ⟨u, hu, rfl⟩ := List.mem_map.1 hx
    unfold after at hu
    split at hu
    · rw [List.mem_singleton.1 hu]; exact ⟨rfl, rfl, ht⟩
    · cases hu
  | t :: u :: ts, hp, c, hc => by
    rw [doiCits, List.mem_cons] at hc
    rcases hc with rfl | hc
    · refine ⟨_, _, rfl, rfl, rfl, hp t (by simp), ?_⟩
      intro x hx
      simp [after, LeftOver] at hx
    · exact settled_dois ht (fun t h => hp t (by simp [List.mem_cons.1 h])) c hc

theorem list_els (toks : List DoiItem) (tail : Str) : lineEls (toks.map fun t => (t.pre, Item.doi t.doi)) tail = doiEls toks (after tail) := by
  unfold lineEls doiEls after
  rw [List.map_map]
  congr 1
  split <;> rfl

/-- The parsed line. -/
theorem parse_list {toks : List DoiItem} {tail : Str} (hp : ∀ t ∈ toks, '<' ∉ t.pre) (ht : '<' ∉ tail) :
    parseTagged (inLine (marked toks) tail) (toks.map (·.doi)) [] = .ok (doiEls toks (after tail), { misc := if LeftOver tail then 1 else 0, doi := toks.length }) := by
  have hparse := Props.C19 (toks := toks.map fun t => (t.pre, Item.doi t.doi)) (last := tail)
    (by
      intro q hq
      obtain ⟨t, h, rfl⟩ := List.mem_map.1 hq
      exact ⟨noTags_of (hp t h), trivial⟩)
    (noTags_of ht) [] []
  rw [list_els] at hparse
  have e1 : renderLine (toks.map fun t => (t.pre, Item.doi t.doi)) tail = inLine (marked toks) tail := by
    clear hparse hp
    induction toks with
    | nil => simp [renderLine, inLine]
    | cons t ts ih =>
      have : inLine (marked (t :: ts)) tail = t.pre ++ doiMark ++ inLine (marked ts) tail := rfl
      rw [this, ← ih]
      simp [renderLine, Item.render]
  have e2 : (toks.map fun t => (t.pre, Item.doi t.doi)).flatMap (·.2.dois) = toks.map (·.doi) := by
    clear hparse hp e1
    induction toks with
    | nil => rfl
    | cons t ts ih => rw [List.map_cons, List.flatMap_cons, ih]; rfl
  have e3 : (toks.map fun t => (t.pre, Item.doi t.doi)).flatMap (·.2.urls) = [] := by
    clear hparse hp e1 e2
    induction toks with
    | nil => rfl
    | cons t ts ih => rw [List.map_cons, List.flatMap_cons, ih]; rfl
  rw [e1, e2, e3, List.append_nil, List.append_nil] at hparse
  rw [hparse]
  have cnt : ∀ k, howMany k (doiEls toks (after tail)) = (if k = .doi then toks.length else 0) + if k = .misc ∧ LeftOver tail then 1 else 0 := by
    intro k
    unfold howMany doiEls
    rw [List.filter_append, List.length_append]
    congr 1
    · split
      · next h =>
        subst h
        rw [List.filter_eq_self.2]
        · simp
        · intro e he
          obtain ⟨t, -, rfl⟩ := List.mem_map.1 he
          simp [doiEl]
      · next h =>
        rw [List.length_eq_zero_iff, List.filter_eq_nil_iff]
        intro e he
        obtain ⟨t, -, rfl⟩ := List.mem_map.1 he
        have : ¬ Kind.doi = k := fun e => h e.symm
        simp [doiEl, this]
    · unfold after
      by_cases hl : LeftOver tail
      · by_cases hk : k = .misc
        · simp [hl, hk, textEl]
        · have : ¬ Kind.misc = k := fun e => hk e.symm
          simp [hl, hk, textEl, this]
      · simp [hl]
  simp [cnt]

/-- From the line to the references. -/
theorem references_dois {undesirable : Str → Str} {lib : Lib} {kbs : Kbs} {fmt : List FmtPart} {n : Nat} {toks : List DoiItem} {tail : Str} (hl : DoiList n toks tail)
    (hne : toks ≠ []) (ho : NothingAmong kbs.tag (marked toks) tail) (hd : ∀ s, '%' ∉ s → lib.unquote s = s)
    (hu : ∀ s, (∀ c ∈ s, isAscii c = true) → lib.unidecode s = s)
    (hw : undesirable (bracketed n ++ ' ' :: inLine (toks.map DoiItem.written) tail) = bracketed n ++ ' ' :: inLine (toks.map DoiItem.written) tail) :
    ∃ rs, parseReferences undesirable lib kbs fmt none [bracketed n ++ ' ' :: inLine (toks.map DoiItem.written) tail] =
        .ok (rs, [0, 0, 0, 0, 0, toks.length, if LeftOver tail then 1 else 0]) ∧
      All2 (fun table r => ∀ k, vals r k = under k table) (doiRecords n (bracketed n ++ ' ' :: inLine (toks.map DoiItem.written) tail) toks tail) rs := by
  have hclean := (clean_list hl.back.1 fun t ht => (hl.texts t ht).1).1
  have q : ∀ t ∈ toks, ∀ c ∈ t.pre, c ∈ quietChars := fun t ht => (hl.texts t ht).2.1
  have q2 : ∀ c ∈ tail, c ∈ quietChars := hl.back.2.1
  have htag := tag_tokens (lib := lib) (kbs := kbs.tag) (l0 := inLine (marked toks) tail) (clean_fixed lib hclean)
    (by
      intro p hp
      obtain ⟨t, ht, rfl⟩ := List.mem_map.1 hp
      exact ⟨(hl.texts t ht).1.chars, .inr ⟨py! "DOI", rfl, by decide, by decide⟩⟩)
    hl.back.1.chars
    (by
      intro p hp
      obtain ⟨t, ht, rfl⟩ := List.mem_map.1 hp
      exact q t ht)
    q2
    (by
      intro p hp
      obtain ⟨t, ht, rfl⟩ := List.mem_map.1 hp
      show ∀ c ∈ doiMark, _
      decide) ho hu
  have hh : ∀ {s : Str}, (∀ c ∈ s, c ∈ quietChars) → finditer Rx.re_hdl s = [] := fun h =>
    barren_finditer (A := quietChars) (by decide) (by decide +kernel) h
  have hparse' := parse_list (toks := toks) (tail := tail) (fun t ht h => absurd (q t ht _ h) (by decide)) (fun h => absurd (q2 _ h) (by decide))
  have htr := transform_dois (special := kbs.special) (books := kbs.books) (toks := toks) (ts := after tail) (fun t ht => hh (q t ht)) fun t ht => by
    unfold after at ht
    split at ht
    · rw [List.mem_singleton.1 ht]; exact hh q2
    · cases ht
  have hsp := split_dois (tail := tail) hne (fun h => absurd (q2 _ h) (by decide)) fun t ht h => absurd (q t ht _ h) (by decide)
  have hpost := post_settled (books := kbs.books) htr fun c hc =>
    settled_dois hl.back.2.2 (fun t ht => (hl.texts t ht).2.2) _ (by rw [← hsp]; exact List.mem_map_of_mem (f := fun c : List Obj => c.map (·.el)) hc)
  rw [hsp] at hpost
  have hfirst : NoSpaceFirst (inLine (toks.map DoiItem.written) tail) := by
    intro c hc
    cases hs : isSpace c with
    | false => rfl
    | true =>
      exfalso
      have hcc : c = ' ' := (by decide : ∀ c ∈ calmChars ++ py! "/_", isSpace c = true → c = ' ') c
        (hl.all c (List.mem_append_right _ (List.mem_cons_of_mem _ (List.mem_of_head? hc)))) hs
      subst hcc
      have htidy := hl.tidy
      generalize inLine (toks.map DoiItem.written) tail = s at hc htidy
      cases s with
      | nil => cases hc
      | cons e r => cases hc; exact htidy ⟨bracketed n, r, by simp⟩
  have hline : parseReferenceLine lib kbs none (bracketed n ++ ' ' :: inLine (toks.map DoiItem.written) tail) [] =
      .ok (doiCits toks tail, bracketed n, { misc := if LeftOver tail then 1 else 0, doi := toks.length }, []) := by
    unfold parseReferenceLine
    rw [removeMarker_numbered n hfirst]
    dsimp only
    rw [dois_list hd hl.back.1 hl.plain hl.apart]
    dsimp only
    rw [clean_urls hclean]
    dsimp only
    rw [htag, okBind]
    dsimp only
    rw [hparse', okBind]
    dsimp only
    rw [hpost, okBind]
    rfl
  obtain ⟨rs, h1, h2⟩ := build_dois (fmt := fmt) (n := n) (raw := bracketed n ++ ' ' :: inLine (toks.map DoiItem.written) tail) (tail := tail)
    (fun h => absurd (q2 _ h) (by decide)) toks
  exact ⟨rs, references_many (hl.repair hw) hline h1, h2⟩

end Py
