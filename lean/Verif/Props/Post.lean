import Verif.Lemmas.Pipeline
import Verif.Py.Sample

/-!
# Steps after splitting: C10, C11, C12, C13
-/

namespace Props
open Py Spec

/-- An author, a text with a year and a journal without one. -/
def datedCitation : List El :=
  [{ ty := .auth, misc := py! "see ", authTxt := some (py! "A. B") },
   { ty := .misc, misc := py! "in 1995 and (2010)" },
   { ty := .journal, misc := py! "x", title := some (py! "Phys.Rev."), volume := some (some (py! "D1")),
     year := some (some []), page := some (some (py! "5")) }]

/-- A citation laid out in a heap of its own. -/
def heapFor (es : List El) : Heap := { get := fun i => es.getD i { ty := .misc, misc := [] }, next := es.length }

/-! ### C12 -/

/-- **C12.** A citation that has a year gets it as its last element, and loses its occurrences
in the texts; a citation without a year is left alone. -/
theorem C12_year [UnicodeDB] (h : Heap) (c : List Nat) (w : WF h c)
    (hj : ∀ e ∈ h.els c, e.ty = .journal → e.year ≠ none) :
    (∀ y, YearOf (h.els c) y → ∃ h' c' es', addYear h c = .ok (h', c') ∧
      h'.els c' = es' ++ [{ ty := .year, misc := [], year := some (some y) }] ∧
      All2 (Undated y) (h.els c) es' ∧ ∀ i < h.next, i ∉ c → h'.get i = h.get i) ∧
    ((¬ ∃ y, YearOf (h.els c) y) → addYear h c = .ok (h, c)) := by
  constructor
  · intro y hy
    rcases citationYear_spec (h.els c) hj with ⟨y', e, hne, hy'⟩ | ⟨-, hn⟩
    · have : y' = y := yearOf_unique hy' hy
      subst this
      have ha : addYear h c = .ok (removeYearLoop y' (h.alloc { ty := .year, misc := [], year := some (some y') }).1
          (c ++ [h.next]), c ++ [h.next]) := by
        unfold addYear; rw [e]; rfl
      refine ⟨_, _, (h.els c).map (cleanEl y'), ha, ?_, ?_, ?_⟩
      · have wa := w.alloc { ty := .year, misc := [], year := some (some y') }
        unfold Heap.els
        have : ∀ i ∈ c ++ [h.next], (removeYearLoop y' (h.alloc { ty := .year, misc := [], year := some (some y') }).1
            (c ++ [h.next])).get i = cleanEl y' ((h.alloc { ty := .year, misc := [], year := some (some y') }).1.get i) := by
          intro i hi
          rw [removeYearLoop_get _ _ wa.nodup, if_pos hi]
        rw [List.map_congr_left this]
        have h2 := w.els_alloc { ty := .year, misc := [], year := some (some y') }
        unfold Heap.els at h2
        rw [← Function.comp_def, ← List.map_map, h2, List.map_append]
        congr 1
        have : contains ([] : Str) y' = false := by
          cases hc : contains ([] : Str) y' with
          | false => rfl
          | true =>
            obtain ⟨a, b, hab⟩ := (contains_iff _ _).1 hc
            have := List.append_eq_nil_iff.1 hab.symm
            exact absurd (List.append_eq_nil_iff.1 this.1).2 hne
        simp [cleanEl, this]
      · have := all2_map (R := Undated y') (f := id) (g := cleanEl y') (h.els c) fun x _ => cleanEl_undated y' hne x
        simpa using this
      · intro i hi hic
        rw [removeYearLoop_get _ _ (w.alloc { ty := .year, misc := [], year := some (some y') }).nodup]
        rw [if_neg (by simp only [List.mem_append, List.mem_singleton, not_or]; exact ⟨hic, by omega⟩)]
        exact alloc_old h _ hi
    · exact absurd ⟨y, hy⟩ hn
  · intro hn
    rcases citationYear_spec (h.els c) hj with ⟨y', e, hne, hy'⟩ | ⟨e, -⟩
    · exact absurd ⟨y', hy'⟩ hn
    · unfold addYear; rw [e]; rfl

example : (do
    let (h, c) ← @addYear asciiDB (heapFor datedCitation) [0, 1, 2]
    pure (h.els c) : Py (List El)) = .ok
    [{ ty := .auth, misc := py! "see ", authTxt := some (py! "A. B") },
     { ty := .misc, misc := py! "inand (2010)" },
     { ty := .journal, misc := py! "x", title := some (py! "Phys.Rev."), volume := some (some (py! "D1")),
       year := some (some []), page := some (some (py! "5")) },
     { ty := .year, misc := [], year := some (some (py! "1995")) }] := by
  decide +kernel

/-! ### C13 -/

/-- **C13 fails**: deleting the year 2010 from `120105` leaves `15`. -/
theorem C13_counterexample :
    ¬ ∀ s y d : Str, @Decimals asciiDB y → @WholeNumber asciiDB s d → d ≠ y → @WholeNumber asciiDB (@removeYear asciiDB s y) d := by
  intro h
  have h1 := h (py! "120105") (py! "2010") (py! "120105") ⟨by decide, by decide +kernel⟩
    ⟨[], [], rfl, ⟨by decide, by decide +kernel⟩, by simp [NoDigitLast], by simp [NoDigitFirst]⟩ (by decide +kernel)
  obtain ⟨a, b, hs, -⟩ := h1
  have : @removeYear asciiDB (py! "120105") (py! "2010") = py! "15" := by decide +kernel
  rw [this] at hs
  have := congrArg List.length hs
  simp at this
  omega

/-- The same happens to a whole citation: the page number in its text is destroyed. -/
example : (do
    let (h, c) ← @addYear asciiDB (heapFor
      [{ ty := .misc, misc := py! "p. 120105" },
       { ty := .journal, misc := [], year := some (some (py! "2010")) }]) [0, 1]
    pure (h.els c) : Py (List El)) = .ok
    [{ ty := .misc, misc := py! "p. 15" },
     { ty := .journal, misc := [], year := some (some (py! "2010")) },
     { ty := .year, misc := [], year := some (some (py! "2010")) }] := by
  decide +kernel

/-- Two numbers around the year are joined to one. -/
example : @removeYear asciiDB (py! "12 2010 34") (py! "2010") = py! "1234" := by decide +kernel

/-- **C13, partial.** In a text without brackets in which no digit comes next to the year,
all other numbers survive as whole numbers. Missing: the property without these conditions,
which is false. -/
theorem C13_partial [UnicodeDB] (s y d : Str) (hy : Decimals y) (hb : '[' ∉ s) (hp : '(' ∉ s) (hc : Clear y s)
    (hd : WholeNumber s d) (hne : d ≠ y) : WholeNumber (removeYear s y) d := by
  obtain ⟨s1, s2, h1, h2, h3⟩ := removeYear_erased s y hy.1
  have e1 : s1 = s := erase_none h1 (by
    rintro a d r hs ⟨u, v, rfl, -⟩
    exact hb (by rw [hs]; simp))
  subst e1
  have e2 : s2 = s1 := erase_none h2 (by
    rintro a d r hs ⟨u, v, rfl, -⟩
    exact hp (by rw [hs]; simp))
  subst e2
  obtain ⟨a, b, hs, hd, ha, hb⟩ := hd
  obtain ⟨a', b', k1, k2, -, k3⟩ := erase_number hy h3 false [] a d b (by simpa using hc) hs hd hne (by simpa using ha) hb (fun _ => rfl)
  exact ⟨a', b', k1, hd, k2, k3⟩

example : @removeYear asciiDB (py! "JHEP 12, 2010, p. 34") (py! "2010") = py! "JHEP 12,, p. 34" := by decide +kernel

/-! ### C11 -/

/-- **C11.** A citation with a linked element gets the record id of the first one at its end;
other citations, and all other elements, stay as they are. -/
theorem C11_recid (h : Heap) (c : List Nat) (w : WF h c) :
    ∃ h' c', addRecid h c = .ok (h', c') ∧ RecidAdded (h.els c) (h'.els c') ∧ ∀ i < h.next, h'.get i = h.get i := by
  obtain ⟨h', c', h1, -, -, h2, h3⟩ := addRecid_step h c w
  exact ⟨h', c', h1, h3, h2⟩

/-- **C11.** The answer of the callback is stored; a missing key or index counts as no record;
every other exception reaches the caller. -/
theorem C11_linker (link : Linker) (e : El) :
    (∀ r, link e = .ok r → associate1 link e = .ok { e with recid := some r }) ∧
    (link e = .error .keyError ∨ link e = .error .indexError → associate1 link e = .ok { e with recid := some none }) ∧
    (∀ x, link e = .error x → x ≠ .keyError → x ≠ .indexError → associate1 link e = .error x) := by
  refine ⟨fun r h => by simp [associate1, h], ?_, ?_⟩
  · rintro (h | h) <;> simp [associate1, h]
  · intro x h h1 h2
    unfold associate1
    rw [h]
    cases x <;> first | rfl | exact absurd rfl h1 | exact absurd rfl h2

/-- **C11.** All elements of a citation are linked, in order, up to the first failure. -/
theorem C11_all (link : Linker) (h h' : Heap) (c : List Nat) (w : c.Nodup) (e : associateLoop link h c = .ok h') :
    All2 (fun x x' => associate1 link x = .ok x') (h.els c) (h'.els c) ∧ ∀ i, i ∉ c → h'.get i = h.get i := by
  induction c generalizing h with
  | nil => cases e; exact ⟨.nil, fun _ _ => rfl⟩
  | cons i c ih =>
    simp only [List.nodup_cons] at w
    simp only [associateLoop] at e
    obtain ⟨x, h1, h2⟩ := bind_ok e
    obtain ⟨k1, k2⟩ := ih _ w.2 h2
    rw [set_els _ w.1] at k1
    refine ⟨.cons ?_ k1, ?_⟩
    · have : h'.get i = x := by rw [k2 i w.1]; simp [Heap.set]
      rw [this]; exact h1
    · intro j hj
      simp only [List.mem_cons, not_or] at hj
      rw [k2 j hj.2]; simp [Heap.set, hj.1]

/-- A callback that knows DOIs, fails on authors and has no answer for texts. -/
def sampleLinker : Linker := fun e =>
  match e.ty with
  | .doi => .ok (some ⟨true, py! "77"⟩)
  | .misc => .error .keyError
  | .auth => .error .typeError
  | _ => .ok none

example : (do
    let h ← associateLoop sampleLinker (heapFor
      [{ ty := .misc, misc := py! "a" }, { ty := .doi, misc := [], doiString := some (py! "10.1/x") },
       { ty := .doi, misc := [], doiString := some (py! "10.1/y") }]) [0, 1, 2]
    let (h, c) ← addRecid h [0, 1, 2]
    pure ((h.els c).map fun e => (e.ty, e.recid)) : Py (List (Kind × Option (Option RecId)))) = .ok
    [(.misc, some none), (.doi, some (some ⟨true, py! "77"⟩)), (.doi, some (some ⟨true, py! "77"⟩)),
     (.recid, some (some ⟨true, py! "77"⟩))] := by
  decide +kernel

example : (associateLoop sampleLinker (heapFor [{ ty := .auth, misc := [] }]) [0]).toOption.isNone = true := by decide +kernel

/-! ### C10 -/

/-- **C10.** Of the authors of a citation only the first stays; the others become text, with
their names at the end. Everything else stays. -/
theorem C10_authors (h h' : Heap) (c c' : List Nat) (w : WF h c) (e : dupAuthorsCit h c = .ok (h', c')) :
    c' = c ∧ FirstAuthorOnly (h.els c) (h'.els c) ∧ ∀ i, i ∉ c → h'.get i = h.get i := by
  obtain ⟨h1, h2, h3, -⟩ := dupAuthorsCit_eq w e
  exact ⟨h1, h2, h3⟩

/-- **C10.** This does not fail, because authors have a text. -/
theorem C10_authors_total (h : Heap) (c : List Nat) (w : WF h c)
    (ha : ∀ e ∈ h.els c, e.ty = .auth → e.authTxt ≠ none) : ∃ h', dupAuthorsCit h c = .ok (h', c) := by
  obtain ⟨h', e⟩ := dupAuthors_ok false w.nodup ha
  exact ⟨h', by unfold dupAuthorsCit; rw [e]; rfl⟩

/-- **C10.** Of the DOIs of a citation only the first stays; everything else stays in order. -/
theorem C10_dois (h : Heap) (c : List Nat) : ∃ c', dupDoisCit h c = .ok (h, c') ∧
    (h.els c').filter (·.ty ≠ .doi) = (h.els c).filter (·.ty ≠ .doi) ∧
    kindEls .doi (h.els c') = (kindEls .doi (h.els c)).take 1 :=
  ⟨_, rfl, dupDois_spec h c⟩

/-- **C10.** The collaborations of a citation have different names afterwards, the names are
the same as before, no collaboration is made up, and everything else stays in order. -/
theorem C10_collaborations (h h' : Heap) (c c' : List Nat) (e : dupCollabsCit h c = .ok (h', c')) :
    h' = h ∧ (h.els c').filter (·.ty ≠ .collaboration) = (h.els c).filter (·.ty ≠ .collaboration) ∧
    (names (kindEls .collaboration (h.els c'))).Nodup ∧
    (∀ k, k ∈ names (kindEls .collaboration (h.els c')) ↔ k ∈ names (kindEls .collaboration (h.els c))) ∧
    (∀ x ∈ kindEls .collaboration (h.els c'), x ∈ kindEls .collaboration (h.els c)) := by
  unfold dupCollabsCit at e
  obtain ⟨x, h1, h2⟩ := bind_ok e
  have := pure_ok h2
  simp only [Prod.mk.injEq] at this
  obtain ⟨rfl, rfl⟩ := this
  exact ⟨rfl, dupCollabs_spec h1⟩

/-- **C10.** No citation of a parsed line has two authors, two DOIs, two record ids or two
collaborations of the same name. -/
theorem C10_line [UnicodeDB] (special : List Str) (books : Books) (link : Option Linker) (els : List El)
    (hr : ∀ e ∈ els, e.ty ≠ .recid) (cs : List (List El)) (e : postProcess special books link els = .ok cs) :
    ∀ c ∈ cs, (kindEls .auth c).length ≤ 1 ∧ (kindEls .doi c).length ≤ 1 ∧ (kindEls .recid c).length ≤ 1 ∧
      (names (kindEls .collaboration c)).Nodup := by
  unfold postProcess at e
  obtain ⟨els', h1, k1⟩ := bind_ok e
  clear e
  have hr' := transform_noRecid hr h1
  dsimp only at k1
  obtain ⟨⟨h, c1⟩, h2, k2⟩ := bind_ok k1
  clear k1
  obtain ⟨⟨h', c2⟩, h3, k3⟩ := bind_ok k2
  clear k2
  have hall : HeapAll (fun e => e.ty ≠ .recid) (heapOf (splitCitations els')) := by
    refine heapOf_all (fun m => by simp) ?_
    refine split_all (fun e => e.ty ≠ .recid) (fun m => by simp) (fun e m h => h) _ _ (by simp) (by simp) ?_
    intro o ho
    have : o.el ∈ (number 0 els').map (·.el) := List.mem_map_of_mem ho
    rw [number_map] at this
    exact hr' _ this
  obtain ⟨p, w⟩ := enrich_ok noRecid_closed hall (heapOf_wf els') h2
  have := pure_ok k3
  subst this
  intro c hc
  obtain ⟨d, hd, rfl⟩ := List.mem_map.1 hc
  exact dedupe_ok w p h3 d hd

/-- A line with repeated authors, DOIs and collaborations. -/
def repetitive : List El :=
  [{ ty := .auth, misc := [], authTxt := some (py! "A. B") },
   { ty := .auth, misc := py! "and", authTxt := some (py! "C. D") },
   { ty := .collaboration, misc := py! "x", collaboration := some (py! "ATLAS") },
   { ty := .collaboration, misc := [], collaboration := some (py! "CMS") },
   { ty := .collaboration, misc := py! "x", collaboration := some (py! "ATLAS") },
   { ty := .doi, misc := [], doiString := some (py! "10.1/x") }]

example : (@postProcess asciiDB [] [] (some sampleLinker) (repetitive.drop 2)) = .ok
    [[{ ty := .collaboration, misc := [], collaboration := some (py! "CMS"), recid := some none },
      { ty := .collaboration, misc := py! "x", collaboration := some (py! "ATLAS"), recid := some none },
      { ty := .doi, misc := [], doiString := some (py! "10.1/x"), recid := some (some ⟨true, py! "77"⟩) },
      { ty := .recid, misc := [], recid := some (some ⟨true, py! "77"⟩) }]] := by
  decide +kernel

example : (@postProcess asciiDB [] [] none (repetitive.take 3)) = .ok
    [[{ ty := .auth, misc := [], authTxt := some (py! "A. B") },
      { ty := .misc, misc := py! "and C. D", authTxt := some (py! "C. D") },
      { ty := .collaboration, misc := py! "x", collaboration := some (py! "ATLAS") }]] := by
  decide +kernel

end Props
