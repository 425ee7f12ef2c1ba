import Verif.Lemmas.Known3

/-!
# Helper lemmas: an article in a known journal, from the elements to the reference
-/

namespace Py
open Spec
open scoped List

variable [UnicodeDB]

omit [UnicodeDB] in
theorem eachEl_same {f : El → Py El} : ∀ {es : List El}, (∀ e ∈ es, f e = .ok e) → eachEl f es = .ok es
  | [], _ => rfl
  | e :: es, h => by
    rw [eachEl, h e (by simp), okBind, eachEl_same fun e he => h e (by simp [he]), okBind]
    rfl

theorem hdlGo_none : ∀ {es done : List El}, (∀ e ∈ es, finditer Rx.re_hdl e.misc = []) → hdlGo done es = done ++ es
  | [], done, _ => by simp [hdlGo]
  | e :: es, done, h => by
    rw [hdlGo, h e (by simp)]
    simp only [List.reverse_nil, hdlLoop]
    rw [hdlGo_none fun e he => h e (by simp [he])]
    simp

theorem barren_reMatch {A : List Char} (hA : ∀ c ∈ A, isAscii c = true) {r : Re} (h : barren A r = true) {s : Str} (hs : ∀ c ∈ s, c ∈ A) :
    reMatch r s = none := by
  cases hm : reMatch r s with
  | none => rfl
  | some m =>
    obtain ⟨-, ⟨q, e⟩, hok, -⟩ := reMatch_ok hm
    exact absurd hok (barren_sound hA h fun c hc => hs c (by rw [e]; simp [hc]))

theorem mangle_same {v : Str} (h : AsciiDigits v ∨ ∃ x d, x ∈ py! "ABCDEFGH" ∧ v = x :: d) : mangleStr v = v := by
  unfold mangleStr
  have : reMatch Rx.volume_re v = none := by
    rcases h with h | ⟨x, d, hx, rfl⟩
    · exact barren_reMatch (A := py! "0123456789") (by decide) (by decide +kernel) h.2
    · cases hm : reMatch Rx.volume_re (x :: d) with
      | none => rfl
      | some m =>
        exfalso
        obtain ⟨-, ⟨q, e⟩, hok, -⟩ := reMatch_ok hm
        obtain ⟨u, v, e2, hu, -⟩ := hok
        obtain ⟨a, b, rfl, ⟨c, rfl, hc⟩, -⟩ := hu
        rw [e2] at e
        simp only [List.cons_append, List.nil_append, List.cons.injEq] at e
        have hd : isDec c = true := by simpa [CSet.mem, CItem.mem] using hc
        rw [← e.1] at hd
        have : ((py! "ABCDEFGH").all fun c => !isDec c) = true := rfl
        have := List.all_eq_true.1 this x hx
        rw [hd] at this
        cases this
  rw [this]

/-- The element of an article. -/
def articleEl (pre J vol year page : Str) : El :=
  { ty := .journal, misc := pre, title := some J, volume := some (some vol), year := some (some year), page := some (some page),
    isIbid := some false, extraIbids := some [] }

/-- What is expected of it. -/
structure ArticleOk (special : List Str) (J vol : Str) : Prop where
  noSemi : ';' ∉ J
  special : J ∉ special
  suppl : J ≠ py! "Nucl.Phys.Proc.Suppl."
  roman : reMatch Rx.roman_end vol = none
  mangle : mangleStr vol = vol

theorem transform_article {special : List Str} {books : Books} {pre J vol year page : Str} (h : ArticleOk special J vol) {more : List El}
    (hm : ∀ e ∈ more, e.ty = .misc) (hh : ∀ e ∈ articleEl pre J vol year page :: more, finditer Rx.re_hdl e.misc = []) :
    transformElements special books none (articleEl pre J vol year page :: more) = .ok (articleEl pre J vol year page :: more) := by
  have step : ∀ f : El → Py El, f (articleEl pre J vol year page) = .ok (articleEl pre J vol year page) → (∀ e : El, e.ty = .misc → f e = .ok e) →
      eachEl f (articleEl pre J vol year page :: more) = .ok (articleEl pre J vol year page :: more) := by
    intro f h1 h2
    refine eachEl_same fun e he => ?_
    rcases List.mem_cons.1 he with rfl | he
    · exact h1
    · exact h2 e (hm e he)
  have hr : rsplit1 ';' J = none := rsplit1_absent h.noSemi
  unfold transformElements
  rw [step splitVolume1 (by simp [splitVolume1, articleEl, getKey, hr, okBind]; rfl) (by intro e he; simp [splitVolume1, he]; rfl), okBind]
  rw [step formatVolume1 (by simp [formatVolume1, articleEl, getStr, okBind, h.roman]; rfl) (by intro e he; simp [formatVolume1, he]; rfl), okBind]
  rw [step (specialJournal1 special) (by simp [specialJournal1, articleEl, getKey, okBind, h.special]; rfl) (by intro e he; simp [specialJournal1, he]; rfl), okBind]
  rw [step formatReportNumber1 rfl (by intro e he; simp [formatReportNumber1, he]; rfl), okBind]
  rw [step formatAuthorEd1 rfl (by intro e he; simp [formatAuthorEd1, he]; rfl), okBind]
  have hb : lookForBooks books (articleEl pre J vol year page :: more) = .ok (articleEl pre J vol year page :: more) := by
    unfold lookForBooks
    have : (articleEl pre J vol year page :: more).find? (·.ty = .quoted) = none := by
      rw [List.find?_eq_none]
      intro e he
      rcases List.mem_cons.1 he with rfl | he
      · simp [articleEl]
      · simp [hm e he]
    rw [this]
  rw [hb, okBind]
  rw [step formatHepEl rfl (by intro e he; simp [formatHepEl, he]; rfl), okBind]
  rw [step removeB1 (by simp [removeB1, articleEl, getKey, okBind, h.suppl]; rfl) (by intro e he; simp [removeB1, he]; rfl), okBind]
  rw [step mangleVolume1 (by simp [mangleVolume1, articleEl, getStr, h.mangle, Functor.map, Except.map]) (by intro e he; simp [mangleVolume1, he]; rfl), okBind]
  rw [step arxivUrl1 rfl (by intro e he; simp [arxivUrl1, he]; rfl), okBind]
  have hg : lookForHdl (articleEl pre J vol year page :: more) = articleEl pre J vol year page :: more := by
    rw [lookForHdl, hdlGo_none hh]; rfl
  simp only [hg]
  rw [step hdlUrl1 rfl (by intro e he; simp [hdlUrl1, he]; rfl), okBind]
  rfl

omit [UnicodeDB] in
theorem contains_none {s y : Str} (h : ¬ y <:+: s) : contains s y = false := by
  cases hc : contains s y with
  | false => rfl
  | true =>
    unfold contains at hc
    obtain ⟨u, v, e⟩ := find_isSome_iff.1 hc
    exact absurd ⟨u, v, e.symm⟩ h

/-- The year of a citation. -/
def yearEl (year : Str) : El := { ty := .year, misc := [], year := some (some year) }

theorem post_article {special : List Str} {books : Books} {pre J vol year page tail : Str} (h : ArticleOk special J vol)
    (hp : finditer Rx.re_hdl pre = []) (ht : finditer Rx.re_hdl tail = []) (hs : ';' ∉ pre) (hs' : ';' ∉ tail)
    (hy : year ≠ []) (h1 : ¬ year <:+: pre) (h2 : ¬ year <:+: tail) :
    postProcess special books none [articleEl pre J vol year page] = .ok [[articleEl pre J vol year page, yearEl year]] ∧
    postProcess special books none [articleEl pre J vol year page, { ty := .misc, misc := tail }] =
      .ok [[articleEl pre J vol year page, { ty := .misc, misc := tail }, yearEl year]] := by
  cases year with
  | nil => exact absurd rfl hy
  | cons y0 year =>
  have c1 := contains_none h1
  have c2 := contains_none h2
  have c3 : contains [] (y0 :: year) = false := rfl
  constructor
  · unfold postProcess
    rw [transform_article h (by simp) (by simpa [articleEl] using hp), okBind]
    have e1 : splitCitations [articleEl pre J vol (y0 :: year) page] = [[⟨0, articleEl pre J vol (y0 :: year) page⟩]] := by
      simp [splitCitations, number, splitGo, splitNeeded, articleEl, hs, splitAppend, insertPostponed]
    simp only [e1]
    simp [enrich, impliedIbids, ibidStep, eachCit, addYear, citationYear, firstDated, heapOf, Heap.els, Heap.get, Heap.alloc, removeYearLoop, articleEl,
      okBind, getKey, c1, c3, pure, Except.pure, undetectedBooks, isUnknown, dedupe, dupAuthorsCit, dupAuthors, dupDoisCit, dupDois, dupCollabsCit, dupCollabs,
      addRecid, hasRecid, yearEl, bind, Except.bind]
  · unfold postProcess
    rw [transform_article h (by simp) (by simpa [articleEl] using ⟨hp, ht⟩), okBind]
    have e1 : splitCitations [articleEl pre J vol (y0 :: year) page, { ty := .misc, misc := tail }] =
        [[⟨0, articleEl pre J vol (y0 :: year) page⟩, ⟨1, { ty := .misc, misc := tail }⟩]] := by
      simp [splitCitations, number, splitGo, splitNeeded, articleEl, hs, hs', splitAppend, insertPostponed, typeKey, repeatable]
    simp only [e1]
    simp [enrich, impliedIbids, ibidStep, eachCit, addYear, citationYear, firstDated, heapOf, Heap.els, Heap.get, Heap.alloc, removeYearLoop, articleEl,
      okBind, getKey, c1, c2, c3, pure, Except.pure, undetectedBooks, isUnknown, dedupe, dupAuthorsCit, dupAuthors, dupDoisCit, dupDois, dupCollabsCit, dupCollabs,
      addRecid, hasRecid, yearEl, bind, Except.bind]

end Py
