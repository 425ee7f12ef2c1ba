import Verif.Lemmas.ArticleDoi
import Verif.Lemmas.Arxiv4

/-!
# Helper lemmas: an article with its DOI, from the elements to the reference
-/

namespace Py
open Spec
open scoped List

variable [UnicodeDB]

/-- What happens to the element behind the article. -/
structure Goes (special : List Str) (e e1 e2 : El) : Prop where
  s1 : splitVolume1 e = .ok e
  s2 : formatVolume1 e = .ok e
  s3 : specialJournal1 special e = .ok e
  s4 : formatReportNumber1 e = .ok e1
  s5 : formatAuthorEd1 e1 = .ok e1
  s6 : formatHepEl e1 = .ok e2
  s7 : removeB1 e2 = .ok e2
  s8 : mangleVolume1 e2 = .ok e2
  s9 : arxivUrl1 e2 = .ok e2
  s10 : hdlUrl1 e2 = .ok e2
  q1 : e1.ty ≠ .quoted

theorem transform_with {special : List Str} {books : Books} {pre J vol year page : Str} {e e1 e2 : El} (h : ArticleOk special J vol) (hg : Goes special e e1 e2) {ts : List Str}
    (hh : ∀ s ∈ pre :: e2.misc :: ts, finditer Rx.re_hdl s = []) :
    transformElements special books none (articleEl pre J vol year page :: e :: ts.map textEl) = .ok (articleEl pre J vol year page :: e2 :: ts.map textEl) := by
  have step : ∀ (f : El → Py El) {e e' : El}, f (articleEl pre J vol year page) = .ok (articleEl pre J vol year page) → f e = .ok e' → (∀ t, f (textEl t) = .ok (textEl t)) →
      eachEl f (articleEl pre J vol year page :: e :: ts.map textEl) = .ok (articleEl pre J vol year page :: e' :: ts.map textEl) := by
    intro f e e' h1 h2 h3
    have h4 : eachEl f (ts.map textEl) = .ok (ts.map textEl) := eachEl_same fun x hx => by
      obtain ⟨t, -, rfl⟩ := List.mem_map.1 hx
      exact h3 t
    rw [eachEl, h1, okBind, eachEl, h2, okBind, h4, okBind]
    rfl
  have hr : rsplit1 ';' J = none := rsplit1_absent h.noSemi
  unfold transformElements
  rw [step splitVolume1 (by simp [splitVolume1, articleEl, getKey, hr, okBind]; rfl) hg.s1 (fun _ => rfl), okBind]
  rw [step formatVolume1 (by simp [formatVolume1, articleEl, getStr, okBind, h.roman]; rfl) hg.s2 (fun _ => rfl), okBind]
  rw [step (specialJournal1 special) (by simp [specialJournal1, articleEl, getKey, okBind, h.special]; rfl) hg.s3 (fun _ => rfl), okBind]
  rw [step formatReportNumber1 rfl hg.s4 (fun _ => rfl), okBind]
  rw [step formatAuthorEd1 rfl hg.s5 (fun _ => rfl), okBind]
  have hb : lookForBooks books (articleEl pre J vol year page :: e1 :: ts.map textEl) = .ok (articleEl pre J vol year page :: e1 :: ts.map textEl) := by
    unfold lookForBooks
    have : (articleEl pre J vol year page :: e1 :: ts.map textEl).find? (·.ty = .quoted) = none := by
      rw [List.find?_eq_none]
      intro x hx
      rcases List.mem_cons.1 hx with rfl | hx
      · simp [articleEl]
      · rcases List.mem_cons.1 hx with rfl | hx
        · simpa using hg.q1
        · obtain ⟨t, -, rfl⟩ := List.mem_map.1 hx
          simp [textEl]
    rw [this]
  rw [hb, okBind]
  rw [step formatHepEl rfl hg.s6 (fun _ => rfl), okBind]
  rw [step removeB1 (by simp [removeB1, articleEl, getKey, okBind, h.suppl]; rfl) hg.s7 (fun _ => rfl), okBind]
  rw [step mangleVolume1 (by simp [mangleVolume1, articleEl, getStr, h.mangle, Functor.map, Except.map]) hg.s8 (fun _ => rfl), okBind]
  rw [step arxivUrl1 rfl hg.s9 (fun _ => rfl), okBind]
  have hdl : lookForHdl (articleEl pre J vol year page :: e2 :: ts.map textEl) = articleEl pre J vol year page :: e2 :: ts.map textEl := by
    rw [lookForHdl, hdlGo_none]
    · rfl
    · intro x hx
      rcases List.mem_cons.1 hx with rfl | hx
      · exact hh pre (by simp)
      · rcases List.mem_cons.1 hx with rfl | hx
        · exact hh _ (by simp)
        · obtain ⟨t, ht, rfl⟩ := List.mem_map.1 hx
          exact hh t (by simp [ht])
  simp only [hdl]
  rw [step hdlUrl1 rfl hg.s10 (fun _ => rfl), okBind]
  rfl

theorem post_with {special : List Str} {books : Books} {pre J vol year page tail : Str} {e e1 e2 : El} (h : ArticleOk special J vol) (hg : Goes special e e1 e2)
    {mid : Str} (he : (∃ d, e2 = doiEl mid d) ∨ ∃ i, e2 = arxivEl mid i)
    (hh : ∀ s ∈ [pre, mid, tail], finditer Rx.re_hdl s = []) (hs : ∀ s ∈ [pre, mid, tail], ';' ∉ s)
    (hy : year ≠ []) (hn : ∀ s ∈ [pre, mid, tail], ¬ year <:+: s) :
    postProcess special books none (articleEl pre J vol year page :: e :: (after tail).map textEl) =
      .ok [articleEl pre J vol year page :: e2 :: (after tail).map textEl ++ [yearEl year]] := by
  cases year with
  | nil => exact absurd rfl hy
  | cons y0 year =>
  have c1 := contains_none (hn pre (by simp))
  have c2 := contains_none (hn mid (by simp))
  have c4 := contains_none (hn tail (by simp))
  have c3 : contains [] (y0 :: year) = false := rfl
  have s1 := hs pre (by simp)
  have s2 := hs mid (by simp)
  have s3 := hs tail (by simp)
  unfold postProcess
  have hm : e2.misc = mid := by rcases he with ⟨x, rfl⟩ | ⟨x, rfl⟩ <;> rfl
  rw [transform_with h hg (by
    rw [hm]
    intro s hs
    refine hh s ?_
    unfold after at hs
    split at hs <;> simp at hs ⊢
    · exact hs
    · rcases hs with h | h <;> simp [h]), okBind]
  unfold after
  split
  · have e1 : splitCitations [articleEl pre J vol (y0 :: year) page, e2, textEl tail] =
        [[⟨0, articleEl pre J vol (y0 :: year) page⟩, ⟨1, e2⟩, ⟨2, textEl tail⟩]] := by
      rcases he with ⟨x, rfl⟩ | ⟨x, rfl⟩ <;>
      simp [splitCitations, number, splitGo, splitNeeded, articleEl, textEl, s1, s2, s3, splitAppend, insertPostponed, typeKey, repeatable, doiEl, arxivEl]
    simp only [List.map_singleton, e1]
    rcases he with ⟨x, rfl⟩ | ⟨x, rfl⟩ <;>
    simp [enrich, impliedIbids, ibidStep, eachCit, addYear, citationYear, firstDated, heapOf, Heap.els, Heap.get, Heap.alloc, removeYearLoop, articleEl, textEl,
      okBind, getKey, c1, c2, c3, c4, pure, Except.pure, undetectedBooks, isUnknown, dedupe, dupAuthorsCit, dupAuthors, dupDoisCit, dupDois, dupCollabsCit, dupCollabs,
      addRecid, hasRecid, yearEl, bind, Except.bind, doiEl, arxivEl]
  · have e1 : splitCitations [articleEl pre J vol (y0 :: year) page, e2] =
        [[⟨0, articleEl pre J vol (y0 :: year) page⟩, ⟨1, e2⟩]] := by
      rcases he with ⟨x, rfl⟩ | ⟨x, rfl⟩ <;>
      simp [splitCitations, number, splitGo, splitNeeded, articleEl, s1, s2, splitAppend, insertPostponed, typeKey, repeatable, doiEl, arxivEl]
    simp only [List.map_nil, e1]
    rcases he with ⟨x, rfl⟩ | ⟨x, rfl⟩ <;>
    simp [enrich, impliedIbids, ibidStep, eachCit, addYear, citationYear, firstDated, heapOf, Heap.els, Heap.get, Heap.alloc, removeYearLoop, articleEl,
      okBind, getKey, c1, c2, c3, pure, Except.pure, undetectedBooks, isUnknown, dedupe, dupAuthorsCit, dupAuthors, dupDoisCit, dupDois, dupCollabsCit, dupCollabs,
      addRecid, hasRecid, yearEl, bind, Except.bind, doiEl, arxivEl]

/-- The record of such a citation. -/
theorem build_with {n : Nat} {raw pre J vol year page tail : Str} {e : El} {mid : Str} {item : Str × Str} (hJ : J ≠ []) (hv : vol ≠ []) (hy : year ≠ []) (hp : page ≠ [])
    (hi : item.2 ≠ []) (he : ∀ f, ∃ f', addTyped defaultFormat f e = .ok f') (hm : e.misc = mid) (hem : ∀ j, emits e j = [(item.1, some item.2)]) (hsemi : ';' ∉ tail) :
    ∃ r, buildReferenceFields (articleEl pre J vol year page :: e :: (after tail).map textEl ++ [yearEl year]) (bracketed n) raw defaultFormat = .ok r ∧
      ∀ k, vals r k = under k ([(py! "linemarker", decimal n), (py! "raw_ref", raw)] ++ (reported pre ++ [(py! "journal_title", J), (py! "journal_volume", vol),
       (py! "journal_year", year), (py! "journal_page", page), (py! "journal_reference", J ++ py! " " ++ vol ++ py! " (" ++ year ++ py! ") " ++ page)] ++
       (reported mid ++ [item]) ++ reported tail ++ [(py! "year", year)])) := by
  have hjr : formatRef (articleEl pre J vol year page) defaultFormat = .ok (J ++ py! " " ++ vol ++ py! " (" ++ year ++ py! ") " ++ page) := by
    simp [formatRef, defaultFormat, fmtKey, articleEl, getKey, Val.show, bind, Except.bind, pure, Except.pure, Except.map]
  obtain ⟨r, hr⟩ : ∃ r, buildReferenceFields (articleEl pre J vol year page :: e :: (after tail).map textEl ++ [yearEl year]) (bracketed n) raw defaultFormat = .ok r := by
    refine build_some ?_ _
    intro x hx
    rw [List.mem_append, List.mem_cons, List.mem_cons, List.mem_singleton] at hx
    rcases hx with (rfl | rfl | hx) | rfl
    · intro f
      unfold addTyped addJournalSubfield
      dsimp only [articleEl]
      have := hjr
      unfold articleEl at this
      rw [this, okBind]
      exact ⟨_, rfl⟩
    · exact he
    · obtain ⟨u, -, rfl⟩ := List.mem_map.1 hx
      exact fun f => ⟨_, rfl⟩
    · exact fun f => ⟨_, rfl⟩
  refine ⟨r, hr, fun k => ?_⟩
  rw [build_table (table := reported pre ++ [(py! "journal_title", J), (py! "journal_volume", vol), (py! "journal_year", year), (py! "journal_page", page),
       (py! "journal_reference", J ++ py! " " ++ vol ++ py! " (" ++ year ++ py! ") " ++ page)] ++ (reported mid ++ [item]) ++ reported tail ++ [(py! "year", year)]) hr]
  · have j1 : jrefOf defaultFormat (articleEl pre J vol year page) = J ++ py! " " ++ vol ++ py! " (" ++ year ++ py! ") " ++ page := by
      unfold jrefOf
      rw [hjr]
    have m1 : elEmits defaultFormat (articleEl pre J vol year page) = (reported pre ++ [(py! "journal_title", J), (py! "journal_volume", vol),
        (py! "journal_year", year), (py! "journal_page", page),
        (py! "journal_reference", J ++ py! " " ++ vol ++ py! " (" ++ year ++ py! ") " ++ page)]).map fun p => (p.1, some p.2) := by
      rw [elEmits, j1, List.map_append, ← miscEmit_eq]
      rfl
    have m2 : elEmits defaultFormat (yearEl year) = [(py! "year", some year)] := rfl
    have m4 : elEmits defaultFormat e = (reported mid ++ [item]).map fun p => (p.1, some p.2) := by
      rw [elEmits, hem, List.map_append, ← miscEmit_eq, hm]
      rfl
    have m3 : ((after tail).map textEl).flatMap (elEmits defaultFormat) = (reported tail).map fun p => (p.1, some p.2) := by
      unfold after
      split
      · rw [List.map_singleton, List.flatMap_singleton, elEmits, ← miscEmit_eq]
        exact List.append_nil _
      · next h => rw [reported_stops h hsemi]; rfl
    rw [List.cons_append, List.cons_append, List.flatMap_cons, List.flatMap_cons, List.flatMap_append, m1, m3, m4, List.flatMap_singleton, m2]
    simp
  · intro q hq
    simp only [List.mem_append] at hq
    rcases hq with (((hq | hq) | hq | hq) | hq) | hq
    · exact reported_ne _ q hq
    · simp only [List.mem_cons, List.not_mem_nil, or_false] at hq
      rcases hq with rfl | rfl | rfl | rfl | rfl
      · exact hJ
      · exact hv
      · exact hy
      · exact hp
      · simp
    · exact reported_ne _ q hq
    · rw [List.mem_singleton.1 hq]; exact hi
    · exact reported_ne _ q hq
    · rw [List.mem_singleton] at hq
      subst hq
      exact hy

/-- The checks on the journal and the volume. -/
theorem article_ok {kbs : Kbs} {K J w : Str} {t : Told} (hj : KnownJournal kbs K J) (hw : Written w t) : ArticleOk kbs.special J t.vol := by
  obtain ⟨hv1, hv2⟩ := vol_chars hw
  obtain ⟨hs, hvd, -, -⟩ := written_parts hw
  refine ⟨hj.plain.2.1, hj.special.1, hj.special.2, ?_, ?_⟩
  · exact barren_reMatch (A := py! "0123456789ABCDEFGH") (by decide) (by decide +kernel) hv2
  · apply mangle_same
    rcases hs with h | ⟨x, hx, h⟩
    · left; simpa [Told.vol, h] using hvd
    · right; exact ⟨x, t.volume, hx, by simp [Told.vol, h]⟩

/-- A line of calm characters, slashes behind words and single blanks is not repaired. -/
theorem repair_of {undesirable : Str → Str} {s : Str} (hall : ∀ c ∈ s, c ∈ calmChars ++ py! "/_") (hsl : SlashesBehindWords s) (htidy : ¬ py! "  " <:+: s)
    (hw : undesirable s = s) : washRepair undesirable s = s := by
  have hA : ∀ c ∈ calmChars ++ py! "/_", isAscii c = true := by decide
  have w1 : isWord ' ' = false := rfl
  have w2 : isWord ':' = false := rfl
  have e1 : repairUrls s = s := by
    refine secure_repair hA hall ?_ ?_ (by decide +kernel)
    · rintro ⟨u, v, e⟩
      obtain ⟨u', c, h3, h4⟩ := hsl (u ++ [' ']) v (by rw [← e]; simp)
      have : c = ' ' := by simpa using (congrArg List.getLast? h3).symm
      rw [this, w1] at h4
      cases h4
    · rintro d ⟨u, v, e⟩
      exfalso
      obtain ⟨u', c, h3, h4⟩ := hsl (u ++ [d, ':']) v (by rw [← e]; simp)
      have : c = ':' := by simpa using (congrArg List.getLast? h3).symm
      rw [this, w2] at h4
      cases h4
  have e2 : finditer Rx.quoted_comma s = [] := by
    refine few_finditer (c := '"') hA hall ?_
    rw [List.count_eq_zero.2 fun hm => absurd (hall _ hm) (by decide)]
    decide +kernel
  have e3 : finditer Rx.re_multiple_space s = [] :=
    tidy_finditer (fun c hc hs => (by decide : ∀ c ∈ calmChars ++ py! "/_", isSpace c = true → c = ' ') c (hall c hc) hs) htidy
  unfold washRepair
  simp only [e1, hw, sub_of_no_match e2, sub_of_no_match e3]

/-- The DOI of the line as an item. -/
abbrev theDoi (front dw d : Str) : List DoiItem := [⟨front, dw, d⟩]

theorem _root_.Spec.ArticleDoiLine.plain {n : Nat} {pre b p lead w mid dw d tail : Str} {t : Told} (h : ArticleDoiLine n pre b p lead w mid dw d tail t) :
    ∀ x ∈ theDoi (articleText pre b p lead w mid) dw d, PlainDoi x := by
  intro x hx
  rw [List.mem_singleton.1 hx]
  exact ⟨h.word, h.doi, h.chars, h.slash⟩

theorem _root_.Spec.ArticleDoiLine.calm {n : Nat} {pre b p lead w mid dw d tail : Str} {t : Told} (h : ArticleDoiLine n pre b p lead w mid dw d tail t) :
    ∀ x ∈ theDoi (articleText pre b p lead w mid) dw d, Calm x.pre := by
  intro x hx
  rw [List.mem_singleton.1 hx]
  exact h.article.front

theorem _root_.Spec.ArticleDoiLine.apart {n : Nat} {pre b p lead w mid dw d tail : Str} {t : Told} (h : ArticleDoiLine n pre b p lead w mid dw d tail t) :
    Apart (theDoi (articleText pre b p lead w mid) dw d) tail := ⟨h.only, h.ends, trivial⟩

omit [UnicodeDB] in
theorem doi_written (front dw d tail : Str) : inLine ((theDoi front dw d).map DoiItem.written) tail = front ++ (dw ++ d) ++ tail := by
  simp [inLine, DoiItem.written]

omit [UnicodeDB] in
theorem doi_marked (front dw d tail : Str) : inLine (marked (theDoi front dw d)) tail = front ++ doiMark ++ tail := by
  simp [inLine, marked]

theorem _root_.Spec.ArticleDoiLine.all {n : Nat} {pre b p lead w mid dw d tail : Str} {t : Told} (h : ArticleDoiLine n pre b p lead w mid dw d tail t) :
    ∀ c ∈ bracketed n ++ ' ' :: articleDoiText pre b p lead w mid dw d tail, c ∈ calmChars ++ py! "/_" := by
  intro c hc
  rw [List.mem_append, List.mem_cons, articleDoiText, List.mem_append, List.mem_append] at hc
  rcases hc with hc | rfl | (hc | hc) | hc
  · exact (by decide : ∀ c ∈ py! "[]0123456789", c ∈ calmChars ++ py! "/_") c (bracketed_chars n c hc)
  · decide
  · exact List.mem_append_left _ (h.article.front.chars c hc)
  · exact h.chars c hc
  · exact List.mem_append_left _ (h.back.chars c hc)

theorem _root_.Spec.ArticleDoiLine.repair {undesirable : Str → Str} {n : Nat} {pre b p lead w mid dw d tail : Str} {t : Told}
    (h : ArticleDoiLine n pre b p lead w mid dw d tail t)
    (hw : undesirable (bracketed n ++ ' ' :: articleDoiText pre b p lead w mid dw d tail) = bracketed n ++ ' ' :: articleDoiText pre b p lead w mid dw d tail) :
    washRepair undesirable (bracketed n ++ ' ' :: articleDoiText pre b p lead w mid dw d tail) = bracketed n ++ ' ' :: articleDoiText pre b p lead w mid dw d tail := by
  refine repair_of h.all ?_ h.tidy hw
  have shape : bracketed n ++ ' ' :: articleDoiText pre b p lead w mid dw d tail = (bracketed n ++ [' ']) ++
      inLine ((theDoi (articleText pre b p lead w mid) dw d).map DoiItem.written) tail := by
    rw [doi_written, articleDoiText]; simp
  rw [shape]
  refine slashes_append (slashes_none ?_) (slashes_line h.back fun x hx => ⟨h.plain x hx, h.calm x hx⟩)
  intro hm
  rcases List.mem_append.1 hm with hm | hm
  · exact absurd (bracketed_chars n _ hm) (by decide)
  · exact absurd hm (by decide)

/-- From the line to the elements. -/
theorem parse_with_doi {lib : Lib} {kbs : Kbs} {n : Nat} {pre b p lead w mid dw d tail K J : Str} {t : Told} (hl : ArticleDoiLine n pre b p lead w mid dw d tail t)
    (hK : reading b = K) (hj : KnownJournal kbs K J) (ho : NothingFurther kbs.tag K pre b [(p ++ (lead ++ w ++ mid), doiMark)] tail)
    (hc : NoCollaborations kbs.tag pre [(mid, doiMark)] tail)
    (hd : ∀ s, '%' ∉ s → lib.unquote s = s) (hu : ∀ s, (∀ c ∈ s, isAscii c = true) → lib.unidecode s = s) :
    ∃ count, parseReferenceLine lib kbs none (bracketed n ++ ' ' :: articleDoiText pre b p lead w mid dw d tail) [] =
      .ok ([articleEl pre J t.vol t.year t.pages :: doiEl mid d :: (after tail).map textEl ++ [yearEl t.year]], bracketed n,
        { misc := if LeftOver tail then 1 else 0, title := 1, doi := 1 }, count) := by
  have hclean := (clean_list hl.back hl.calm).1
  have hdois := dois_list hd hl.back hl.plain hl.apart
  have hq : TokensOk [(mid, doiMark)] tail := by
    refine ⟨?_, ?_, ?_, ?_, fun c hc => hl.quiet c (by simp [hc])⟩ <;> intro q hq <;> rw [List.mem_singleton.1 hq]
    · exact fun c hc => hl.quiet c (List.mem_append_left _ hc)
    · exact .inr ⟨py! "DOI", rfl, by decide, by decide⟩
    · exact passes_doi
    · exact (by decide : ∀ c ∈ doiMark, isAscii c = true ∧ c ≠ '\n')
  obtain ⟨count, htag⟩ := tag_marked (l0 := inLine (marked (theDoi (articleText pre b p lead w mid) dw d)) tail) hl.article hq hK hj ho hc hu (clean_fixed lib hclean)
  rw [doi_marked] at hclean hdois htag
  rw [doi_written] at hdois
  have hns : NoSpaceFirst (articleDoiText pre b p lead w mid dw d tail) := by
    intro c hc
    cases hs : isSpace c with
    | false => rfl
    | true =>
      exfalso
      have hcc : c = ' ' := (by decide : ∀ c ∈ calmChars ++ py! "/_", isSpace c = true → c = ' ') c
        (hl.all c (List.mem_append_right _ (List.mem_cons_of_mem _ (List.mem_of_head? hc)))) hs
      subst hcc
      have htidy := hl.tidy
      generalize articleDoiText pre b p lead w mid dw d tail = s at hc htidy
      cases s with
      | nil => cases hc
      | cons e r => cases hc; exact htidy ⟨bracketed n, r, by simp⟩
  obtain ⟨hv1, hv2⟩ := vol_chars hl.article.num
  obtain ⟨hp1, hp2⟩ := pages_chars hl.article.num
  obtain ⟨hy1, hy2⟩ := year_chars (written_parts hl.article.num).2.2.1
  have q : ∀ s ∈ [pre, mid, tail], ∀ c ∈ s, c ∈ quietChars := by
    intro s hs c hm
    simp only [List.mem_cons, List.not_mem_nil, or_false] at hs
    rcases hs with hs | hs | hs
    · exact hl.article.quiet c (hs ▸ hm)
    · exact hl.quiet c (List.mem_append_left _ (hs ▸ hm))
    · exact hl.quiet c (List.mem_append_right _ (hs ▸ hm))
  have nt : ∀ s ∈ [pre, mid, tail], NoTags s := fun s hs => noTags_of fun h => absurd (q s hs _ h) (by decide)
  have hparse := Props.C19 (toks := [(pre, .journal false J none t.vol (some t.year) t.pages), (mid, .doi d)]) (last := tail)
    (by
      intro q hq
      rcases List.mem_cons.1 hq with rfl | hq
      · refine ⟨nt _ (by simp), ?_, by simp, ⟨hv1, fun h => absurd (hv2 _ h) (by decide)⟩, ?_, hp1, fun h => absurd (hp2 _ h) (by decide)⟩
        · intro hi
          exact hj.plain.2.2.1 (hi.subset (by simp))
        · rintro y ⟨⟩
          exact ⟨hy1, fun h => absurd (hy2 _ h) (by decide)⟩
      · rw [List.mem_singleton.1 hq]
        exact ⟨nt _ (by simp), trivial⟩)
    (nt _ (by simp)) [] []
  have e1 : renderLine [(pre, .journal false J none t.vol (some t.year) t.pages), (mid, .doi d)] tail = article pre J t.vol t.year t.pages (inLine [(mid, doiMark)] tail) := by
    rw [article_render]
    simp [renderLine, Item.render, inLine]
  have e2 : lineEls [(pre, .journal false J none t.vol (some t.year) t.pages), (mid, .doi d)] tail =
      articleEl pre J t.vol t.year t.pages :: doiEl mid d :: (after tail).map textEl := by
    unfold lineEls after
    split <;> rfl
  rw [e1, e2] at hparse
  have hparse' : parseTagged (article pre J t.vol t.year t.pages (inLine [(mid, doiMark)] tail)) [d] [] = .ok
      (articleEl pre J t.vol t.year t.pages :: doiEl mid d :: (after tail).map textEl, { misc := if LeftOver tail then 1 else 0, title := 1, doi := 1 }) := by
    refine Eq.trans (by simpa [Item.dois, Item.urls] using hparse) ?_
    unfold after
    by_cases h : LeftOver tail <;> simp [h, howMany, articleEl, doiEl, textEl]
  have hpost := post_with (books := kbs.books) (pre := pre) (tail := tail) (e := doiEl mid d) (year := t.year) (page := t.pages) (article_ok hj hl.article.num)
    (Goes.mk rfl rfl rfl rfl rfl rfl rfl rfl rfl rfl (fun h => by cases h)) (.inl ⟨_, rfl⟩)
    (fun s hs => barren_finditer (A := quietChars) (by decide) (by decide +kernel) (q s hs)) (fun s hs h => absurd (q s hs _ h) (by decide)) hy1
    (by
      intro s hs
      simp only [List.mem_cons, List.not_mem_nil, or_false] at hs
      rcases hs with rfl | rfl | rfl
      · exact hl.year.1
      · exact hl.year.2.1
      · exact hl.year.2.2)
  refine ⟨count, ?_⟩
  unfold parseReferenceLine
  rw [removeMarker_numbered n hns]
  dsimp only
  have hx : articleDoiText pre b p lead w mid dw d tail = articleText pre b p lead w mid ++ (dw ++ d) ++ tail := rfl
  rw [hx, hdois]
  dsimp only
  rw [clean_urls hclean]
  dsimp only
  rw [htag, okBind]
  dsimp only
  have hdd : (theDoi (articleText pre b p lead w mid) dw d).map (·.doi) = [d] := rfl
  rw [hdd, hparse', okBind]
  dsimp only
  rw [hpost, okBind]
  rfl

theorem references_with_doi {undesirable : Str → Str} {lib : Lib} {kbs : Kbs} {n : Nat} {pre b p lead w mid dw d tail K J : Str} {t : Told}
    (hl : ArticleDoiLine n pre b p lead w mid dw d tail t)
    (hK : reading b = K) (hj : KnownJournal kbs K J) (ho : NothingFurther kbs.tag K pre b [(p ++ (lead ++ w ++ mid), doiMark)] tail)
    (hc : NoCollaborations kbs.tag pre [(mid, doiMark)] tail)
    (hd : ∀ s, '%' ∉ s → lib.unquote s = s) (hu : ∀ s, (∀ c ∈ s, isAscii c = true) → lib.unidecode s = s)
    (hw : undesirable (bracketed n ++ ' ' :: articleDoiText pre b p lead w mid dw d tail) = bracketed n ++ ' ' :: articleDoiText pre b p lead w mid dw d tail) :
    ∃ r, parseReferences undesirable lib kbs defaultFormat none [bracketed n ++ ' ' :: articleDoiText pre b p lead w mid dw d tail] =
        .ok ([r], [0, 0, 1, 0, 0, 1, if LeftOver tail then 1 else 0]) ∧
      ∀ k, vals r k = under k (articleWithRecord n (bracketed n ++ ' ' :: articleDoiText pre b p lead w mid dw d tail) pre J mid (py! "doi", py! "doi:" ++ d) tail t) := by
  obtain ⟨count, hp⟩ := parse_with_doi hl hK hj ho hc hd hu
  have hrep := hl.repair hw
  generalize hraw : bracketed n ++ ' ' :: articleDoiText pre b p lead w mid dw d tail = raw at *
  obtain ⟨r, hr, hv⟩ := build_with (n := n) (raw := raw) (pre := pre) (tail := tail) (e := doiEl mid d) (mid := mid) (item := (py! "doi", py! "doi:" ++ d)) hj.plain.1
    (vol_chars hl.article.num).1 (year_chars (written_parts hl.article.num).2.2.1).1 (pages_chars hl.article.num).1 (by simp) (fun f => ⟨_, rfl⟩) rfl (fun j => rfl)
    (fun h => absurd (hl.quiet ';' (by simp [h])) (by decide))
  exact ⟨r, references_many hrep hp (.cons hr .nil), fun k => by rw [hv k]; simp [articleWithRecord]⟩

end Py
