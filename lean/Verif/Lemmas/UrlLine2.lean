import Verif.Lemmas.UrlLine

/-!
# Helper lemmas: from a line with a URL to the reference
-/

namespace Py
open Spec
open scoped List

variable [UnicodeDB]

/-- The element of a URL. -/
def urlEl (s r : Str) : El := { ty := .url, misc := s, urlString := some r, urlDesc := some r }

theorem transform_url {special : List Str} {books : Books} {s r : Str} {ts : List Str} (ha : ¬ py! "http://arxiv.org/abs/" <+: r) (hr : ¬ HdlHere r) (hs : finditer Rx.re_hdl s = []) (ht : ∀ t ∈ ts, finditer Rx.re_hdl t = []) :
    transformElements special books none (urlEl s r :: ts.map textEl) = .ok (urlEl s r :: ts.map textEl) := by
  have keep : ∀ (f : El → Py El), (∀ t, f (textEl t) = .ok (textEl t)) → eachEl f (ts.map textEl) = .ok (ts.map textEl) := by
    intro f h
    refine eachEl_same fun e he => ?_
    obtain ⟨t, -, rfl⟩ := List.mem_map.1 he
    exact h t
  have step : ∀ (f : El → Py El), f (urlEl s r) = .ok (urlEl s r) → (∀ t, f (textEl t) = .ok (textEl t)) →
      eachEl f (urlEl s r :: ts.map textEl) = .ok (urlEl s r :: ts.map textEl) := by
    intro f h1 h2
    rw [eachEl, h1, okBind, keep f h2, okBind]
    rfl
  have e1 : arxivUrl1 (urlEl s r) = .ok (urlEl s r) := by
    have h1 : startsWith r (py! "http://arxiv.org/abs/") = false := by
      rw [← Bool.not_eq_true]
      intro h
      exact ha (List.isPrefixOf_iff_prefix.1 h)
    show (if startsWith r (py! "http://arxiv.org/abs/") then _ else _) = _
    rw [h1]
    rfl
  have e2 : hdlUrl1 (urlEl s r) = .ok (urlEl s r) := by
    have h1 : reMatch Rx.re_hdl r = none := hdl_none.2 hr
    show (match reMatch Rx.re_hdl r with | some m => _ | none => _) = _
    rw [h1]
    rfl
  unfold transformElements
  rw [step splitVolume1 rfl (fun _ => rfl), okBind, step formatVolume1 rfl (fun _ => rfl), okBind, step (specialJournal1 special) rfl (fun _ => rfl), okBind,
    step formatReportNumber1 rfl (fun _ => rfl), okBind, step formatAuthorEd1 rfl (fun _ => rfl), okBind]
  have hb : lookForBooks books (urlEl s r :: ts.map textEl) = .ok (urlEl s r :: ts.map textEl) := by
    unfold lookForBooks
    have : (urlEl s r :: ts.map textEl).find? (·.ty = .quoted) = none := by
      rw [List.find?_eq_none]
      intro e he
      rcases List.mem_cons.1 he with rfl | he
      · simp [urlEl]
      · obtain ⟨t, -, rfl⟩ := List.mem_map.1 he
        simp [textEl]
    rw [this]
  rw [hb, okBind, step formatHepEl rfl (fun _ => rfl), okBind, step removeB1 rfl (fun _ => rfl), okBind,
    step mangleVolume1 rfl (fun _ => rfl), okBind, step arxivUrl1 e1 (fun _ => rfl), okBind]
  have hg : lookForHdl (urlEl s r :: ts.map textEl) = urlEl s r :: ts.map textEl := by
    rw [lookForHdl, hdlGo_none]
    · rfl
    · intro e he
      rcases List.mem_cons.1 he with rfl | he
      · exact hs
      · obtain ⟨t, h, rfl⟩ := List.mem_map.1 he
        exact ht t h
  simp only [hg]
  rw [step hdlUrl1 e2 (fun _ => rfl), okBind]
  rfl


theorem noDoi_finditer {s : Str} (h : ∀ x d, x <:+: s → ¬ CitesDoi x d) : finditer Rx.re_doi s = [] := by
  have key : ∀ {pre t : Str} {ps : List Piece}, Scanned Rx.re_doi pre t ps → t <:+: s → ps.filterMap Piece.match? = [] := by
    intro pre t ps hs
    induction hs with
    | nil => intro _; rfl
    | @ch pre c t ps hn _ ih =>
      intro hi
      rw [List.filterMap_cons]
      exact ih ((List.suffix_cons c t).isInfix.trans hi)
    | @hit pre t ps m hm _ _ ih =>
      intro hi
      obtain ⟨lead, raw, d, r, e1, -, e2, e3, -⟩ := match_doi_longest hm
      exact absurd ⟨lead, raw, e1, e2, e3⟩ (h m.txt d ((List.prefix_append _ _).isInfix.trans hi))
  exact key (scan_scanned' doi_minLen s) (List.infix_refl s)

/-- From the line to the reference. -/
theorem references_url {undesirable : Str → Str} {lib : Lib} {kbs : Kbs} {fmt : List FmtPart} {n : Nat} {pre w tail x : Str} (hl : UrlLine n pre w tail x)
    (ho : NothingAround kbs.tag pre urlMark tail)
    (hb : ∀ q ∈ kbs.books, ∀ u v y, YearOfTwo pre tail u v y → ¬ alnums (upper q.1) <:+: alnums (upper u) ∧ ¬ alnums (upper q.1) <:+: alnums (upper v))
    (hu : ∀ s, (∀ c ∈ s, isAscii c = true) → lib.unidecode s = s)
    (hw : undesirable (bracketed n ++ ' ' :: (pre ++ w ++ tail)) = bracketed n ++ ' ' :: (pre ++ w ++ tail)) :
    ∃ r u v y, parseReferences undesirable lib kbs fmt none [bracketed n ++ ' ' :: (pre ++ w ++ tail)] =
        .ok ([r], [0, 0, 0, 0, 1, 0, if LeftOver tail then 1 else 0]) ∧ YearOfTwo pre tail u v y ∧
      ∀ k, vals r k = under k (loneRecord n (bracketed n ++ ' ' :: (pre ++ w ++ tail)) u [(py! "url", x)] v y) := by
  have hpre : Calm pre := calm_suffix (a := bracketed n ++ [' ']) (by simpa using hl.front)
  have hA : ∀ c ∈ calmChars ++ py! "/_?=&%~", isAscii c = true := by decide
  have hall : ∀ c ∈ bracketed n ++ ' ' :: (pre ++ w ++ tail), c ∈ calmChars ++ py! "/_?=&%~" := by
    intro c hc
    have shape : bracketed n ++ ' ' :: (pre ++ w ++ tail) = (bracketed n ++ ' ' :: pre) ++ w ++ tail := by simp
    rw [shape, List.mem_append, List.mem_append] at hc
    rcases hc with (hc | hc) | hc
    · exact List.mem_append_left _ (hl.front.chars c hc)
    · exact hl.chars c hc
    · exact List.mem_append_left _ (hl.back.chars c hc)
  have hclean : CleanText (pre ++ urlMark ++ tail) := clean_mark (n := py! "cds.URL") hpre
    ⟨by decide, by decide +kernel, by decide +kernel, by
      intro x hx hlen
      cases x with
      | nil => cases hlen
      | cons c x => exact ⟨c, by simp, (by decide : ∀ c ∈ py! "cds.URL" ++ [' '], c ∉ py! "0123456789") c (hx.subset (by simp))⟩, by decide +kernel⟩ hl.back
  have q1 : ∀ c ∈ pre, c ∈ quietChars := fun c hc => hl.quiet c (by simp [hc])
  have q2 : ∀ c ∈ tail, c ∈ quietChars := fun c hc => hl.quiet c (by simp [hc])
  have hdois : tagDois lib (pre ++ w ++ tail) = (pre ++ w ++ tail, []) := by
    rw [tagDois_eq, sub_of_no_match (noDoi_finditer hl.noDoi), noDoi_finditer hl.noDoi]
    rfl
  have hurls := urls_secure hpre.chars hl.url hl.back.chars hl.last hl.stop hl.chars
  have htag := tag_token (lib := lib) (kbs := kbs.tag) (l0 := pre ++ urlMark ++ tail) (clean_fixed lib hclean) hpre.chars hl.back.chars hl.quiet
    (.inr ⟨py! "URL", rfl, by decide, by decide⟩) (by decide) ho hu
  have hh : ∀ {s : Str}, (∀ c ∈ s, c ∈ quietChars) → finditer Rx.re_hdl s = [] := fun h =>
    barren_finditer (A := quietChars) (by decide) (by decide +kernel) h
  have hparse := Props.C19 (toks := [(pre, .url x x)]) (last := tail)
    (by
      intro q hq
      rw [List.mem_singleton] at hq
      subst hq
      exact ⟨noTags_of fun h => absurd (q1 _ h) (by decide), trivial⟩)
    (noTags_of fun h => absurd (q2 _ h) (by decide)) [] []
  have hels : lineEls [(pre, Item.url x x)] tail = urlEl pre x :: (after tail).map textEl := by
    unfold lineEls after
    split <;> rfl
  rw [hels] at hparse
  have hparse' : parseTagged (pre ++ urlMark ++ tail) [] [(x, x)] = .ok
      (urlEl pre x :: (after tail).map textEl, { misc := if LeftOver tail then 1 else 0, url := 1 }) := by
    refine Eq.trans (by simpa [Item.dois, Item.urls, renderLine, Item.render] using hparse) ?_
    unfold after
    by_cases h : LeftOver tail <;> simp [h, howMany, urlEl, textEl]
  have hx : py! "https://" <+: w := by
    obtain ⟨host, segs, sl, rfl, -⟩ := hl.url
    exact ⟨host ++ segs.flatMap ('/' :: ·) ++ sl, by simp⟩
  have hx' : py! "https" <+: x := by
    rcases hl.stop with e | ⟨e, -⟩
    · obtain ⟨t, ht⟩ := hx
      rcases List.eq_nil_or_concat t with rfl | ⟨t', c, rfl⟩
      · rw [e] at ht
        exact absurd (congrArg List.getLast? ht) (by simp)
      · rw [e, List.concat_eq_append, ← List.append_assoc] at ht
        exact ⟨py! "://" ++ t', by rw [← List.append_inj_left' ht rfl]; simp⟩
    · rw [← e]; exact List.IsPrefix.trans ⟨_, rfl⟩ hx
  have htr := transform_url (special := kbs.special) (books := kbs.books) (r := x) (ts := after tail)
    (by
      intro h
      obtain ⟨t, rfl⟩ := hx'
      obtain ⟨t', ht'⟩ := h
      simp at ht') hl.noHandle (hh q1) fun t ht => by
    unfold after at ht
    split at ht
    · rw [List.mem_singleton.1 ht]; exact hh q2
    · cases ht
  have hrep : washRepair undesirable (bracketed n ++ ' ' :: (pre ++ w ++ tail)) = bracketed n ++ ' ' :: (pre ++ w ++ tail) := by
    have htidy := hl.tidy
    have e1 : repairUrls (bracketed n ++ ' ' :: (pre ++ w ++ tail)) = bracketed n ++ ' ' :: (pre ++ w ++ tail) := by
      have := secure_line (a := bracketed n ++ ' ' :: pre) hl.front.chars hl.url hl.back.chars hl.chars
      simpa using this
    generalize bracketed n ++ ' ' :: (pre ++ w ++ tail) = s at *
    have e2 : finditer Rx.quoted_comma s = [] := by
      refine few_finditer (c := '"') hA hall ?_
      rw [List.count_eq_zero.2 fun hm => absurd (hall _ hm) (by decide)]
      decide +kernel
    have e3 : finditer Rx.re_multiple_space s = [] :=
      tidy_finditer (fun c hc hs => (by decide : ∀ c ∈ calmChars ++ py! "/_?=&%~", isSpace c = true → c = ' ') c (hall c hc) hs) htidy
    unfold washRepair
    simp only [e1, hw, sub_of_no_match e2, sub_of_no_match e3]
  have hfirst : NoSpaceFirst (pre ++ w ++ tail) := by
    intro c hc
    cases hs : isSpace c with
    | false => rfl
    | true =>
      exfalso
      have hcc : c = ' ' := (by decide : ∀ c ∈ calmChars ++ py! "/_?=&%~", isSpace c = true → c = ' ') c
        (hall c (List.mem_append_right _ (List.mem_cons_of_mem _ (List.mem_of_head? hc)))) hs
      subst hcc
      have htidy := hl.tidy
      generalize pre ++ w ++ tail = s at hc htidy
      cases s with
      | nil => cases hc
      | cons e r => cases hc; exact htidy ⟨bracketed n, r, by simp⟩
  exact references_lone (undesirable := undesirable) (lib := lib) (kbs := kbs) (fmt := fmt) (n := n)
    (raw := bracketed n ++ ' ' :: (pre ++ w ++ tail)) (s := pre) (t := tail)
    (els := urlEl pre x :: (after tail).map textEl) (count := [])
    (e := urlEl pre x) (c := { misc := if LeftOver tail then 1 else 0, url := 1 })
    (item := [(py! "url", x)]) hrep
    (by
      intro cs hcs
      unfold parseReferenceLine
      rw [removeMarker_numbered n hfirst]
      dsimp only
      rw [hdois]
      dsimp only
      rw [hurls]
      dsimp only
      rw [htag, okBind]
      dsimp only
      rw [hparse', okBind]
      dsimp only
      rw [hcs, okBind]
      rfl)
    htr
    (by simp [urlEl, loneKinds]) rfl rfl (fun h => absurd (q1 _ h) (by decide)) (fun h => absurd (q2 _ h) (by decide)) (fun _ => hb)
    (fun m => by simp [emits, urlEl]) (by
      intro p hp
      rw [List.mem_singleton.1 hp]
      rintro rfl
      obtain ⟨t, ht⟩ := hx'
      cases ht) (fun m f => ⟨addSubfield f (py! "url") (some x), by
        show (if x = x then _ else _) = _
        rw [if_pos rfl]
        rfl⟩)

end Py
