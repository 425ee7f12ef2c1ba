import Verif.Lemmas.ArticleDoi2
import Verif.Spec.ArticleArxiv

/-!
# Helper lemmas: an article with its arXiv identifier
-/

namespace Py
open Spec
open scoped List

variable [UnicodeDB]

theorem passes_arxiv {i : Str} (h : '<' ∉ i) : Passes (tagged (py! "ARXIV") i) := by
  have shape : tagged (py! "ARXIV") i = ('<' :: (py! "cds.ARXIV") ++ ['>']) ++ (i ++ ('<' :: (py! "/cds.ARXIV") ++ ['>'])) := by simp [tagged]
  rw [shape]
  exact passes_append (passes_tag (by decide) (by rintro c rest ⟨v, e⟩; simp at e))
    (passes_append (passes_text h) (passes_tag (by decide) (by rintro c rest ⟨v, e⟩; simp at e)))

theorem _root_.Spec.ArticleArxivLine.all {n : Nat} {pre b p lead w mid a tail i : Str} {t : Told} (hl : ArticleArxivLine n pre b p lead w mid a tail i t) :
    ∀ c ∈ bracketed n ++ ' ' :: articleArxivText pre b p lead w mid a tail, c ∈ calmChars := by
  intro c hc
  have shape : bracketed n ++ ' ' :: articleArxivText pre b p lead w mid a tail = (bracketed n ++ ' ' :: articleText pre b p lead w mid) ++ a ++ tail := by
    simp [articleArxivText]
  rw [shape, List.mem_append, List.mem_append] at hc
  rcases hc with (hc | hc) | hc
  · exact hl.marker.chars c hc
  · exact hl.chars c hc
  · exact hl.back.chars c hc

theorem _root_.Spec.ArticleArxivLine.repair {n : Nat} {pre b p lead w mid a tail i : Str} {t : Told} (hl : ArticleArxivLine n pre b p lead w mid a tail i t)
    {undesirable : Str → Str}
    (hw : undesirable (bracketed n ++ ' ' :: articleArxivText pre b p lead w mid a tail) = bracketed n ++ ' ' :: articleArxivText pre b p lead w mid a tail) :
    washRepair undesirable (bracketed n ++ ' ' :: articleArxivText pre b p lead w mid a tail) = bracketed n ++ ' ' :: articleArxivText pre b p lead w mid a tail := by
  have hA : ∀ c ∈ calmChars, isAscii c = true := by decide
  have htidy := hl.tidy (py! "  ") (by simp)
  have hin := hl.all
  generalize bracketed n ++ ' ' :: articleArxivText pre b p lead w mid a tail = s at *
  have e1 : repairUrls s = s := few_repair hA hin (by
    rw [List.count_eq_zero.2 fun hm => absurd (hin _ hm) (by decide)]; exact Nat.zero_le _) (by decide +kernel)
  have e2 : finditer Rx.quoted_comma s = [] := by
    refine few_finditer (c := '"') hA hin ?_
    rw [List.count_eq_zero.2 fun hm => absurd (hin _ hm) (by decide)]
    decide +kernel
  have e3 : finditer Rx.re_multiple_space s = [] :=
    tidy_finditer (fun c hc hs => (by decide : ∀ c ∈ calmChars, isSpace c = true → c = ' ') c (hin c hc) hs) htidy
  unfold washRepair
  simp only [e1, hw, sub_of_no_match e2, sub_of_no_match e3]

/-- From the line to the elements. -/
theorem parse_with_arxiv {lib : Lib} {kbs : Kbs} {ys ys5 : List Str} (hy : lib.years = Re.alts (ys.map Re.str)) (hy5 : lib.years5 = Re.alts (ys5.map Re.str))
    (hys : ∀ y ∈ ys, Two y) (hys5 : ∀ y ∈ ys5, Two y) {n : Nat} {pre b p lead w mid a tail i K J : Str} {t : Told}
    (hl : ArticleArxivLine n pre b p lead w mid a tail i t) (hK : reading b = K) (hj : KnownJournal kbs K J)
    (ho : NothingFurther kbs.tag K pre b [(p ++ (lead ++ w ++ mid), tagged (py! "ARXIV") i)] tail)
    (hc : NoCollaborations kbs.tag pre [(mid, tagged (py! "ARXIV") i)] tail) (hu : ∀ s, (∀ c ∈ s, isAscii c = true) → lib.unidecode s = s) :
    i ≠ [] ∧ ∃ count, parseReferenceLine lib kbs none (bracketed n ++ ' ' :: articleArxivText pre b p lead w mid a tail) [] =
      .ok ([articleEl pre J t.vol t.year t.pages :: arxivEl mid i :: (after tail).map textEl ++ [yearEl t.year]], bracketed n,
        { misc := if LeftOver tail then 1 else 0, title := 1, reportnum := 1 }, count) := by
  have hfront := hl.article.front
  obtain ⟨hfix, yy, mm, num, cat, hid, rfl⟩ := fixed_cited hy hy5 hys hys5 hfront hl.back hl.chars hl.cited hl.words
    fun x hx hi => hl.tidy x hx (hi.trans ⟨bracketed n ++ [' '], [], by simp [articleArxivText]⟩)
  refine ⟨by simp [idText], ?_⟩
  have hA : ∀ c ∈ calmChars, isAscii c = true := by decide
  have hT : ClosedTag (tagged (py! "ARXIV") (idText yy mm num cat)) :=
    .inl ⟨py! "ARXIV", idText yy mm num cat, py! "ARXIV", rfl, ⟨by decide, by decide⟩, fun h => absurd (hid.idChars _ h) (by decide), ⟨by decide, by decide⟩⟩
  have hTa : ∀ c ∈ tagged (py! "ARXIV") (idText yy mm num cat), isAscii c = true ∧ c ≠ '\n' := by
    intro c hc
    have := tagged_mark hid (pre := articleText pre b p lead w mid) (tail := tail) hfront hl.back c (by simp [hc])
    exact (by decide : ∀ c ∈ markChars, isAscii c = true ∧ c ≠ '\n') c this
  have hq : TokensOk [(mid, tagged (py! "ARXIV") (idText yy mm num cat))] tail := by
    refine ⟨?_, ?_, ?_, ?_, fun c hc => hl.quiet c (by simp [hc])⟩ <;> intro q hq <;> rw [List.mem_singleton.1 hq]
    · exact fun c hc => hl.quiet c (List.mem_append_left _ hc)
    · exact hT
    · exact passes_arxiv fun h => absurd (hid.idChars _ h) (by decide)
    · exact hTa
  obtain ⟨count, htag⟩ := tag_marked (l0 := articleArxivText pre b p lead w mid a tail) hl.article hq hK hj ho hc hu (by
    rw [articleArxivText, List.append_assoc, hfix]; simp [inLine])
  have hX : ∀ c ∈ articleArxivText pre b p lead w mid a tail, c ∈ calmChars := fun c hc => hl.all c (by simp [hc])
  have hdois : tagDois lib (articleArxivText pre b p lead w mid a tail) = (articleArxivText pre b p lead w mid a tail, []) := by
    unfold tagDois
    rw [barren_finditer hA (by decide +kernel) hX]
    rfl
  have hurls : tagUrls (articleArxivText pre b p lead w mid a tail) = (articleArxivText pre b p lead w mid a tail, []) := by
    unfold tagUrls
    rw [barren_finditer hA (by decide +kernel) hX]
    dsimp only [List.foldl_nil]
    rw [barren_finditer hA (by decide +kernel) hX]
    rfl
  have hns : NoSpaceFirst (articleArxivText pre b p lead w mid a tail) := by
    intro c hc
    cases hs : isSpace c with
    | false => rfl
    | true =>
      exfalso
      have hcc : c = ' ' := (by decide : ∀ c ∈ calmChars, isSpace c = true → c = ' ') c (hX c (List.mem_of_head? hc)) hs
      subst hcc
      have htidy := hl.tidy (py! "  ") (by simp)
      generalize articleArxivText pre b p lead w mid a tail = s at hc htidy
      cases s with
      | nil => cases hc
      | cons e r => cases hc; exact htidy ⟨bracketed n, r, by simp⟩
  obtain ⟨hv1, hv2⟩ := vol_chars hl.article.num
  obtain ⟨hp1, hp2⟩ := pages_chars hl.article.num
  obtain ⟨hy1, hy2⟩ := year_chars (written_parts hl.article.num).2.2.1
  have q : ∀ s ∈ [pre, mid, tail], ∀ c ∈ s, c ∈ quietChars := by
    intro s hs c hm
    simp only [List.mem_cons, List.not_mem_nil, or_false] at hs
    rcases hs with hs | hs | hs
    · exact hl.article.quiet c (hs ▸ hm)
    · exact hl.quiet c (List.mem_append_left _ (hs ▸ hm))
    · exact hl.quiet c (List.mem_append_right _ (hs ▸ hm))
  have nt : ∀ s ∈ [pre, mid, tail], NoTags s := fun s hs => noTags_of fun h => absurd (q s hs _ h) (by decide)
  have hparse := Props.C19 (toks := [(pre, .journal false J none t.vol (some t.year) t.pages), (mid, .arxiv (idText yy mm num cat))]) (last := tail)
    (by
      intro q hq
      rcases List.mem_cons.1 hq with rfl | hq
      · refine ⟨nt _ (by simp), ?_, by simp, ⟨hv1, fun h => absurd (hv2 _ h) (by decide)⟩, ?_, hp1, fun h => absurd (hp2 _ h) (by decide)⟩
        · intro hi
          exact hj.plain.2.2.1 (hi.subset (by simp))
        · rintro y ⟨⟩
          exact ⟨hy1, fun h => absurd (hy2 _ h) (by decide)⟩
      · rw [List.mem_singleton.1 hq]
        refine ⟨nt _ (by simp), ?_⟩
        intro hi
        exact absurd (hid.idChars '<' (hi.subset (by simp))) (by decide))
    (nt _ (by simp)) [] []
  have e1 : renderLine [(pre, .journal false J none t.vol (some t.year) t.pages), (mid, .arxiv (idText yy mm num cat))] tail =
      article pre J t.vol t.year t.pages (inLine [(mid, tagged (py! "ARXIV") (idText yy mm num cat))] tail) := by
    rw [article_render]
    simp [renderLine, Item.render, inLine, tagged, enclose]
  have e2 : lineEls [(pre, .journal false J none t.vol (some t.year) t.pages), (mid, .arxiv (idText yy mm num cat))] tail =
      articleEl pre J t.vol t.year t.pages :: arxivEl mid (idText yy mm num cat) :: (after tail).map textEl := by
    unfold lineEls after
    split <;> rfl
  rw [e1, e2] at hparse
  have hparse' : parseTagged (article pre J t.vol t.year t.pages (inLine [(mid, tagged (py! "ARXIV") (idText yy mm num cat))] tail)) [] [] = .ok
      (articleEl pre J t.vol t.year t.pages :: arxivEl mid (idText yy mm num cat) :: (after tail).map textEl,
        { misc := if LeftOver tail then 1 else 0, title := 1, reportnum := 1 }) := by
    refine Eq.trans (by simpa [Item.dois, Item.urls] using hparse) ?_
    unfold after
    by_cases h : LeftOver tail <;> simp [h, howMany, articleEl, arxivEl, textEl]
  have hg : Goes kbs.special (arxivEl mid (idText yy mm num cat)) (arxivEl mid (formatReport (idText yy mm num cat))) (arxivEl mid (idText yy mm num cat)) := by
    refine Goes.mk rfl rfl rfl rfl rfl ?_ rfl rfl rfl rfl (fun h => by cases h)
    refine Eq.trans (b := .ok (arxivEl mid (formatHepStr (formatReport (idText yy mm num cat))))) rfl ?_
    rw [form_id hid]
  have hpost := post_with (books := kbs.books) (pre := pre) (tail := tail) (e := arxivEl mid (idText yy mm num cat)) (year := t.year) (page := t.pages)
    (article_ok hj hl.article.num) hg (.inr ⟨_, rfl⟩)
    (fun s hs => barren_finditer (A := quietChars) (by decide) (by decide +kernel) (q s hs)) (fun s hs h => absurd (q s hs _ h) (by decide)) hy1
    (by
      intro s hs
      simp only [List.mem_cons, List.not_mem_nil, or_false] at hs
      rcases hs with rfl | rfl | rfl
      · exact hl.year.1
      · exact hl.year.2.1
      · exact hl.year.2.2)
  refine ⟨count, ?_⟩
  unfold parseReferenceLine
  rw [removeMarker_numbered n hns]
  dsimp only
  rw [hdois]
  dsimp only
  rw [hurls]
  dsimp only
  rw [htag, okBind]
  dsimp only
  rw [hparse', okBind]
  dsimp only
  rw [hpost, okBind]
  rfl

theorem references_with_arxiv {undesirable : Str → Str} {lib : Lib} {kbs : Kbs} {ys ys5 : List Str} (hy : lib.years = Re.alts (ys.map Re.str))
    (hy5 : lib.years5 = Re.alts (ys5.map Re.str)) (hys : ∀ y ∈ ys, Two y) (hys5 : ∀ y ∈ ys5, Two y) {n : Nat} {pre b p lead w mid a tail i K J : Str} {t : Told}
    (hl : ArticleArxivLine n pre b p lead w mid a tail i t) (hK : reading b = K) (hj : KnownJournal kbs K J)
    (ho : NothingFurther kbs.tag K pre b [(p ++ (lead ++ w ++ mid), tagged (py! "ARXIV") i)] tail)
    (hc : NoCollaborations kbs.tag pre [(mid, tagged (py! "ARXIV") i)] tail) (hu : ∀ s, (∀ c ∈ s, isAscii c = true) → lib.unidecode s = s)
    (hw : undesirable (bracketed n ++ ' ' :: articleArxivText pre b p lead w mid a tail) = bracketed n ++ ' ' :: articleArxivText pre b p lead w mid a tail) :
    ∃ r, parseReferences undesirable lib kbs defaultFormat none [bracketed n ++ ' ' :: articleArxivText pre b p lead w mid a tail] =
        .ok ([r], [0, 1, 1, 0, 0, 0, if LeftOver tail then 1 else 0]) ∧
      ∀ k, vals r k = under k (articleWithRecord n (bracketed n ++ ' ' :: articleArxivText pre b p lead w mid a tail) pre J mid (py! "reportnumber", i) tail t) := by
  obtain ⟨hi, count, hp⟩ := parse_with_arxiv hy hy5 hys hys5 hl hK hj ho hc hu
  have hrep := hl.repair hw
  generalize hraw : bracketed n ++ ' ' :: articleArxivText pre b p lead w mid a tail = raw at *
  obtain ⟨r, hr, hv⟩ := build_with (n := n) (raw := raw) (pre := pre) (tail := tail) (e := arxivEl mid i) (mid := mid) (item := (py! "reportnumber", i)) hj.plain.1
    (vol_chars hl.article.num).1 (year_chars (written_parts hl.article.num).2.2.1).1 (pages_chars hl.article.num).1 hi (fun f => ⟨_, rfl⟩) rfl (fun j => rfl)
    (fun h => absurd (hl.quiet ';' (by simp [h])) (by decide))
  exact ⟨r, references_many hrep hp (.cons hr .nil), fun k => by rw [hv k]; simp [articleWithRecord]⟩

end Py
