import Verif.Lemmas.Known4
import Verif.Lemmas.Record2
import Verif.Lemmas.KbCache
import Verif.Props.Parse
import Verif.Lemmas.Engine

/-!
# Helper lemmas: an article in a known journal, from the line to the reference
-/

namespace Py
open Spec
open scoped List

theorem trim_eq (l r s : Str) : rstripP (inSet r) (lstripP (inSet l) s) = trim l r s := rfl

theorem trim_ne {l r s : Str} (h : ∃ c ∈ s, c ∉ l ∧ c ∉ r) : trim l r s ≠ [] := by
  obtain ⟨c, hc, h1, h2⟩ := h
  have key : ∀ (p : Char → Bool) (t : Str), c ∈ t → p c = false → c ∈ t.dropWhile p := by
    intro p t
    induction t with
    | nil => intro h; cases h
    | cons d t ih =>
      intro h hp
      by_cases hd : p d = true
      · rw [List.dropWhile_cons_of_pos hd]
        rcases List.mem_cons.1 h with rfl | h
        · rw [hp] at hd; cases hd
        · exact ih h hp
      · rw [List.dropWhile_cons_of_neg hd]; exact h
  have : c ∈ trim l r s := by
    unfold trim
    rw [List.mem_reverse]
    refine key _ _ ?_ (by simpa using h2)
    rw [List.mem_reverse]
    exact key _ _ hc (by simpa using h1)
  intro e
  rw [e] at this
  cases this

theorem miscEmit_eq (s : Str) : miscEmit s = (reported s).map fun p => (p.1, some p.2) := by
  have hc : truthy (stripP (inSet edgeChars) s) = true ↔ HasContent s := by
    rw [truthy_stripP]
    unfold HasContent isEdge
    constructor <;> rintro ⟨c, hc, hn⟩ <;> refine ⟨c, hc, ?_⟩
    · intro hm
      rw [show inSet edgeChars c = true from mem_inSet.2 hm] at hn; cases hn
    · cases h : inSet edgeChars c with
      | false => rfl
      | true => exact absurd (mem_inSet.1 h) hn
  unfold miscEmit reported
  by_cases h : HasContent s
  · rw [if_pos (hc.2 h), if_pos h]; rfl
  · rw [if_neg (fun x => h (hc.1 x)), if_neg h]; rfl

theorem reported_ne (s : Str) : ∀ p ∈ reported s, p.2 ≠ [] := by
  unfold reported
  split
  · rename_i h
    intro p hp
    rw [List.mem_singleton] at hp
    subst hp
    obtain ⟨c, hc, hn⟩ := h
    refine trim_ne ⟨c, hc, fun hm => hn ?_, fun hm => hn ?_⟩
    · exact (by decide : ∀ c ∈ py! "])} ,.", c ∈ py! "., [](){}") c hm
    · exact (by decide : ∀ c ∈ py! "[({ ,.", c ∈ py! "., [](){}") c hm
  · intro p hp; cases hp

theorem init_bracketed (n : Nat) (raw : Str) :
    (createReferenceField (bracketed n)).set (py! "raw_ref") [raw] = [(py! "linemarker", [decimal n]), (py! "raw_ref", [raw])] := by
  have hd := padNat_digits 0 n
  rw [← decimal_eq] at hd
  rw [create_eq, formatMarker_bracketed, if_pos]
  · simp [Field.set]
  · refine ⟨?_, hd.1⟩
    cases e : decimal n with
    | nil => exact absurd e hd.1
    | cons c w =>
      refine ⟨c, by simp [bracketed, e], fun hm => ?_⟩
      have h1 := hd.2 c (by rw [e]; simp)
      exact absurd h1 ((by decide : ∀ c ∈ py! "., [](){}", ¬ c.isDigit = true) c hm)

theorem build_table {els : List El} {n : Nat} {raw : Str} {fmt : List FmtPart} {f : Field} {table : List (Str × Str)}
    (h : buildReferenceFields els (bracketed n) raw fmt = .ok f) (ht : els.flatMap (elEmits fmt) = table.map fun p => (p.1, some p.2))
    (hne : ∀ p ∈ table, p.2 ≠ []) (k : Str) :
    vals f k = under k ([(py! "linemarker", decimal n), (py! "raw_ref", raw)] ++ table) := by
  rw [vals_eq, (build_emits h).1, values_addAll, ht, init_bracketed, ← vals_eq, under, List.filter_append, List.map_append]
  congr 1
  · unfold vals
    by_cases h1 : py! "linemarker" = k
    · subst h1; simp
    · by_cases h2 : py! "raw_ref" = k
      · subst h2; simp
      · simp [List.find?_cons, List.filter_cons, h1, h2]
  · clear ht
    induction table with
    | nil => rfl
    | cons p t ih =>
      have := ih fun q hq => hne q (by simp [hq])
      have hp : addedVals (some p.2) = [p.2] := by simp [addedVals, hne p (by simp)]
      by_cases hk : p.1 = k
      · simp only [List.map_cons, List.filter_cons, hk, decide_true, if_true, List.flatMap_cons, hp, this]
        rfl
      · simp only [List.map_cons, List.filter_cons, hk, decide_false, Bool.false_eq_true, if_false, this]

theorem calm_suffix {a s : Str} (h : Calm (a ++ s)) : Calm s := by
  have hs : s <:+: a ++ s := (List.suffix_append a s).isInfix
  refine ⟨fun c hc => h.chars c (by simp [hc]), fun w hw hi => h.words w hw ?_, fun w hw hi => h.tidy w hw (hi.trans hs),
    fun x hx hl => h.digits x (hx.trans hs) hl, fun a ha b hb hi => h.points a ha b hb (hi.trans hs)⟩
  rw [List.map_append]
  exact hi.trans (List.suffix_append _ _).isInfix

theorem article_all {P : Char → Prop} {pre J vol year page tail : Str} (h0 : ∀ c ∈ py! "<>/.() cdsJOURNALVYPG", P c) (h1 : ∀ c ∈ pre, P c) (h2 : ∀ c ∈ J, P c)
    (h3 : ∀ c ∈ vol, P c) (h4 : ∀ c ∈ year, P c) (h5 : ∀ c ∈ page, P c) (h6 : ∀ c ∈ tail, P c) : ∀ c ∈ article pre J vol year page tail, P c := by
  have app : ∀ {a b : Str}, (∀ c ∈ a, P c) → (∀ c ∈ b, P c) → ∀ c ∈ a ++ b, P c := by
    intro a b ha hb c hc
    rcases List.mem_append.1 hc with h | h
    · exact ha c h
    · exact hb c h
  have lit : ∀ {l : Str}, l.all (py! "<>/.() cdsJOURNALVYPG").contains = true → ∀ c ∈ l, P c := fun h c hc => h0 c (among h hc)
  have enc : ∀ {n b : Str}, n.all (py! "<>/.() cdsJOURNALVYPG").contains = true → (∀ c ∈ b, P c) → ∀ c ∈ enclose n b, P c := by
    intro n b hn hb
    unfold enclose
    exact app (app (app (app (app (app (lit rfl) (lit hn)) (lit rfl)) hb) (lit rfl)) (lit hn)) (lit rfl)
  have blank : ∀ {a : Str}, (∀ c ∈ a, P c) → ∀ c ∈ ' ' :: a, P c := fun ha => app (a := [' ']) (lit rfl) ha
  unfold article
  exact app (app (app (app (app h1 (enc rfl h2)) (blank (enc rfl h3))) (blank (enc rfl (app (a := '(' :: year) (app (a := ['(']) (lit rfl) h4) (lit rfl))))) (blank (enc rfl h5))) h6

/-- Quiet characters with underscores. -/
abbrev quietUnder : List Char := '_' :: quietChars

variable [UnicodeDB]

/-- The line with tags. -/
theorem tag_article {lib : Lib} {kbs : Kbs} {n : Nat} {pre b p lead w tail K J : Str} {t : Told} (hl : ArticleLine n pre b p lead w tail t)
    (hK : reading b = K) (hj : KnownJournal kbs K J) (ho : NothingElse kbs.tag K pre b (p ++ (lead ++ w ++ tail)) tail)
    (hu : ∀ s, (∀ c ∈ s, isAscii c = true) → lib.unidecode s = s) :
    ∃ count, tagReferenceLine lib (articleText pre b p lead w tail) kbs.tag [] = .ok (article pre J t.vol t.year t.pages tail, count) := by
  have hX : Calm (pre ++ b ++ (p ++ (lead ++ w ++ tail))) := calm_suffix (a := bracketed n ++ [' ']) (by have := hl.calm; unfold articleText at this; simpa using this)
  have hrest : ∃ x ∈ py! " .,;:()-", (p ++ (lead ++ w ++ tail)).head? = some x := by
    cases hp : p with
    | cons c p' => exact ⟨c, among (by decide) (hl.skip c (by rw [hp]; simp)), rfl⟩
    | nil =>
      rcases hl.lead with h | h | h
      · exact absurd h (hl.gap.resolve_left fun h' => h' hp)
      · exact ⟨' ', by decide, by rw [h]; rfl⟩
      · exact ⟨',', by decide, by rw [h]; rfl⟩
  obtain ⟨f, m, hrec, hread, f1, f2, f3, f4, f5, f6, f7⟩ := recognise_single hX hj.titles hl.blank hl.first hl.last hrest hK hj.known ho.titles ho.reports ho.ibid
    ho.publishers ho.byRe
  have hKread : ∀ c ∈ K, c ∈ readChars ∨ c = '_' := by
    intro c hc
    rw [← hK] at hc
    exact .inl (reading_chars (fun c hc => hX.chars c (by simp [hc])) c hc)
  have hplaces : Places (pre ++ b ++ (p ++ (lead ++ w ++ tail))) pre b p lead w tail K J t f := by
    refine ⟨rfl, hl.skip, hl.lead, hl.num, hl.stops, ⟨_, f1, f6⟩, f2, f3, f4, f7, ?_, ?_, hj.plain.2.1⟩
    · rw [upper_read hKread]
      intro hi
      exact ho.ibid (hi.trans ⟨reading pre, reading (p ++ (lead ++ w ++ tail)), by rw [hread]⟩)
    · rw [f5, dget_dupdate_of_notMem]
      · exact hj.std
      · rw [List.map_map]; exact hj.byRe
  obtain ⟨hv1, hv2⟩ := vol_chars hl.num
  obtain ⟨hp1, hp2⟩ := pages_chars hl.num
  obtain ⟨hy1, hy2⟩ := year_chars (written_parts hl.num).2.2.1
  have q1 : ∀ c ∈ pre, c ∈ quietChars := fun c hc => hl.quiet c (by simp [hc])
  have q2 : ∀ c ∈ tail, c ∈ quietChars := fun c hc => hl.quiet c (by simp [hc])
  have lt1 : '<' ∉ pre := fun h => absurd (q1 _ h) (by decide)
  have lt2 : '<' ∉ tail := fun h => absurd (q2 _ h) (by decide)
  have lt3 : '<' ∉ t.vol := fun h => absurd (hv2 _ h) (by decide)
  have lt4 : '<' ∉ t.year := fun h => absurd (hy2 _ h) (by decide)
  have lt5 : '<' ∉ t.pages := fun h => absurd (hp2 _ h) (by decide)
  have hascii : ∀ c ∈ article pre J t.vol t.year t.pages tail, isAscii c = true ∧ c ≠ '\n' := by
    have a1 : ∀ {l : List Char}, (l.all fun c => isAscii c && c != '\n') = true → ∀ c ∈ l, isAscii c = true ∧ c ≠ '\n' := by
      intro l h1 c h2
      simpa using List.all_eq_true.1 h1 c h2
    exact article_all (P := fun c => isAscii c = true ∧ c ≠ '\n') (a1 (l := py! "<>/.() cdsJOURNALVYPG") (by decide)) (fun c h => a1 (by decide) c (q1 c h))
      (fun c h => ⟨hj.ascii c h, fun e => hj.plain.2.2.2 (by rw [← e]; exact h)⟩) (fun c h => a1 (by decide) c (hv2 c h))
      (fun c h => a1 (by decide) c (hy2 c h)) (fun c h => a1 (by decide) c (hp2 c h)) (fun c h => a1 (by decide) c (q2 c h))
  obtain ⟨g, hg, hstrip⟩ := strip_article (J := J) lt1 hj.plain.2.2.1 lt3 lt4 lt5 lt2
  have hauth : finditer Rx.RE_AUTH (stripTags (article pre J t.vol t.year t.pages tail)) = [] := by
    rw [hstrip]
    refine barren_finditer (A := quietUnder) (by decide) (by decide +kernel) ?_
    intro c hc
    rcases List.mem_append.1 hc with hc | hc
    · rcases List.mem_append.1 hc with hc | hc
      · exact List.mem_cons_of_mem _ (q1 c hc)
      · rcases hg c hc with rfl | rfl <;> decide
    · exact List.mem_cons_of_mem _ (q2 c hc)
  refine ⟨dset [] K m, ?_⟩
  unfold tagReferenceLine articleText
  rw [calm_fixed lib hX, okBind, hrec, okBind]
  dsimp only
  have hsum : sumDicts [] [(K, m)] = .ok (dset [] K m) := rfl
  rw [hsum, okBind]
  have hproc : processLine lib (pre ++ b ++ (p ++ (lead ++ w ++ tail))) f kbs.tag = .ok (article pre J t.vol t.year t.pages tail) := by
    unfold processLine
    rw [rebuildTagged_single hplaces, okBind, wash_article lt1 hj.plain.2.2.1 ⟨hv1, lt3, fun h => absurd (hv2 _ h) (by decide)⟩ lt4 lt5 lt2,
      tagAuthors_none ?_ (hu _ fun c hc => (hascii c hc).1) hauth, okBind, tagCollaborations_none ?_, okBind]
    · congr 1
      rw [List.filter_eq_self]
      intro c hc
      simpa using (hascii c hc).2
    · intro q hq
      rw [hstrip]
      exact ho.collaborations q hq g hg
    · intro q hq hi
      obtain ⟨c, hc, hn⟩ := ho.authors q hq
      rw [(hascii c (hi.subset hc)).1] at hn
      cases hn
  rw [hproc, okBind]
  rfl

omit [UnicodeDB] in
theorem noTags_of {s : Str} (h : '<' ∉ s) [UnicodeDB] : NoTags s := by
  rintro a w b rfl name ⟨-, o, -, rfl⟩
  exact h (by simp)

/-- From the line to the elements. -/
theorem parse_article {lib : Lib} {kbs : Kbs} {n : Nat} {pre b p lead w tail K J : Str} {t : Told} (hl : ArticleLine n pre b p lead w tail t)
    (hK : reading b = K) (hj : KnownJournal kbs K J) (ho : NothingElse kbs.tag K pre b (p ++ (lead ++ w ++ tail)) tail)
    (hu : ∀ s, (∀ c ∈ s, isAscii c = true) → lib.unidecode s = s) :
    ∃ count, parseReferenceLine lib kbs none (bracketed n ++ ' ' :: articleText pre b p lead w tail) [] =
      .ok ([articleEl pre J t.vol t.year t.pages :: (if LeftOver tail then [{ ty := .misc, misc := tail }] else []) ++ [yearEl t.year]], bracketed n,
        { misc := if LeftOver tail then 1 else 0, title := 1 }, count) := by
  have hX : Calm (articleText pre b p lead w tail) := calm_suffix (a := bracketed n ++ [' ']) (by simpa using hl.calm)
  have hns : NoSpaceFirst (articleText pre b p lead w tail) := by
    intro c hc
    cases hs : isSpace c with
    | false => rfl
    | true =>
      exfalso
      have hcc : c = ' ' := (by decide : ∀ c ∈ calmChars, isSpace c = true → c = ' ') c (hX.chars c (List.mem_of_head? hc)) hs
      subst hcc
      obtain ⟨r, hr⟩ : ∃ r, articleText pre b p lead w tail = ' ' :: r := by
        cases h : articleText pre b p lead w tail with
        | nil => rw [h] at hc; cases hc
        | cons d r => rw [h] at hc; cases hc; exact ⟨r, rfl⟩
      exact hl.calm.tidy (py! "  ") (by decide) ⟨bracketed n, r, by rw [hr]; simp⟩
  obtain ⟨count, htag⟩ := tag_article hl hK hj ho hu
  obtain ⟨hv1, hv2⟩ := vol_chars hl.num
  obtain ⟨hp1, hp2⟩ := pages_chars hl.num
  obtain ⟨hs, hvd, hyy, -⟩ := written_parts hl.num
  obtain ⟨hy1, hy2⟩ := year_chars hyy
  have q1 : ∀ c ∈ pre, c ∈ quietChars := fun c hc => hl.quiet c (by simp [hc])
  have q2 : ∀ c ∈ tail, c ∈ quietChars := fun c hc => hl.quiet c (by simp [hc])
  have hparse := Props.C19 (toks := [(pre, .journal false J none t.vol (some t.year) t.pages)]) (last := tail)
    (by
      intro q hq
      rw [List.mem_singleton] at hq
      subst hq
      refine ⟨noTags_of fun h => absurd (q1 _ h) (by decide), ?_, by simp, ⟨hv1, fun h => absurd (hv2 _ h) (by decide)⟩, ?_, hp1, fun h => absurd (hp2 _ h) (by decide)⟩
      · intro hi
        exact hj.plain.2.2.1 (hi.subset (by simp))
      · rintro y ⟨⟩
        exact ⟨hy1, fun h => absurd (hy2 _ h) (by decide)⟩)
    (noTags_of fun h => absurd (q2 _ h) (by decide)) [] []
  rw [← article_render] at hparse
  have hok : ArticleOk kbs.special J t.vol := by
    refine ⟨hj.plain.2.1, hj.special.1, hj.special.2, ?_, ?_⟩
    · exact barren_reMatch (A := py! "0123456789ABCDEFGH") (by decide) (by decide +kernel) hv2
    · apply mangle_same
      rcases hs with h | ⟨x, hx, h⟩
      · left; simpa [Told.vol, h] using hvd
      · right; exact ⟨x, t.volume, hx, by simp [Told.vol, h]⟩
  have hh : ∀ {s : Str}, (∀ c ∈ s, c ∈ quietChars) → finditer Rx.re_hdl s = [] := fun h =>
    barren_finditer (A := quietChars) (by decide) (by decide +kernel) h
  obtain ⟨p1, p2⟩ := post_article (books := kbs.books) (page := t.pages) hok (hh q1) (hh q2) (fun h => absurd (q1 _ h) (by decide))
    (fun h => absurd (q2 _ h) (by decide)) hy1 hl.year.1 hl.year.2
  refine ⟨count, ?_⟩
  unfold parseReferenceLine
  rw [removeMarker_numbered n hns]
  dsimp only
  rw [calm_dois lib hX]
  dsimp only
  rw [calm_urls hX]
  dsimp only
  rw [htag, okBind]
  dsimp only
  have hels : lineEls [(pre, Item.journal false J none t.vol (some t.year) t.pages)] tail =
      articleEl pre J t.vol t.year t.pages :: (if LeftOver tail then [{ ty := .misc, misc := tail }] else []) := rfl
  rw [hels] at hparse
  have hparse' : parseTagged (article pre J t.vol t.year t.pages tail) [] [] = .ok
      (articleEl pre J t.vol t.year t.pages :: (if LeftOver tail then [{ ty := .misc, misc := tail }] else []),
        { misc := if LeftOver tail then 1 else 0, title := 1 }) := by
    refine Eq.trans (by simpa [Item.dois, Item.urls] using hparse) ?_
    by_cases h : LeftOver tail <;> simp [h, howMany, articleEl]
  rw [hparse', okBind]
  dsimp only
  by_cases h : LeftOver tail
  · simp only [if_pos h]
    rw [p2, okBind]
    rfl
  · simp only [if_neg h]
    rw [p1, okBind]
    rfl

theorem references_article {undesirable : Str → Str} {lib : Lib} {kbs : Kbs} {n : Nat} {pre b p lead w tail K J : Str} {t : Told}
    (hl : ArticleLine n pre b p lead w tail t) (hK : reading b = K) (hj : KnownJournal kbs K J)
    (ho : NothingElse kbs.tag K pre b (p ++ (lead ++ w ++ tail)) tail) (hu : ∀ s, (∀ c ∈ s, isAscii c = true) → lib.unidecode s = s)
    (hw : undesirable (bracketed n ++ ' ' :: articleText pre b p lead w tail) = bracketed n ++ ' ' :: articleText pre b p lead w tail) :
    ∃ r, parseReferences undesirable lib kbs defaultFormat none [bracketed n ++ ' ' :: articleText pre b p lead w tail] =
        .ok ([r], [0, 0, 1, 0, 0, 0, if LeftOver tail then 1 else 0]) ∧
      ∀ k, vals r k = under k (articleRecord n (bracketed n ++ ' ' :: articleText pre b p lead w tail) pre J tail t) := by
  obtain ⟨count, hp⟩ := parse_article hl hK hj ho hu
  obtain ⟨hv1, hv2⟩ := vol_chars hl.num
  obtain ⟨hp1, hp2⟩ := pages_chars hl.num
  obtain ⟨hy1, hy2⟩ := year_chars (written_parts hl.num).2.2.1
  generalize hraw : bracketed n ++ ' ' :: articleText pre b p lead w tail = raw at *
  have hcalm : Calm raw := by rw [← hraw]; exact hl.calm
  generalize hels : articleEl pre J t.vol t.year t.pages :: (if LeftOver tail then [({ ty := .misc, misc := tail } : El)] else []) ++ [yearEl t.year] = els at hp
  have hjr : formatRef (articleEl pre J t.vol t.year t.pages) defaultFormat = .ok (J ++ py! " " ++ t.vol ++ py! " (" ++ t.year ++ py! ") " ++ t.pages) := by
    simp [formatRef, defaultFormat, fmtKey, articleEl, getKey, Val.show, bind, Except.bind, pure, Except.pure, Except.map]
  have hb : ∃ r, buildReferenceFields els (bracketed n) raw defaultFormat = .ok r := by
    unfold buildReferenceFields
    generalize (createReferenceField (bracketed n)).set (py! "raw_ref") [raw] = f0
    rw [← hels, List.cons_append, buildLoop]
    have e1 : ∀ f, ∃ f', addTyped defaultFormat f (articleEl pre J t.vol t.year t.pages) = .ok f' := by
      intro f
      unfold addTyped addJournalSubfield
      dsimp only [articleEl]
      have := hjr
      unfold articleEl at this
      rw [this, okBind]
      exact ⟨_, rfl⟩
    obtain ⟨f1, e2⟩ := e1 (addMisc f0 (articleEl pre J t.vol t.year t.pages).misc)
    rw [e2, okBind]
    split
    · exact ⟨_, rfl⟩
    · exact ⟨_, rfl⟩
  obtain ⟨r, hr⟩ := hb
  refine ⟨r, ?_, fun k => ?_⟩
  · unfold parseReferences parseElements
    have hstep : [raw].foldlM (elementsStep undesirable lib kbs none) ([], ({} : Counts).dict, []) =
        .ok ([⟨[els], bracketed n, raw⟩], ({ misc := if LeftOver tail then 1 else 0, title := 1 } : Counts).dict, count) := by
      rw [List.foldlM_cons]
      unfold elementsStep
      rw [calm_repair hcalm hw, hp, okBind]
      dsimp only
      rw [sum_counts, okBind]
      rfl
    rw [hstep, okBind]
    dsimp only
    have hbuild : buildReferences defaultFormat [⟨[els], bracketed n, raw⟩] = .ok [r] := by
      unfold buildReferences
      simp only [List.mapM_cons, List.mapM_nil, hr, okBind]
      rfl
    rw [hbuild, okBind, stats_dict, okBind]
    rfl
  · rw [build_table (table := reported pre ++ [(py! "journal_title", J), (py! "journal_volume", t.vol), (py! "journal_year", t.year), (py! "journal_page", t.pages),
       (py! "journal_reference", J ++ py! " " ++ t.vol ++ py! " (" ++ t.year ++ py! ") " ++ t.pages)] ++ reported tail ++ [(py! "year", t.year)]) hr]
    · simp [articleRecord]
    · have j1 : jrefOf defaultFormat (articleEl pre J t.vol t.year t.pages) = J ++ py! " " ++ t.vol ++ py! " (" ++ t.year ++ py! ") " ++ t.pages := by
        unfold jrefOf
        rw [hjr]
      have m1 : elEmits defaultFormat (articleEl pre J t.vol t.year t.pages) = (reported pre ++ [(py! "journal_title", J), (py! "journal_volume", t.vol),
          (py! "journal_year", t.year), (py! "journal_page", t.pages),
          (py! "journal_reference", J ++ py! " " ++ t.vol ++ py! " (" ++ t.year ++ py! ") " ++ t.pages)]).map fun p => (p.1, some p.2) := by
        rw [elEmits, j1, List.map_append, ← miscEmit_eq]
        rfl
      have m2 : elEmits defaultFormat (yearEl t.year) = [(py! "year", some t.year)] := rfl
      have m3 : (if LeftOver tail then [({ ty := .misc, misc := tail } : El)] else []).flatMap (elEmits defaultFormat) = (reported tail).map fun p => (p.1, some p.2) := by
        split
        · rw [List.flatMap_singleton, elEmits, miscEmit_eq]
          exact List.append_nil _
        · next h =>
          have : ¬ HasContent tail := by
            rintro ⟨c, hc, hn⟩
            refine h ⟨c, hc, fun hm => hn ?_⟩
            have : c ≠ ';' := by
              rintro rfl
              exact absurd (hl.quiet ';' (by simp [hc])) (by decide)
            simp only [List.mem_cons, List.not_mem_nil, or_false] at hm
            rcases hm with rfl | rfl | rfl | rfl
            · exact (by decide : ' ' ∈ py! "., [](){}")
            · exact (by decide : '.' ∈ py! "., [](){}")
            · exact absurd rfl this
            · exact (by decide : ',' ∈ py! "., [](){}")
          rw [reported, if_neg this]
          rfl
      rw [← hels, List.flatMap_append, List.flatMap_cons, m1, m3, List.flatMap_singleton, m2]
      simp
    · intro q hq
      simp only [List.mem_append] at hq
      rcases hq with ((hq | hq) | hq) | hq
      · exact reported_ne _ q hq
      · simp only [List.mem_cons, List.not_mem_nil, or_false] at hq
        rcases hq with rfl | rfl | rfl | rfl | rfl
        · exact hj.plain.1
        · exact hv1
        · exact hy1
        · exact hp1
        · simp
      · exact reported_ne _ q hq
      · rw [List.mem_singleton] at hq
        subst hq
        exact hy1

end Py
