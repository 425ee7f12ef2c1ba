import Verif.Lemmas.Token
import Verif.Lemmas.Doi2
import Verif.Lemmas.Reports2

/-!
# Helper lemmas: a line with one DOI, from the line to the reference
-/

namespace Py
open Spec
open scoped List

variable [UnicodeDB]

omit [UnicodeDB] in
/-- A text without a character is on one side of it. -/
theorem infix_beside {x a b : Str} {c : Char} (hx : c ∉ x) (h : x <:+: a ++ c :: b) : x <:+: a ∨ x <:+: b := by
  obtain ⟨u, v, e⟩ := h
  rw [List.append_assoc] at e
  rcases List.append_eq_append_iff.1 e with ⟨w, rfl, h2⟩ | ⟨w, rfl, h2⟩
  · rcases List.append_eq_append_iff.1 h2 with ⟨z, rfl, h3⟩ | ⟨z, h3, h4⟩
    · exact .inl ⟨u, z, by simp⟩
    · cases z with
      | nil => rw [List.append_nil] at h3; subst h3; exact .inl ⟨u, [], by simp⟩
      | cons d z => rw [List.cons_append, List.cons.injEq] at h4; rw [h3, ← h4.1] at hx; simp at hx
  · cases w with
    | nil => 
      rw [List.nil_append] at h2
      cases x with
      | nil => exact .inl (List.nil_infix)
      | cons d x => rw [List.cons_append, List.cons.injEq] at h2; rw [h2.1] at hx; simp at hx
    | cons d w =>
      rw [List.cons_append, List.cons.injEq] at h2
      exact .inr ⟨w, v, by rw [h2.2]; simp⟩

omit [UnicodeDB] in
/-- Calm texts around a placeholder. -/
theorem clean_mark {pre n tail : Str} (hp : Calm pre) (hn : Calm (n ++ [' '])) (ht : Calm tail) : CleanText (pre ++ ('<' :: n ++ py! " />") ++ tail) := by
  have shape : pre ++ ('<' :: n ++ py! " />") ++ tail = pre ++ '<' :: ((n ++ [' ']) ++ '/' :: '>' :: tail) := by simp
  constructor
  · intro c hc
    rw [shape, List.mem_append, List.mem_cons, List.mem_append, List.mem_cons, List.mem_cons] at hc
    rcases hc with hc | rfl | hc | rfl | rfl | hc
    · exact List.mem_append_left _ (hp.chars c hc)
    · decide
    · exact List.mem_append_left _ (hn.chars c hc)
    · decide
    · decide
    · exact List.mem_append_left _ (ht.chars c hc)
  · rintro ⟨f, hf, x, hx, hfx⟩
    rw [shape] at hx
    have hslash : ∀ {s : Str}, Calm s → '/' ∉ s := fun h hm => absurd (h.chars _ hm) (by decide)
    have key : f ∉ [[markChars.filter (· != ' '), ['/']], [['/'], markChars.filter (· != '>')]] → False := by
      intro hnf
      have hcl : ∀ c ∈ ['<', '/', '>'], c ∉ x := by
        have h1 : ∀ f ∈ forbidden, f ∉ [[markChars.filter (· != ' '), ['/']], [['/'], markChars.filter (· != '>')]] → ∀ cs ∈ f, ∀ c ∈ ['<', '/', '>'], c ∉ cs := by decide +kernel
        have h2 := h1 f hf hnf
        clear hnf hx hf h1
        induction hfx with
        | nil => simp
        | cons h _ ih =>
          intro c hc hm
          rcases List.mem_cons.1 hm with rfl | hm
          · exact h2 _ (by simp) _ hc h
          · exact ih (fun cs h => h2 cs (by simp [h])) c hc hm
      have fin : ∀ {s : Str}, Calm s → ¬ x <:+: s := fun h hi => calm_not_bad h ⟨f, hf, x, hi, hfx⟩
      rcases infix_beside (hcl '<' (by simp)) hx with h | h
      · exact fin hp h
      rcases infix_beside (hcl '/' (by simp)) h with h | h
      · exact fin hn h
      rcases infix_beside (a := []) (hcl '>' (by simp)) h with h | h
      · exact fin ht (h.trans List.nil_infix)
      · exact fin ht h
    have cnt : (pre ++ '<' :: ((n ++ [' ']) ++ '/' :: '>' :: tail)) = (pre ++ '<' :: (n ++ [' '])) ++ '/' :: '>' :: tail := by simp
    have hno1 : '/' ∉ pre ++ '<' :: (n ++ [' ']) := by
      rw [List.mem_append, List.mem_cons, not_or, not_or]
      exact ⟨hslash hp, by decide, hslash hn⟩
    have hno2 : '/' ∉ '>' :: tail := by
      rw [List.mem_cons, not_or]
      exact ⟨by decide, hslash ht⟩
    have hcnt : List.count '/' ((pre ++ '<' :: (n ++ [' '])) ++ '/' :: '>' :: tail) = 1 := by
      rw [List.count_append, List.count_eq_zero.2 hno1, List.count_cons_self, List.count_eq_zero.2 hno2]
    rw [cnt] at hx
    obtain ⟨u, v, e⟩ := hx
    have place : ∀ {a b : Str}, a ++ '/' :: b = (pre ++ '<' :: (n ++ [' '])) ++ '/' :: '>' :: tail → a = pre ++ '<' :: (n ++ [' ']) ∧ b = '>' :: tail := by
      intro a b e
      rw [← e, List.count_append, List.count_cons_self] at hcnt
      exact cut_at (List.count_eq_zero.1 (by omega)) hno1 e
    by_cases h : f ∈ [[markChars.filter (· != ' '), ['/']], [['/'], markChars.filter (· != '>')]]
    · rcases List.mem_cons.1 h with rfl | h
      · cases hfx with
        | cons h1 hfx => cases hfx with
          | cons h2 hfx =>
            rename_i c d x
            cases hfx
            rw [List.mem_singleton.1 h2] at e
            have := (place (a := u ++ [c]) (b := v) (by rw [← e]; simp)).1
            have hl := congrArg List.getLast? this
            have hs : pre ++ '<' :: (n ++ [' ']) = (pre ++ '<' :: n) ++ [' '] := by simp
            rw [hs, List.getLast?_append, List.getLast?_append] at hl
            have : c = ' ' := by simpa using hl
            rw [this] at h1
            exact absurd h1 (by decide)
      · rw [List.mem_singleton] at h
        subst h
        cases hfx with
        | cons h1 hfx => cases hfx with
          | cons h2 hfx =>
            rename_i c d x
            cases hfx
            rw [List.mem_singleton.1 h1] at e
            have := (place (a := u) (b := d :: v) (by rw [← e]; simp)).2
            rw [(List.cons.inj this).1] at h2
            exact absurd h2 (by decide)
    · exact key h

/-- The element of a DOI. -/
def doiEl (s d : Str) : El := { ty := .doi, misc := s, doiString := some d }

theorem transform_doi {special : List Str} {books : Books} {s r : Str} {ts : List Str} (hs : finditer Rx.re_hdl s = []) (ht : ∀ t ∈ ts, finditer Rx.re_hdl t = []) :
    transformElements special books none (doiEl s r :: ts.map textEl) = .ok (doiEl s r :: ts.map textEl) := by
  have keep : ∀ (f : El → Py El), (∀ t, f (textEl t) = .ok (textEl t)) → eachEl f (ts.map textEl) = .ok (ts.map textEl) := by
    intro f h
    refine eachEl_same fun e he => ?_
    obtain ⟨t, -, rfl⟩ := List.mem_map.1 he
    exact h t
  have step : ∀ (f : El → Py El), f (doiEl s r) = .ok (doiEl s r) → (∀ t, f (textEl t) = .ok (textEl t)) →
      eachEl f (doiEl s r :: ts.map textEl) = .ok (doiEl s r :: ts.map textEl) := by
    intro f h1 h2
    rw [eachEl, h1, okBind, keep f h2, okBind]
    rfl
  unfold transformElements
  rw [step splitVolume1 rfl (fun _ => rfl), okBind, step formatVolume1 rfl (fun _ => rfl), okBind, step (specialJournal1 special) rfl (fun _ => rfl), okBind,
    step formatReportNumber1 rfl (fun _ => rfl), okBind, step formatAuthorEd1 rfl (fun _ => rfl), okBind]
  have hb : lookForBooks books (doiEl s r :: ts.map textEl) = .ok (doiEl s r :: ts.map textEl) := by
    unfold lookForBooks
    have : (doiEl s r :: ts.map textEl).find? (·.ty = .quoted) = none := by
      rw [List.find?_eq_none]
      intro e he
      rcases List.mem_cons.1 he with rfl | he
      · simp [doiEl]
      · obtain ⟨t, -, rfl⟩ := List.mem_map.1 he
        simp [textEl]
    rw [this]
  rw [hb, okBind, step formatHepEl rfl (fun _ => rfl), okBind, step removeB1 rfl (fun _ => rfl), okBind,
    step mangleVolume1 rfl (fun _ => rfl), okBind, step arxivUrl1 rfl (fun _ => rfl), okBind]
  have hg : lookForHdl (doiEl s r :: ts.map textEl) = doiEl s r :: ts.map textEl := by
    rw [lookForHdl, hdlGo_none]
    · rfl
    · intro e he
      rcases List.mem_cons.1 he with rfl | he
      · exact hs
      · obtain ⟨t, h, rfl⟩ := List.mem_map.1 he
        exact ht t h
  simp only [hg]
  rw [step hdlUrl1 rfl (fun _ => rfl), okBind]
  rfl

/-- No run of blanks is found where there is none. -/
theorem tidy_finditer {s : Str} (hs : ∀ c ∈ s, isSpace c = true → c = ' ') (h : ¬ py! "  " <:+: s) : finditer Rx.re_multiple_space s = [] := by
  rw [List.eq_nil_iff_forall_not_mem]
  intro m hm
  obtain ⟨p, q, e, ok⟩ := finditer_ok hm
  have hi : m.txt <:+: s := ⟨p, q, e.symm⟩
  obtain ⟨a, b, h1, ⟨x, y, h3, ⟨c, rfl, hc⟩, ⟨d, rfl, hd⟩⟩, h2⟩ := ok.lang
  have hsp : ∀ {c : Char}, (⟨false, false, [.space]⟩ : CSet).mem c = true → isSpace c = true := by
    intro c h
    simpa [CSet.mem, CItem.mem] using h
  have e1 : c = ' ' := hs c (hi.subset (by rw [h1, h3]; simp)) (hsp hc)
  have e2 : d = ' ' := hs d (hi.subset (by rw [h1, h3]; simp)) (hsp hd)
  subst e1 e2
  exact h (List.IsInfix.trans ⟨[], b, by rw [h1, h3]; simp⟩ hi)

/-- The characters of the line. -/
theorem _root_.Spec.DoiLine.all {n : Nat} {pre lead d tail : Str} (h : DoiLine n pre lead d tail) :
    ∀ c ∈ bracketed n ++ ' ' :: (pre ++ (lead ++ d) ++ tail), c ∈ calmChars ++ py! "/_" := by
  intro c hc
  have shape : bracketed n ++ ' ' :: (pre ++ (lead ++ d) ++ tail) = (bracketed n ++ ' ' :: pre) ++ (lead ++ d) ++ tail := by simp
  rw [shape, List.mem_append, List.mem_append] at hc
  rcases hc with (hc | hc) | hc
  · exact List.mem_append_left _ (h.front.chars c hc)
  · exact h.chars c hc
  · exact List.mem_append_left _ (h.back.chars c hc)

theorem _root_.Spec.DoiLine.repair {undesirable : Str → Str} {n : Nat} {pre lead d tail : Str} (h : DoiLine n pre lead d tail)
    (hw : undesirable (bracketed n ++ ' ' :: (pre ++ (lead ++ d) ++ tail)) = bracketed n ++ ' ' :: (pre ++ (lead ++ d) ++ tail)) :
    washRepair undesirable (bracketed n ++ ' ' :: (pre ++ (lead ++ d) ++ tail)) = bracketed n ++ ' ' :: (pre ++ (lead ++ d) ++ tail) := by
  have hA : ∀ c ∈ calmChars ++ py! "/_", isAscii c = true := by decide
  have hslash : ∀ {s : Str}, Calm s → s.count '/' = 0 := fun h => List.count_eq_zero.2 fun hm => absurd (h.chars _ hm) (by decide)
  have hlead : lead.count '/' = 0 := by
    rcases h.word with h | h
    · rw [h]; rfl
    · exact List.count_eq_zero.2 (slash_doiWord h)
  have h1 : (bracketed n ++ ' ' :: (pre ++ (lead ++ d) ++ tail)).count '/' ≤ 1 := by
    have shape : bracketed n ++ ' ' :: (pre ++ (lead ++ d) ++ tail) = (bracketed n ++ ' ' :: pre) ++ (lead ++ d) ++ tail := by simp
    rw [shape, List.count_append, List.count_append (l₁ := bracketed n ++ ' ' :: pre), hslash h.front, List.count_append, hslash h.back, hlead, h.slash]
    omega
  have hall := h.all
  have htidy := h.tidy
  generalize bracketed n ++ ' ' :: (pre ++ (lead ++ d) ++ tail) = s at *
  have e1 : repairUrls s = s := few_repair hA hall h1 (by decide +kernel)
  have e2 : finditer Rx.quoted_comma s = [] := by
    refine few_finditer (c := '"') hA hall ?_
    rw [List.count_eq_zero.2 fun hm => absurd (hall _ hm) (by decide)]
    decide +kernel
  have e3 : finditer Rx.re_multiple_space s = [] :=
    tidy_finditer (fun c hc hs => (by decide : ∀ c ∈ calmChars ++ py! "/_", isSpace c = true → c = ' ') c (hall c hc) hs) htidy
  unfold washRepair
  simp only [e1, hw, sub_of_no_match e2, sub_of_no_match e3]

/-- From the line to the reference. -/
theorem references_doi {undesirable : Str → Str} {lib : Lib} {kbs : Kbs} {fmt : List FmtPart} {n : Nat} {pre lead d tail : Str} (hl : DoiLine n pre lead d tail)
    (ho : NothingAround kbs.tag pre doiMark tail) (hd : ∀ s, '%' ∉ s → lib.unquote s = s)
    (hu : ∀ s, (∀ c ∈ s, isAscii c = true) → lib.unidecode s = s)
    (hw : undesirable (bracketed n ++ ' ' :: (pre ++ (lead ++ d) ++ tail)) = bracketed n ++ ' ' :: (pre ++ (lead ++ d) ++ tail)) :
    ∃ r u v y, parseReferences undesirable lib kbs fmt none [bracketed n ++ ' ' :: (pre ++ (lead ++ d) ++ tail)] =
        .ok ([r], [0, 0, 0, 0, 0, 1, if LeftOver tail then 1 else 0]) ∧ YearOfTwo pre tail u v y ∧
      ∀ k, vals r k = under k (loneRecord n (bracketed n ++ ' ' :: (pre ++ (lead ++ d) ++ tail)) u [(py! "doi", py! "doi:" ++ d)] v y) := by
  have hpre : Calm pre := calm_suffix (a := bracketed n ++ [' ']) (by simpa using hl.front)
  have hclean : CleanText (pre ++ doiMark ++ tail) := clean_mark (n := py! "cds.DOI") hpre
    ⟨by decide, by decide +kernel, by decide +kernel, by
      intro x hx hlen
      cases x with
      | nil => cases hlen
      | cons c x => exact ⟨c, by simp, (by decide : ∀ c ∈ py! "cds.DOI" ++ [' '], c ∉ py! "0123456789") c (hx.subset (by simp))⟩, by decide +kernel⟩ hl.back
  have q1 : ∀ c ∈ pre, c ∈ quietChars := fun c hc => hl.quiet c (by simp [hc])
  have q2 : ∀ c ∈ tail, c ∈ quietChars := fun c hc => hl.quiet c (by simp [hc])
  have htag := tag_token (lib := lib) (kbs := kbs.tag) (l0 := pre ++ doiMark ++ tail) (clean_fixed lib hclean) hpre.chars hl.back.chars hl.quiet
    (.inr ⟨py! "DOI", rfl, by decide, by decide⟩) (by decide) ho hu
  have hh : ∀ {s : Str}, (∀ c ∈ s, c ∈ quietChars) → finditer Rx.re_hdl s = [] := fun h =>
    barren_finditer (A := quietChars) (by decide) (by decide +kernel) h
  have hparse := Props.C19 (toks := [(pre, .doi d)]) (last := tail)
    (by
      intro q hq
      rw [List.mem_singleton] at hq
      subst hq
      exact ⟨noTags_of fun h => absurd (q1 _ h) (by decide), trivial⟩)
    (noTags_of fun h => absurd (q2 _ h) (by decide)) [] []
  have hels : lineEls [(pre, Item.doi d)] tail = doiEl pre d :: (after tail).map textEl := by
    unfold lineEls after
    split <;> rfl
  rw [hels] at hparse
  have hparse' : parseTagged (pre ++ doiMark ++ tail) [d] [] = .ok
      (doiEl pre d :: (after tail).map textEl, { misc := if LeftOver tail then 1 else 0, doi := 1 }) := by
    refine Eq.trans (by simpa [Item.dois, Item.urls, renderLine, Item.render] using hparse) ?_
    unfold after
    by_cases h : LeftOver tail <;> simp [h, howMany, doiEl, textEl]
  have htr := transform_doi (special := kbs.special) (books := kbs.books) (r := d) (ts := after tail) (hh q1) fun t ht => by
    unfold after at ht
    split at ht
    · rw [List.mem_singleton.1 ht]; exact hh q2
    · cases ht
  have hfirst : NoSpaceFirst (pre ++ (lead ++ d) ++ tail) := by
    intro c hc
    cases hs : isSpace c with
    | false => rfl
    | true =>
      exfalso
      have hcc : c = ' ' := (by decide : ∀ c ∈ calmChars ++ py! "/_", isSpace c = true → c = ' ') c
        (hl.all c (List.mem_append_right _ (List.mem_cons_of_mem _ (List.mem_of_head? hc)))) hs
      subst hcc
      have htidy := hl.tidy
      generalize pre ++ (lead ++ d) ++ tail = s at hc htidy
      cases s with
      | nil => cases hc
      | cons e r => cases hc; exact htidy ⟨bracketed n, r, by simp⟩
  exact references_lone (undesirable := undesirable) (lib := lib) (kbs := kbs) (fmt := fmt) (n := n)
    (raw := bracketed n ++ ' ' :: (pre ++ (lead ++ d) ++ tail)) (s := pre) (t := tail)
    (els := doiEl pre d :: (after tail).map textEl) (count := [])
    (e := doiEl pre d) (c := { misc := if LeftOver tail then 1 else 0, doi := 1 })
    (item := [(py! "doi", py! "doi:" ++ d)]) (hl.repair hw)
    (by
      intro cs hcs
      unfold parseReferenceLine
      rw [removeMarker_numbered n hfirst]
      dsimp only
      rw [dois_doiLine hd hl]
      dsimp only
      rw [clean_urls hclean]
      dsimp only
      rw [htag, okBind]
      dsimp only
      rw [hparse', okBind]
      dsimp only
      rw [hcs, okBind]
      rfl)
    htr
    (by simp [doiEl, loneKinds]) rfl rfl (fun h => absurd (q1 _ h) (by decide)) (fun h => absurd (q2 _ h) (by decide)) (fun h => absurd (by simp [doiEl]) h)
    (fun m => rfl) (by intro p hp; rw [List.mem_singleton.1 hp]; simp) (fun m f => ⟨_, rfl⟩)

end Py
