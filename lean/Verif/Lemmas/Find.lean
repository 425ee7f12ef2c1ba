import Verif.Lemmas.Rebuild2
import Verif.Lemmas.Pipeline
import Verif.Model.Find
import Verif.Spec.Find

/-!
# Lemmas about finding the reference section
-/

open Py Spec

namespace Py

variable [UnicodeDB]

theorem matchList_some {line : Str} {rs : List Re} {r : Re} {m : Match} (h : matchList line rs = some (r, m)) :
    r ∈ rs ∧ reMatch r line = some m := by
  induction rs with
  | nil => cases h
  | cons a rs ih =>
    unfold matchList at h
    split at h
    · next m' hm => cases h; exact ⟨by simp, hm⟩
    · obtain ⟨h1, h2⟩ := ih h; exact ⟨by simp [h1], h2⟩

/-! ### The start of the section -/

/-- What is known about the details found. -/
structure FoundAt (doc : List Str) (d : Details) : Prop where
  start : d.start < doc.length
  pattern : (d.pattern = none ∧ d.marker = none) ∨
    ∃ r pfx mk, d.pattern = some r ∧ d.marker = some mk ∧ r ∈ knownMarkers pfx ∧ pfx.groups = []
  same : d.sameLine = true → ∃ t, d.title = some t
  title : ∀ t l, d.title = some t → doc[d.start]? = some l → TitleLine l t
  noTitle : ∀ l, d.title = none → doc[d.start]? = some l → FirstMarkerLine l

theorem numerationInBody_known {ls : List Str} {mk : Str} {r : Re} (h : numerationInBody ls = some (mk, r)) :
    r ∈ Rx.marker_patterns .eps := by
  induction ls with
  | nil => cases h
  | cons l ls ih =>
    unfold numerationInBody at h
    split at h
    · exact ih h
    · split at h
      · exact ih h
      · next r' m hm =>
        split at h
        · exact ih h
        · cases h; exact (matchList_some hm).1

theorem numerationInTitle_known {ls : List Str} {t mk : Str} {r : Re} {b : Bool} (h : numerationInTitle ls t = some (mk, r, b)) :
    r ∈ Rx.marker_patterns (Re.strI t) := by
  unfold numerationInTitle at h
  split at h
  · cases h
  · split at h
    · cases h
    · next r' m hm => cases h; exact (matchList_some hm).1

omit [UnicodeDB] in
theorem marker_known {pfx r : Re} (h : r ∈ Rx.marker_patterns pfx) : r ∈ knownMarkers pfx := by
  simp [knownMarkers, h]

omit [UnicodeDB] in
theorem titles_must : (Rx.section_title_patterns.all fun r => r.must [G.title]) = true := by decide +kernel

theorem findNumeration_found {doc : List Str} {n : Nat} {line : Str} {r : Re} {m : Match} (hl : doc[n]? = some line)
    (hr : r ∈ Rx.section_title_patterns) (hm : reMatch r line = some m) (ls : List Str) :
    FoundAt doc (findSectionNumeration ls n ((m.group G.title).getD [])).1 ∧
      (findSectionNumeration ls n ((m.group G.title).getD [])).1.start = n := by
  obtain ⟨t, ht⟩ := reMatch_must1 (List.all_eq_true.1 titles_must r hr) hm
  have hn : n < doc.length := (List.getElem?_eq_some_iff.1 hl).1
  rw [ht, Option.getD_some]
  have htl : ∀ l, doc[n]? = some l → TitleLine l t := by
    intro l hl'
    rw [hl] at hl'; cases hl'
    exact ⟨r, hr, m, hm, ht⟩
  unfold findSectionNumeration
  split
  · next mk r' f hf =>
    exact ⟨⟨hn, .inr ⟨r', Re.strI t, mk, rfl, rfl, marker_known (numerationInTitle_known hf), strI_groups t⟩, fun _ => ⟨t, rfl⟩,
      fun t' l h1 h2 => by cases h1; exact htl l h2, fun l h1 => by cases h1⟩, rfl⟩
  · split
    · next mk r' hf =>
      exact ⟨⟨hn, .inr ⟨r', .eps, mk, rfl, rfl, marker_known (numerationInBody_known hf), rfl⟩, fun _ => ⟨t, rfl⟩,
        fun t' l h1 h2 => by cases h1; exact htl l h2, fun l h1 => by cases h1⟩, rfl⟩
    · exact ⟨⟨hn, .inl ⟨rfl, rfl⟩, fun _ => ⟨t, rfl⟩,
        fun t' l h1 h2 => by cases h1; exact htl l h2, fun l h1 => by cases h1⟩, rfl⟩

theorem sectionInner_found {doc : List Str} {r : Re} (hr : r ∈ Rx.section_title_patterns) :
    ∀ (n : Nat) (d : Option Details), (∀ x, d = some x → FoundAt doc x) → ∀ y, sectionInner doc r n d = some y → FoundAt doc y := by
  intro n
  induction n with
  | zero => intro d hd y h; exact hd y h
  | succ n ih =>
    intro d hd y h
    unfold sectionInner at h
    split at h
    · exact ih d hd y h
    · next line hl =>
      split at h
      · exact ih d hd y h
      · next m hm =>
        have hf := (findNumeration_found hl hr hm ((doc.drop n).take 6)).1
        generalize findSectionNumeration ((doc.drop n).take 6) n ((m.group G.title).getD []) = p at h hf
        obtain ⟨t, found⟩ := p
        simp only at h hf
        have key : ∀ keep : Bool, (if keep = true then sectionInner doc r n d else if found = true then some t
            else sectionInner doc r n (some t)) = some y → FoundAt doc y := by
          intro keep h
          cases keep with
          | true => exact ih d hd y h
          | false =>
            cases found with
            | true => cases h; exact hf
            | false => exact ih _ (fun x hx => by cases hx; exact hf) y h
        exact key _ h

theorem sectionOuter_found {doc : List Str} {rs : List Re} (hr : ∀ r ∈ rs, r ∈ Rx.section_title_patterns) {y : Details}
    (h : sectionOuter doc rs = some y) : FoundAt doc y := by
  induction rs with
  | nil => cases h
  | cons r rs ih =>
    unfold sectionOuter at h
    split at h
    · next d hd => cases h; exact sectionInner_found (hr r (by simp)) _ _ (by simp) _ hd
    · exact ih (fun r hh => hr r (by simp [hh])) h

theorem noTitleLoop_found {doc : List Str} {r : Re} (hr : r ∈ [Rx.re_reference_line_bracket_markers, Rx.re_reference_line_dot_markers,
    Rx.re_reference_line_number_markers]) {n : Nat} {y : Details} (h : noTitleLoop doc r n = some y) : FoundAt doc y := by
  induction n with
  | zero => cases h
  | succ n ih =>
    unfold noTitleLoop at h
    split at h
    · exact ih h
    · next line hl =>
      split at h
      · exact ih h
      · next m hm =>
        simp only at h
        split at h
        · cases h
          have hk : r ∈ knownMarkers .eps := by
            unfold knownMarkers
            exact List.mem_append.2 (.inr hr)
          refine ⟨(List.getElem?_eq_some_iff.1 hl).1, .inr ⟨r, .eps, _, rfl, rfl, hk, rfl⟩, (fun h => by cases h), (fun t l h1 => by cases h1), ?_⟩
          intro l _ hl'
          rw [hl] at hl'; cases hl'
          unfold hasNumber at hm
          split at hm
          · cases hm
          · next m' hm' =>
            split at hm
            · next he => cases hm; exact ⟨r, hr, m, hm', by simpa using he⟩
            · cases hm
        · exact ih h

theorem sectionBeginning_found {doc : List Str} {d : Details} (h : sectionBeginning doc = some d) : FoundAt doc d := by
  unfold sectionBeginning at h
  split at h
  · next d' hd => cases h; exact sectionOuter_found (fun _ h => h) hd
  · split at h
    · next hd => cases h; exact noTitleLoop_found (by simp) hd
    · split at h
      · next hd => cases h; exact noTitleLoop_found (by simp) hd
      · exact noTitleLoop_found (by simp) h

/-! ### The end of the section -/

theorem pyInt_error {t : Str} {e : PyErr} (h : pyInt t = .error e) : e = .valueError := by
  unfold pyInt at h
  simp only at h
  split at h
  · cases h; rfl
  · split at h
    · cases h; rfl
    · split at h
      · cases h
      · cases h; rfl

theorem matchNumber_cases {r : Re} (hg : GoodMarker (Marker.of r)) {line : Str} {m : Match} (hm : reMatch r line = some m) :
    (∃ n, matchNumber (r, m) = .ok n) ∨ matchNumber (r, m) = .error .valueError ∨ matchNumber (r, m) = .error .indexError := by
  unfold matchNumber
  cases hr : r.hasGroup G.marknum with
  | false => exact .inr (.inr (by simp))
  | true =>
    obtain ⟨t, ht⟩ := reMatch_must1 (hg hr).1 hm
    simp only [ht, if_true]
    cases hp : pyInt t with
    | ok n => exact .inl ⟨n, rfl⟩
    | error e => rw [pyInt_error hp]; exact .inr (.inl rfl)

theorem countRefs_total {pats : List Re} (hg : ∀ r ∈ pats, GoodMarker (Marker.of r)) (line : Str) (c : Nat) :
    ∃ n, countRefs pats line c = .ok n := by
  unfold countRefs
  split
  · exact ⟨c, rfl⟩
  · next p hp =>
    obtain ⟨r, m⟩ := p
    obtain ⟨h1, h2⟩ := matchList_some hp
    rcases matchNumber_cases (hg r h1) h2 with ⟨n, e⟩ | e | e <;> rw [e]
    · exact ⟨n, rfl⟩
    · exact ⟨c, rfl⟩
    · exact ⟨c, rfl⟩

theorem isNextRef_total {pats : List Re} (hg : ∀ r ∈ pats, GoodMarker (Marker.of r)) (c : Nat) (line : Str) :
    ∃ b, isNextRef pats c line = .ok b := by
  unfold isNextRef
  split
  · exact ⟨_, rfl⟩
  · next p hp =>
    obtain ⟨r, m⟩ := p
    obtain ⟨h1, h2⟩ := matchList_some hp
    split
    · exact ⟨_, rfl⟩
    · rcases matchNumber_cases (hg r h1) h2 with ⟨n, e⟩ | e | e <;> rw [e]
      · exact ⟨_, rfl⟩
      · exact ⟨_, rfl⟩
      · exact ⟨_, rfl⟩

theorem nextRefIn_total {pats : List Re} (hg : ∀ r ∈ pats, GoodMarker (Marker.of r)) (c : Nat) (ls : List Str) :
    ∃ b, nextRefIn pats c ls = .ok b := by
  induction ls with
  | nil => exact ⟨_, rfl⟩
  | cons l ls ih =>
    obtain ⟨b, hb⟩ := isNextRef_total hg c l
    obtain ⟨b', hb'⟩ := ih
    rw [nextRefIn, hb, okBind]
    cases b
    · exact ⟨b', hb'⟩
    · exact ⟨true, rfl⟩

theorem titleEnds_total {pats : List Re} (hg : ∀ r ∈ pats, GoodMarker (Marker.of r)) (c : Nat) (l : Str) (ls : List Str) :
    ∃ b, titleEnds pats c l ls = .ok b ∧ (b = true → NextHeading l) := by
  unfold titleEnds
  split
  · next h =>
    obtain ⟨b, hb⟩ := nextRefIn_total hg c (ls.take 199)
    refine ⟨!b, by rw [hb]; rfl, fun _ => ?_⟩
    obtain ⟨⟨r, m⟩, hp⟩ := Option.isSome_iff_exists.1 h
    obtain ⟨h1, h2⟩ := matchList_some hp
    exact ⟨r, h1, m, h2⟩
  · exact ⟨false, rfl, by simp⟩

theorem digitLine_axis {l : Str} (h : digitLine l = true) : AxisLine l := by
  simp only [digitLine, Bool.and_eq_true, decide_eq_true_eq, isdigit, List.all_eq_true] at h
  obtain ⟨h1, -, h2⟩ := h
  obtain ⟨a, b, e, ha, hb, -⟩ := stripP_split isSpace (l.filter fun c => !(c == ' ' || c == '.' || c == '-' || c == '+' || c == '×' || c == '−'))
  have e : _ = a ++ digitTest l ++ b := e
  refine ⟨?_, ?_⟩
  · intro c hc
    by_cases hk : (!(c == ' ' || c == '.' || c == '-' || c == '+' || c == '×' || c == '−')) = true
    · have : c ∈ a ++ digitTest l ++ b := e ▸ List.mem_filter.2 ⟨hc, hk⟩
      simp only [List.mem_append] at this
      rcases this with (h | h) | h
      · exact .inl (ha c h)
      · exact .inr (.inl (h2 c h))
      · exact .inl (hb c h)
    · simp only [Bool.not_eq_true', Bool.not_eq_false, Bool.or_eq_true, beq_iff_eq] at hk
      rcases hk with ((((rfl | h) | h) | h) | h) | h
      · exact .inl (by decide)
      all_goals simp [h]
  · refine Nat.lt_of_lt_of_le h1 ?_
    have hs : (digitTest l).Sublist (l.filter isDigitC) := by
      have h3 : (digitTest l).Sublist l := by
        have : (digitTest l).Sublist (a ++ digitTest l ++ b) := (List.sublist_append_right _ _).trans (List.sublist_append_left _ _)
        exact this.trans (e ▸ List.filter_sublist)
      have h4 : (digitTest l).filter isDigitC = digitTest l := List.filter_eq_self.2 h2
      exact h4 ▸ h3.filter _
    exact hs.length_le

/-- The loop ends at the end of the document, at a heading, or after a line of digits. -/
theorem endLoop_total {pats : List Re} (hg : ∀ r ∈ pats, GoodMarker (Marker.of r)) (c : Nat) (ls : List Str) :
    ∃ n, endLoop pats c ls = .ok n ∧ n ≤ ls.length ∧
      (n = ls.length ∨ (∃ l, ls[n]? = some l ∧ NextHeading l) ∨ ∃ l k, n = k + 1 ∧ ls[k]? = some l ∧ digitLine l = true) := by
  induction ls generalizing c with
  | nil => exact ⟨0, rfl, by simp, .inl rfl⟩
  | cons l ls ih =>
    obtain ⟨c', hc⟩ := countRefs_total hg l c
    obtain ⟨b, hb, hb'⟩ := titleEnds_total hg c' l ls
    rw [endLoop, hc, okBind, hb, okBind]
    cases b with
    | true => exact ⟨0, rfl, by simp, .inr (.inl ⟨l, rfl, hb' rfl⟩)⟩
    | false =>
      simp only [Bool.false_eq_true, if_false]
      by_cases hd : (digitLine l && digitLoop 1 4 1 ls) = true
      · rw [if_pos hd]
        rw [Bool.and_eq_true] at hd
        exact ⟨1, rfl, by simp, .inr (.inr ⟨l, 0, rfl, rfl, hd.1⟩)⟩
      · rw [if_neg hd]
        obtain ⟨n, h1, h2, h3⟩ := ih c'
        refine ⟨n + 1, by rw [h1]; rfl, by simpa using h2, ?_⟩
        rcases h3 with h3 | ⟨l', h3, h4⟩ | ⟨l', k, h3, h4, h5⟩
        · exact .inl (by simp [h3])
        · exact .inr (.inl ⟨l', by simpa using h3, h4⟩)
        · exact .inr (.inr ⟨l', k + 1, by omega, by simpa using h4, h5⟩)

theorem endPatterns_good {doc : List Str} {d : Details} (h : FoundAt doc d) : ∀ r ∈ endPatterns d, GoodMarker (Marker.of r) := by
  intro r hr
  rcases h.pattern with ⟨h1, h2⟩ | ⟨r', pfx, mk, h1, h2, h3, h4⟩
  · simp only [endPatterns, h1, h2] at hr
    exact known_good (pfx := .eps) rfl (marker_known hr)
  · simp only [endPatterns, h1, h2, List.mem_singleton] at hr
    subst hr
    exact known_good h4 h3

theorem findEnd_total {doc : List Str} {d : Details} (h : FoundAt doc d) :
    ∃ e, findEnd doc d = .ok (some e) ∧ d.start ≤ e ∧ e ≤ doc.length ∧
      (e = doc.length ∨ (∃ l, doc[e]? = some l ∧ NextHeading l) ∨ ∃ l k, d.start ≤ k ∧ e = k + 1 ∧ doc[k]? = some l ∧ digitLine l = true) := by
  have hs := h.start
  obtain ⟨n, h1, h2, h3⟩ := endLoop_total (endPatterns_good h) 0 (doc.drop d.start)
  rw [List.length_drop] at h2 h3
  have hle : d.start + n ≤ doc.length := by omega
  refine ⟨d.start + n, ?_, by omega, hle, ?_⟩
  · have hc : (decide (doc.length < d.start) || decide (doc.length < 1)) = false := by
      rw [Bool.or_eq_false_iff]
      exact ⟨decide_eq_false (by omega), decide_eq_false (by omega)⟩
    rw [findEnd, hc, if_neg (by simp), h1, okBind]
    rfl
  · rcases h3 with h3 | ⟨l, h3, h4⟩ | ⟨l, k, h3, h4, h5⟩
    · exact .inl (by omega)
    · exact .inr (.inl ⟨l, by rw [List.getElem?_drop] at h3; exact h3, h4⟩)
    · exact .inr (.inr ⟨l, d.start + k, by omega, by omega, by rw [List.getElem?_drop] at h4; exact h4, h5⟩)

/-- A line with a marker follows among the next lines. -/
theorem nextRefIn_true {pats : List Re} {c : Nat} {ls : List Str} (h : nextRefIn pats c ls = .ok true) :
    ∃ l ∈ ls, ∃ r ∈ pats, ∃ m, reMatch r (strip l) = some m := by
  induction ls with
  | nil => cases h
  | cons l ls ih =>
    rw [nextRefIn] at h
    obtain ⟨b, hb, h⟩ := bind_ok h
    cases b with
    | true =>
      unfold isNextRef at hb
      split at hb
      · cases hb
      · next p hp =>
        obtain ⟨r, m⟩ := p
        obtain ⟨h1, h2⟩ := matchList_some hp
        exact ⟨l, by simp, r, h1, m, h2⟩
    | false =>
      obtain ⟨l', h1, h2⟩ := ih h
      exact ⟨l', by simp [h1], h2⟩

theorem titleEnds_false {pats : List Re} {c : Nat} {l : Str} {ls : List Str} (h : titleEnds pats c l ls = .ok false)
    (hl : NextHeading l) : ∃ l' ∈ ls.take 199, ∃ r ∈ pats, ∃ m, reMatch r (strip l') = some m := by
  unfold titleEnds at h
  have hs : (matchList (strip l) Rx.post_title_patterns).isSome = true := by
    obtain ⟨r, hr, m, hm⟩ := hl
    generalize Rx.post_title_patterns = rs at hr
    induction rs with
    | nil => cases hr
    | cons a rs ih =>
      unfold matchList
      split
      · rfl
      · next hn =>
        rcases List.mem_cons.1 hr with rfl | hr
        · rw [hm] at hn; cases hn
        · exact ih hr
  rw [if_pos hs] at h
  obtain ⟨b, hb, h⟩ := bind_ok h
  cases b with
  | true => exact nextRefIn_true hb
  | false => cases h

theorem endLoop_first {pats : List Re} {c n : Nat} {ls : List Str} (h : endLoop pats c ls = .ok n) :
    ∀ (i : Nat) l, i < n → ls[i]? = some l → NextHeading l →
      ∃ (j : Nat) (l' : Str), i < j ∧ j < i + 200 ∧ ls[j]? = some l' ∧ ∃ r ∈ pats, ∃ m, reMatch r (strip l') = some m := by
  induction ls generalizing c n with
  | nil => intro i l _ hl; simp at hl
  | cons x ls ih =>
    rw [endLoop] at h
    obtain ⟨c', -, h⟩ := bind_ok h
    obtain ⟨b, hb, h⟩ := bind_ok h
    cases b with
    | true => cases h; intro i l hi; omega
    | false =>
      have h0 : NextHeading x → ∃ (j : Nat) (l' : Str), 0 < j ∧ j < 0 + 200 ∧ (x :: ls)[j]? = some l' ∧
          ∃ r ∈ pats, ∃ m, reMatch r (strip l') = some m := by
        intro hx
        obtain ⟨l', h1, h2⟩ := titleEnds_false hb hx
        obtain ⟨j, hj⟩ := List.getElem?_of_mem h1
        rw [List.getElem?_take] at hj
        split at hj
        · exact ⟨j + 1, l', by omega, by omega, by simpa using hj, h2⟩
        · cases hj
      simp only [Bool.false_eq_true, if_false] at h
      split at h
      · cases h
        intro i l hi hl hx
        obtain rfl : i = 0 := by omega
        cases hl
        exact h0 hx
      · obtain ⟨k, hk, h⟩ := bind_ok h
        cases h
        intro i l hi hl hx
        cases i with
        | zero => cases hl; exact h0 hx
        | succ i =>
          obtain ⟨j, l', h1, h2, h3, h4⟩ := ih hk i l (by omega) (by simpa using hl) hx
          exact ⟨j + 1, l', by omega, by omega, by simpa using h3, h4⟩

/-! ### The lines of the section -/

omit [UnicodeDB] in
theorem find_some_first {sub : Str} : ∀ {s : Str} {k : Nat}, find sub s = some k →
    AfterFirst sub s (s.drop (k + sub.length))
  | [], k, h => by
    unfold find at h
    split at h
    · next hs =>
      cases h
      have : sub = [] := by simpa using hs
      subst this
      exact ⟨[], by simp, fun u' r' _ => by simp⟩
    · cases h
  | c :: cs, k, h => by
    unfold find at h
    split at h
    · next hs =>
      cases h
      obtain ⟨r, hr⟩ := List.isPrefixOf_iff_prefix.1 hs
      refine ⟨[], ?_, fun u' r' _ => by simp⟩
      rw [← hr]
      simp
    · next hs =>
      cases hf : find sub cs with
      | none => rw [hf] at h; cases h
      | some j =>
        rw [hf] at h
        cases h
        obtain ⟨u, h1, h2⟩ := find_some_first hf
        refine ⟨c :: u, ?_, ?_⟩
        · rw [show j + 1 + sub.length = j + sub.length + 1 by omega, List.drop_succ_cons, List.cons_append, List.cons_append, ← h1]
        · intro u' r' e
          cases u' with
          | nil => exact absurd (List.isPrefixOf_iff_prefix.2 ⟨r', by simpa using e.symm⟩) hs
          | cons x u' =>
            simp only [List.cons_append, List.cons.injEq] at e
            have := h2 u' r' (by simpa using e.2)
            simpa using this

theorem stripFooter_drop (t : Str) (ls : List Str) : DropOnly (fun l => Footer t l) ls (stripFooter ls t) := by
  induction ls with
  | nil => exact .nil
  | cons l ls ih =>
    unfold stripFooter at ih ⊢
    rw [List.filter_cons]
    split
    · exact .keep ih
    · next h =>
      refine .drop ?_ ih
      have : ∃ m, reMatch (footerPattern t) l = some m := by
        cases hm : reMatch (footerPattern t) l with
        | none => rw [hm] at h; simp at h
        | some m => exact ⟨m, rfl⟩
      unfold reMatch at this
      rw [matchHere_isSome] at this
      obtain ⟨w, rest, rfl, hs⟩ := this
      unfold footerPattern at hs
      obtain ⟨u1, v1, rfl, s1, u2, v2, rfl, s2, u3, v3, rfl, s3, u4, v4, rfl, s4, u5, v5, rfl, s5, u6, v6, rfl, s6, u7, v7, rfl, s7,
        u8, v8, rfl, s8, u9, v9, rfl, s9, s10⟩ := hs
      obtain ⟨rfl, s10⟩ := s10
      have s8 : u8 = t := s8
      subst s8
      have hopt : ∀ {c : Char} {pre w post : Str}, Sem (Re.opt (Re.ch c)) pre w post → ∀ x ∈ w, x = c := by
        intro c pre w post h
        rcases h with h | h
        · rw [sem_ch.1 h]; simp
        · have : w = [] := h
          subst this; simp
      have hdig : ∀ {n : Nat} {pre w post : Str}, Sem (Re.upTo n Re.digit) pre w post → ∀ x ∈ w, isDec x = true := by
        intro n
        induction n with
        | zero =>
          intro pre w post h
          have : w = [] := h
          subst this; simp
        | succ n ih =>
          intro pre w post h
          rcases h with ⟨a, b, rfl, ⟨c, rfl, hc⟩, h2⟩ | h
          · intro x hx
            rcases List.mem_append.1 hx with hx | hx
            · rw [List.mem_singleton] at hx
              subst hx
              simpa [CSet.mem, CItem.mem] using hc
            · exact ih h2 x hx
          · have : w = [] := h
            subst this; simp
      have h7 : Spaces u7 := sem_spaces.1 s7
      have h9 : Spaces u9 := sem_spaces.1 s9
      refine ⟨u1 ++ u2 ++ u3 ++ u4 ++ u5 ++ u6 ++ u7, u9 ++ rest, by simp [List.append_assoc], ?_, ?_⟩
      · intro x hx
        simp only [List.mem_append] at hx
        rcases hx with (((((hx | hx) | hx) | hx) | hx) | hx) | hx
        · rw [hopt s1 x hx]; simp
        · rw [hopt s2 x hx]; simp
        · exact .inr (.inl (hdig s3 x hx))
        · rw [hopt s4 x hx]; simp
        · rw [hopt s5 x hx]; simp
        · rw [hopt s6 x hx]; simp
        · exact .inl (h7 x hx)
      · intro x hx
        rcases List.mem_append.1 hx with hx | hx
        · exact h9 x hx
        · rcases s10 with s10 | s10
          · subst s10; cases hx
          · subst s10
            rw [List.mem_singleton] at hx
            subst hx
            decide

omit [UnicodeDB] in
theorem dropOnly_refl {α : Type} {P : α → Prop} (ls : List α) : DropOnly P ls ls := by
  induction ls with
  | nil => exact .nil
  | cons a ls ih => exact .keep ih

omit [UnicodeDB] in
theorem dropOnly_mono {α : Type} {P Q : α → Prop} (h : ∀ a, P a → Q a) {as bs : List α} (hd : DropOnly P as bs) : DropOnly Q as bs := by
  induction hd with
  | nil => exact .nil
  | keep _ ih => exact .keep ih
  | drop hp _ ih => exact .drop (h _ hp) ih

omit [UnicodeDB] in
theorem dropOnly_mem {α : Type} {P : α → Prop} {as bs : List α} (hd : DropOnly P as bs) : ∀ b ∈ bs, b ∈ as := by
  induction hd with
  | nil => simp
  | keep _ ih =>
    intro b hb
    rcases List.mem_cons.1 hb with rfl | hb
    · simp
    · exact List.mem_cons_of_mem _ (ih b hb)
  | drop _ _ ih => exact fun b hb => List.mem_cons_of_mem _ (ih b hb)

omit [UnicodeDB] in
theorem raw_length {doc : List Str} {start stop : Nat} {title : Option Str} {same : Bool} {raw : List Str}
    (h : RawSection doc start stop title same raw) : ∀ l ∈ raw, ∃ l' ∈ doc, l.length ≤ l'.length := by
  have hm : ∀ {a b : Nat} {l : Str}, l ∈ (doc.take a).drop b → ∃ l' ∈ doc, l.length ≤ l'.length :=
    fun hl => ⟨_, List.mem_of_mem_take (List.mem_of_mem_drop hl), Nat.le_refl _⟩
  cases h with
  | noTitle => exact fun l hl => hm hl
  | title => exact fun l hl => hm hl
  | @sameLine t l0 r h1 h2 h3 =>
    intro l hl
    rcases List.mem_cons.1 hl with rfl | hl
    · obtain ⟨u, rfl, -⟩ := h2
      exact ⟨_, List.mem_of_getElem? h1, by simp only [List.length_append]; omega⟩
    · exact hm hl
  | empty => simp

theorem sectionLines_spec {doc : List Str} {d : Details} (h : FoundAt doc d) {e : Nat} (he : d.start ≤ e) :
    ∃ ls, sectionLines doc d.start (some e) d.title d.sameLine = .ok ls ∧ SectionOf doc d.start e d.title d.sameLine ls := by
  have hs := h.start
  have hstrip : ∀ raw : List Str, DropOnly (fun l => ∃ t, d.title = some t ∧ Footer t l) raw
      (match d.title with
        | none => raw
        | some t => if t.isEmpty then raw else stripFooter raw t) := by
    intro raw
    split
    · exact dropOnly_refl _
    · next t ht =>
      split
      · exact dropOnly_refl _
      · exact dropOnly_mono (fun l hl => ⟨t, ht, hl⟩) (stripFooter_drop t raw)
  cases hb : d.sameLine with
  | false =>
    refine ⟨_, rfl, _, ?_, hstrip _⟩
    cases ht : d.title with
    | none => exact .noTitle
    | some t => exact .title
  | true =>
    obtain ⟨t, ht⟩ := h.same hb
    obtain ⟨l, hl⟩ : ∃ l, doc[d.start]? = some l := ⟨_, List.getElem?_eq_getElem hs⟩
    obtain ⟨r, hr, m, hm, hg⟩ := h.title t l ht hl
    obtain ⟨p, q, hpq⟩ := (matchHere_ok hm).1.group_infix hg
    have hf : ∃ k, find t l = some k := by
      have := find_isSome_iff.2 ⟨p, q, by simpa using hpq⟩
      exact Option.isSome_iff_exists.1 this
    obtain ⟨k, hk⟩ := hf
    have hc : cutTitle l t = l.drop (k + t.length) := by rw [cutTitle, hk]
    unfold sectionLines
    simp only [if_true, hl, ht]
    refine ⟨_, rfl, ((doc.set d.start (cutTitle l t)).take e).drop d.start, ?_, ?_⟩
    · by_cases hlt : d.start < e
      · have : ((doc.set d.start (cutTitle l t)).take e).drop d.start = cutTitle l t :: (doc.take e).drop (d.start + 1) := by
          have hlen : d.start < ((doc.set d.start (cutTitle l t)).take e).length := by
            rw [List.length_take, List.length_set]; omega
          rw [List.drop_eq_getElem_cons hlen]
          congr 1
          · simp
          · rw [List.take_set, List.drop_set_of_lt (by omega)]
        rw [this, hc]
        exact .sameLine hl (find_some_first hk) hlt
      · have : e = d.start := by omega
        subst this
        rw [List.drop_eq_nil_of_le (by rw [List.length_take]; omega)]
        exact .empty (Nat.le_refl _)
    · have := hstrip (((doc.set d.start (cutTitle l t)).take e).drop d.start)
      rw [ht] at this
      exact this

theorem pattern_good {doc : List Str} {d : Details} (h : FoundAt doc d) : ∀ k, d.pattern.map Marker.of = some k → GoodMarker k := by
  intro k hk
  rcases h.pattern with ⟨h1, h2⟩ | ⟨r', pfx, mk, h1, h2, h3, h4⟩
  · rw [h1] at hk; cases hk
  · rw [h1] at hk
    cases hk
    exact known_good h4 h3

theorem extractDoc_spec {doc : List Str} (hl : ∀ l ∈ doc, l.length ≤ 4300) :
    ∃ refs st, extractDoc doc (sectionBeginning doc) = .ok (refs, st) ∧
      ((sectionBeginning doc = none ∧ refs = [] ∧ st = 4) ∨
        ∃ d e lines, sectionBeginning doc = some d ∧ FoundAt doc d ∧ d.start ≤ e ∧ e ≤ doc.length ∧
          (e = doc.length ∨ (∃ l, doc[e]? = some l ∧ NextHeading l) ∨
            ∃ l k, d.start ≤ k ∧ e = k + 1 ∧ doc[k]? = some l ∧ digitLine l = true) ∧
          SectionOf doc d.start e d.title d.sameLine lines ∧ rebuild lines (d.pattern.map Marker.of) = .ok refs ∧ st = 0) := by
  cases hb : sectionBeginning doc with
  | none => exact ⟨[], 4, rfl, .inl ⟨rfl, rfl, rfl⟩⟩
  | some d =>
    have hf := sectionBeginning_found hb
    obtain ⟨e, h1, h2, h3, h4⟩ := findEnd_total hf
    obtain ⟨ls, h5, h6⟩ := sectionLines_spec hf h2
    have hl' : ∀ l ∈ ls, l.length ≤ 4300 := by
      intro l hm
      obtain ⟨raw, hr, hd⟩ := h6
      obtain ⟨l', hl1, hl2⟩ := raw_length hr l (dropOnly_mem hd l hm)
      exact Nat.le_trans hl2 (hl l' hl1)
    obtain ⟨refs, h7⟩ := rebuild_total (pattern_good hf) hl'
    refine ⟨refs, 0, ?_, .inr ⟨d, e, ls, rfl, hf, h2, h3, h4, h6, h7, rfl⟩⟩
    simp only [extractDoc, h1, okBind, extractSection, getReferenceLines, h5, h7]
    rfl

end Py
