import Verif.Lemmas.Reports
import Verif.Lemmas.Lone

/-!
# Helper lemmas: a report number of a known category, from the line to the reference
-/

namespace Py
open Spec
open scoped List

variable [UnicodeDB]

omit [UnicodeDB] in
/-- The element of a report number. -/
def reportEl (s r : Str) : El := { ty := .reportnumber, misc := s, reportNum := some r }

theorem transform_report {special : List Str} {books : Books} {s r : Str} {ts : List Str} (hs : finditer Rx.re_hdl s = []) (ht : ∀ t ∈ ts, finditer Rx.re_hdl t = []) :
    transformElements special books none (reportEl s r :: ts.map textEl) = .ok (reportEl s (formatHepStr (formatReport r)) :: ts.map textEl) := by
  have keep : ∀ (f : El → Py El), (∀ t, f (textEl t) = .ok (textEl t)) → eachEl f (ts.map textEl) = .ok (ts.map textEl) := by
    intro f h
    refine eachEl_same fun e he => ?_
    obtain ⟨t, -, rfl⟩ := List.mem_map.1 he
    exact h t
  have step : ∀ (f : El → Py El) (r r' : Str), f (reportEl s r) = .ok (reportEl s r') → (∀ t, f (textEl t) = .ok (textEl t)) →
      eachEl f (reportEl s r :: ts.map textEl) = .ok (reportEl s r' :: ts.map textEl) := by
    intro f r r' h1 h2
    rw [eachEl, h1, okBind, keep f h2, okBind]
    rfl
  unfold transformElements
  rw [step splitVolume1 r r rfl (fun _ => rfl), okBind, step formatVolume1 r r rfl (fun _ => rfl), okBind, step (specialJournal1 special) r r rfl (fun _ => rfl), okBind,
    step formatReportNumber1 r (formatReport r) rfl (fun _ => rfl), okBind, step formatAuthorEd1 _ _ rfl (fun _ => rfl), okBind]
  have hb : ∀ r, lookForBooks books (reportEl s r :: ts.map textEl) = .ok (reportEl s r :: ts.map textEl) := by
    intro r
    unfold lookForBooks
    have : (reportEl s r :: ts.map textEl).find? (·.ty = .quoted) = none := by
      rw [List.find?_eq_none]
      intro e he
      rcases List.mem_cons.1 he with rfl | he
      · simp [reportEl]
      · obtain ⟨t, -, rfl⟩ := List.mem_map.1 he
        simp [textEl]
    rw [this]
  rw [hb, okBind, step formatHepEl (formatReport r) (formatHepStr (formatReport r)) rfl (fun _ => rfl), okBind, step removeB1 _ _ rfl (fun _ => rfl), okBind,
    step mangleVolume1 _ _ rfl (fun _ => rfl), okBind, step arxivUrl1 _ _ rfl (fun _ => rfl), okBind]
  have hg : ∀ r, lookForHdl (reportEl s r :: ts.map textEl) = reportEl s r :: ts.map textEl := by
    intro r
    rw [lookForHdl, hdlGo_none]
    · rfl
    · intro e he
      rcases List.mem_cons.1 he with rfl | he
      · exact hs
      · obtain ⟨t, h, rfl⟩ := List.mem_map.1 he
        exact ht t h
  simp only [hg]
  rw [step hdlUrl1 _ _ rfl (fun _ => rfl), okBind]
  rfl

theorem reportForm_ne {r r' : Str} (h : ReportForm r r') (hr : r ≠ []) : r' ≠ [] := by
  cases h with
  | hyphen => simp
  | slash h =>
    obtain ⟨a, -, b, -, rfl⟩ := h
    simp
  | same => exact hr

/-- From the line to the reference. -/
theorem references_report {undesirable : Str → Str} {lib : Lib} {kbs : Kbs} {fmt : List FmtPart} {n : Nat} {pre b tail S w : Str} (hl : NumberLine n pre b tail)
    (hk : KnownReport kbs.tag pre b tail S w) (ho : NothingBeside kbs pre b tail) (hne : S ++ w ≠ [])
    (hu : ∀ s, (∀ c ∈ s, isAscii c = true) → lib.unidecode s = s)
    (hw : undesirable (bracketed n ++ ' ' :: (pre ++ b ++ tail)) = bracketed n ++ ' ' :: (pre ++ b ++ tail)) :
    ∃ r R u v y, parseReferences undesirable lib kbs fmt none [bracketed n ++ ' ' :: (pre ++ b ++ tail)] =
        .ok ([r], [0, 1, 0, 0, 0, 0, if LeftOver (unclosed tail) then 1 else 0]) ∧
      ReportForm (S ++ hyphenated w) R ∧ YearOfTwo pre.dropLast (unclosed tail) u v y ∧
      ∀ k, vals r k = under k (loneRecord n (bracketed n ++ ' ' :: (pre ++ b ++ tail)) u [(py! "reportnumber", R)] v y) := by
  have hX : Calm (pre ++ b ++ tail) := calm_suffix (a := bracketed n ++ [' ']) (by simpa using hl.calm)
  obtain ⟨hrc, htag⟩ := tag_report hl hk ho hu
  have q1 : ∀ c ∈ pre.dropLast, c ∈ quietChars := fun c hc => hl.quiet c (by simp [(List.dropLast_sublist _).subset hc])
  have q2 : ∀ c ∈ unclosed tail, c ∈ quietChars := fun c hc => hl.quiet c (by simp [unclosed_mem hc])
  have hh : ∀ {s : Str}, (∀ c ∈ s, c ∈ quietChars) → finditer Rx.re_hdl s = [] := fun h =>
    barren_finditer (A := quietChars) (by decide) (by decide +kernel) h
  have hform : ReportForm (S ++ hyphenated w) (formatHepStr (formatReport (S ++ hyphenated w))) := by
    refine report_form ?_
    intro h
    exact (hrc _ (List.mem_of_getLast? h)).2 rfl
  have hne' : S ++ hyphenated w ≠ [] := by
    intro h
    apply hne
    simp only [List.append_eq_nil_iff, hyphenated, List.map_eq_nil_iff] at h ⊢
    exact h
  have hparse := Props.C19 (toks := [(pre.dropLast, .report (S ++ hyphenated w))]) (last := unclosed tail)
    (by
      intro q hq
      rw [List.mem_singleton] at hq
      subst hq
      refine ⟨noTags_of fun h => absurd (q1 _ h) (by decide), ?_⟩
      intro hi
      exact (hrc '<' (hi.subset (by simp))).1 rfl)
    (noTags_of fun h => absurd (q2 _ h) (by decide)) [] []
  have hels : lineEls [(pre.dropLast, Item.report (S ++ hyphenated w))] (unclosed tail) = reportEl pre.dropLast (S ++ hyphenated w) :: (after (unclosed tail)).map textEl := by
    unfold lineEls after
    split <;> rfl
  rw [hels] at hparse
  have hparse' : parseTagged (withReport pre.dropLast (S ++ hyphenated w) (unclosed tail)) [] [] = .ok
      (reportEl pre.dropLast (S ++ hyphenated w) :: (after (unclosed tail)).map textEl, { misc := if LeftOver (unclosed tail) then 1 else 0, reportnum := 1 }) := by
    refine Eq.trans (by simpa [Item.dois, Item.urls, renderLine, Item.render, withReport] using hparse) ?_
    unfold after
    by_cases h : LeftOver (unclosed tail) <;> simp [h, howMany, reportEl, textEl]
  have htr := transform_report (special := kbs.special) (books := kbs.books) (r := S ++ hyphenated w) (ts := after (unclosed tail)) (hh q1) fun t ht => by
    unfold after at ht
    split at ht
    · rw [List.mem_singleton.1 ht]; exact hh q2
    · cases ht
  generalize hR : formatHepStr (formatReport (S ++ hyphenated w)) = R at hform htr
  obtain ⟨r, u, v, y, h1, h2, h3⟩ := references_lone (undesirable := undesirable) (lib := lib) (kbs := kbs) (fmt := fmt) (n := n)
    (raw := bracketed n ++ ' ' :: (pre ++ b ++ tail)) (s := pre.dropLast) (t := unclosed tail)
    (els := reportEl pre.dropLast (S ++ hyphenated w) :: (after (unclosed tail)).map textEl) (count := [])
    (e := reportEl pre.dropLast R) (c := { misc := if LeftOver (unclosed tail) then 1 else 0, reportnum := 1 })
    (item := [(py! "reportnumber", R)]) (calm_repair hl.calm hw)
    (by
      intro cs hcs
      unfold parseReferenceLine
      rw [removeMarker_numbered n (calm_noSpaceFirst hl.calm)]
      dsimp only
      rw [calm_dois lib hX]
      dsimp only
      rw [calm_urls hX]
      dsimp only
      rw [htag, okBind]
      dsimp only
      rw [hparse', okBind]
      dsimp only
      rw [hcs, okBind]
      rfl)
    htr
    (by simp [reportEl, loneKinds]) rfl rfl (fun h => absurd (q1 _ h) (by decide)) (fun h => absurd (q2 _ h) (by decide)) (fun _ => ho.books)
    (fun m => rfl) (by intro p hp; rw [List.mem_singleton.1 hp]; exact reportForm_ne hform hne') (fun m f => ⟨_, rfl⟩)
  exact ⟨r, R, u, v, y, h1, hform, h2, h3⟩

end Py
