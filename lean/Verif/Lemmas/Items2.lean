import Verif.Lemmas.Items

/-!
# What becomes of the items
-/

open Py Spec
open scoped List

namespace Py
variable [UnicodeDB]

/-! ### Steps for articles -/

theorem entry_special {l : List Str} {e e' : El} (hj : e.ty = .journal) (h : specialJournal1 l e = .ok e') : isEntry e'.ty = false := by
  have tail : ∀ {e1 : El}, isEntry e1.ty = false → (do
      let page ← getStr e1.page
      if isdigit page then do
        let n ← pyInt page
        return { e1 with page := some (some (padNat 3 n)) }
      else return e1) = (.ok e' : Py El) → isEntry e'.ty = false := by
    intro e1 h1 h
    obtain ⟨p, h6, h⟩ := bind_ok h
    split at h
    · obtain ⟨n, h2, h⟩ := bind_ok h
      rw [← pure_ok h]; exact h1
    · rw [← pure_ok h]; exact h1
  have mid : ∀ {e2 : El} {vol : Str}, isEntry e2.ty = false → (do
      let year ← getStr e2.year
      let n ← pyInt vol
      let e1 ← pure { e2 with volume := some (some (lastTwo year ++ padNat 2 n)) }
      let page ← getStr e1.page
      if isdigit page then do
        let n ← pyInt page
        return { e1 with page := some (some (padNat 3 n)) }
      else return e1) = (.ok e' : Py El) → isEntry e'.ty = false := by
    intro e2 vol h1 h
    obtain ⟨y, _, h⟩ := bind_ok h
    obtain ⟨n, _, h⟩ := bind_ok h
    obtain ⟨e1, h2, h⟩ := bind_ok h
    exact tail (by rw [← pure_ok h2]; exact h1) h
  have h0 : isEntry e.ty = false := by rw [hj]; rfl
  unfold specialJournal1 at h
  rw [if_pos hj] at h
  obtain ⟨v, h1, h⟩ := bind_ok h
  split at h
  · obtain ⟨v, h1, h⟩ := bind_ok h
    dsimp only at h
    split at h
    · obtain ⟨y, h2, h⟩ := bind_ok h
      split at h
      · obtain ⟨p, h3, h⟩ := bind_ok h
        split at h
        · exact mid rfl h
        · exact mid h0 h
      · exact mid h0 h
    · exact tail h0 h
  · rw [← pure_ok h]; exact h0

theorem entry_formatVolume {e e' : El} (hj : e.ty = .journal) (h : formatVolume1 e = .ok e') : isEntry e'.ty = false := by
  have h0 : isEntry e.ty = false := by rw [hj]; rfl
  unfold formatVolume1 at h
  rw [if_pos hj] at h
  obtain ⟨v, h1, h⟩ := bind_ok h
  split at h
  · obtain ⟨n, h2, h⟩ := bind_ok h
    rw [← pure_ok h]; exact h0
  · rw [← pure_ok h]; exact h0

omit [UnicodeDB] in
theorem entry_split {e e' : El} (hj : e.ty = .journal) (h : splitVolume1 e = .ok e') : isEntry e'.ty = false := by
  have h0 : isEntry e.ty = false := by rw [hj]; rfl
  unfold splitVolume1 at h
  rw [if_pos hj] at h
  obtain ⟨v, h1, h⟩ := bind_ok h
  split at h
  · obtain ⟨v, h1, h⟩ := bind_ok h
    rw [← pure_ok h]; exact h0
  · rw [← pure_ok h]; exact h0

omit [UnicodeDB] in
theorem entry_removeB {e e' : El} (hj : e.ty = .journal) (h : removeB1 e = .ok e') : isEntry e'.ty = false := by
  have h0 : isEntry e.ty = false := by rw [hj]; rfl
  unfold removeB1 at h
  rw [if_pos hj] at h
  obtain ⟨v, h1, h⟩ := bind_ok h
  split at h
  · split at h
    · rw [← pure_ok h]; exact h0
    · obtain ⟨v, h1, h⟩ := bind_ok h
      split at h
      · rw [← pure_ok h]; exact h0
      · rw [← pure_ok h]; exact h0
  · rw [← pure_ok h]; exact h0

theorem entry_mangle {e e' : El} (hj : e.ty = .journal) (h : mangleVolume1 e = .ok e') : isEntry e'.ty = false := by
  have h0 : isEntry e.ty = false := by rw [hj]; rfl
  unfold mangleVolume1 at h
  rw [if_pos hj] at h
  obtain ⟨v, h1, h⟩ := bind_ok h
  rw [← pure_ok h]; exact h0

/-! ### Steps for items -/

theorem step_report : ItemStep formatReportNumber1 := by
  intro e e' h
  unfold formatReportNumber1 at h
  split at h
  · rename_i ht
    obtain ⟨v, h1, h⟩ := bind_ok h
    rw [← pure_ok h]
    refine ⟨rfl, fun _ => ?_⟩
    simp only [formatReportNumber1, bare_ty, ht, if_true]
    have h1 : getKey (bare e).reportNum = .ok v := h1
    rw [h1, okBind]
    simp [bare, ht, pure, Except.pure]
  · rename_i ht
    rw [← pure_ok h]
    refine ⟨rfl, fun _ => ?_⟩
    simp only [formatReportNumber1, bare_ty, ht, if_false]
    rfl

omit [UnicodeDB] in
theorem step_hep : ItemStep formatHepEl := by
  intro e e' h
  unfold formatHepEl at h
  split at h
  · rename_i ht
    obtain ⟨v, h1, h⟩ := bind_ok h
    rw [← pure_ok h]
    refine ⟨rfl, fun _ => ?_⟩
    simp only [formatHepEl, bare_ty, ht, if_true]
    have h1 : getKey (bare e).reportNum = .ok v := h1
    rw [h1, okBind]
    simp [bare, ht, pure, Except.pure]
  · rename_i ht
    rw [← pure_ok h]
    refine ⟨rfl, fun _ => ?_⟩
    simp only [formatHepEl, bare_ty, ht, if_false]
    rfl

omit [UnicodeDB] in
theorem step_ed : ItemStep formatAuthorEd1 := by
  intro e e' h
  unfold formatAuthorEd1 at h
  split at h
  · rename_i ht
    obtain ⟨v, h1, h⟩ := bind_ok h
    rw [← pure_ok h]
    refine ⟨rfl, fun _ => ?_⟩
    simp only [formatAuthorEd1, bare_ty, ht, if_true]
    have h1 : getKey (bare e).authTxt = .ok v := h1
    rw [h1, okBind]
    simp [bare, ht, pure, Except.pure]
  · rename_i ht
    rw [← pure_ok h]
    refine ⟨rfl, fun _ => ?_⟩
    simp only [formatAuthorEd1, bare_ty, ht, if_false]
    rfl

omit [UnicodeDB] in
theorem step_arxivUrl : ItemStep arxivUrl1 := by
  intro e e' h
  unfold arxivUrl1 at h
  split at h
  · rename_i ht
    obtain ⟨v, h1, h⟩ := bind_ok h
    have h1 : getKey (bare e).urlString = .ok v := h1
    split at h
    · rename_i hs
      rw [← pure_ok h]
      refine ⟨by rw [ht]; rfl, fun _ => ?_⟩
      simp only [arxivUrl1, bare_ty, ht, if_true, h1, okBind, hs]
      simp [bare, pure, Except.pure]
    · rename_i hs
      rw [← pure_ok h]
      refine ⟨rfl, fun _ => ?_⟩
      simp only [arxivUrl1, bare_ty, ht, if_true, h1, okBind, hs]
      rfl
  · rename_i ht
    rw [← pure_ok h]
    refine ⟨rfl, fun _ => ?_⟩
    simp only [arxivUrl1, bare_ty, ht, if_false]
    rfl

theorem step_hdlUrl : ItemStep hdlUrl1 := by
  intro e e' h
  unfold hdlUrl1 at h
  split at h
  · rename_i ht
    obtain ⟨v, h1, h⟩ := bind_ok h
    have h1 : getKey (bare e).urlString = .ok v := h1
    split at h
    · rename_i m hm
      obtain ⟨d, h2, h⟩ := bind_ok h
      have h2 : getKey (bare e).urlDesc = .ok d := h2
      rw [← pure_ok h]
      refine ⟨by rw [ht]; rfl, fun _ => ?_⟩
      simp only [hdlUrl1, bare_ty, ht, if_true, h1, okBind, hm, h2]
      simp [bare, pure, Except.pure]
    · rename_i hm
      rw [← pure_ok h]
      refine ⟨rfl, fun _ => ?_⟩
      simp only [hdlUrl1, bare_ty, ht, if_true, h1, okBind, hm]
      rfl
  · rename_i ht
    rw [← pure_ok h]
    refine ⟨rfl, fun _ => ?_⟩
    simp only [hdlUrl1, bare_ty, ht, if_false]
    rfl

omit [UnicodeDB] in
theorem step_link (l : Linker) {es es' : List El} (h : eachEl (associate1 l) es = .ok es') : entries es' = entries es := by
  induction es generalizing es' with
  | nil => cases h; rfl
  | cons e es ih =>
    simp only [eachEl] at h
    obtain ⟨e', h1, h⟩ := bind_ok h
    obtain ⟨r, h2, h⟩ := bind_ok h
    have := pure_ok h
    subst this
    obtain ⟨x, rfl⟩ := associate1_eq h1
    rw [entries_cons, entries_cons, ih h2]
    rfl

/-! ### All steps -/

/-- The steps for one item. -/
def itemSteps (e : El) : Py El := do
  let e ← formatReportNumber1 e
  let e ← formatAuthorEd1 e
  let e ← formatHepEl e
  let e ← arxivUrl1 e
  hdlUrl1 e

omit [UnicodeDB] in
theorem other_ed {e : El} (h : e.ty ≠ .auth) : formatAuthorEd1 e = .ok e := by simp [formatAuthorEd1, h, pure, Except.pure]
theorem other_report {e : El} (h : e.ty ≠ .reportnumber) : formatReportNumber1 e = .ok e := by simp [formatReportNumber1, h, pure, Except.pure]
omit [UnicodeDB] in
theorem other_hep {e : El} (h : e.ty ≠ .reportnumber) : formatHepEl e = .ok e := by simp [formatHepEl, h, pure, Except.pure]
omit [UnicodeDB] in
theorem other_arxiv {e : El} (h : e.ty ≠ .url) : arxivUrl1 e = .ok e := by simp [arxivUrl1, h, pure, Except.pure]
theorem other_hdlUrl {e : El} (h : e.ty ≠ .url) : hdlUrl1 e = .ok e := by simp [hdlUrl1, h, pure, Except.pure]

omit [UnicodeDB] in
theorem ty_ed {e e' : El} (h : formatAuthorEd1 e = .ok e') : e'.ty = e.ty := by
  unfold formatAuthorEd1 at h
  split at h
  · obtain ⟨v, h1, h⟩ := bind_ok h
    rw [← pure_ok h]
  · rw [← pure_ok h]

theorem ty_report {e e' : El} (h : formatReportNumber1 e = .ok e') : e'.ty = e.ty := by
  unfold formatReportNumber1 at h
  split at h
  · obtain ⟨v, h1, h⟩ := bind_ok h
    rw [← pure_ok h]
  · rw [← pure_ok h]

theorem transform_entries {special : List Str} {books : Books} {link : Option Linker} {els els' : List El} (h : transformElements special books link els = .ok els') :
    ∃ mid out, Booked books (entries els) mid ∧ All2 (fun e e' => itemSteps e = .ok e') mid out ∧ WithHandles out (entries els') := by
  unfold transformElements at h
  obtain ⟨e1, h1, h⟩ := bind_ok h
  obtain ⟨e2, h2, h⟩ := bind_ok h
  obtain ⟨e3, h3, h⟩ := bind_ok h
  obtain ⟨e4, h4, h⟩ := bind_ok h
  obtain ⟨e5, h5, h⟩ := bind_ok h
  obtain ⟨e6, h6, h⟩ := bind_ok h
  obtain ⟨e7, h7, h⟩ := bind_ok h
  obtain ⟨e8, h8, h⟩ := bind_ok h
  obtain ⟨e9, h9, h⟩ := bind_ok h
  obtain ⟨e10, h10, h⟩ := bind_ok h
  dsimp only at h
  obtain ⟨e12, h12, h⟩ := bind_ok h
  have k1 : entries e1 = entries els := entries_journal (fun e he => by simp [splitVolume1, he, pure, Except.pure]) (fun _ _ => entry_split) h1
  have k2 : entries e2 = entries e1 := entries_journal (fun e he => by simp [formatVolume1, he, pure, Except.pure]) (fun _ _ => entry_formatVolume) h2
  have k3 : entries e3 = entries e2 := entries_journal (fun e he => by simp [specialJournal1, he, pure, Except.pure]) (fun _ _ => entry_special) h3
  have k4 := entries_step step_report h4
  have k5 := entries_step step_ed h5
  have k6 := lookForBooks_entries h6
  have k7 := entries_step step_hep h7
  have k8 : entries e8 = entries e7 := entries_journal (fun e he => by simp [removeB1, he, pure, Except.pure]) (fun _ _ => entry_removeB) h8
  have k9 : entries e9 = entries e8 := entries_journal (fun e he => by simp [mangleVolume1, he, pure, Except.pure]) (fun _ _ => entry_mangle) h9
  have k10 := entries_step step_arxivUrl h10
  have k11 : WithHandles (entries e10) (entries (lookForHdl e10)) := hdlGo_entries e10 []
  have k12 := entries_step step_hdlUrl h12
  have k13 : entries els' = entries e12 := by
    cases link with
    | none => rw [← pure_ok h]
    | some l => exact step_link l h
  rw [k3, k2, k1] at k4
  have k45 := all2_comp k4 k5
  obtain ⟨mid, b1, b2⟩ := booked_step (by
      rintro e e' ⟨x, hx1, hx2⟩
      rw [ty_ed hx2, ty_report hx1]) (by
      rintro e e' hq ⟨x, hx1, hx2⟩
      rw [ty_ed hx2] at hq
      rw [other_ed (by rw [hq]; decide)] at hx2
      cases hx2
      rw [ty_report hx1] at hq
      rw [other_report (by rw [hq]; decide)] at hx1
      cases hx1
      rfl) (by
      intro e he
      exact ⟨e, other_report (by rw [he]; decide), other_ed (by rw [he]; decide)⟩) k45 k6
  rw [k9, k8] at k10
  obtain ⟨x12, c1, c2⟩ := withHandles_step (fun e e' he hee => by
    rw [other_hdlUrl (by rw [he]; decide)] at hee
    cases hee
    exact he) k11 k12
  refine ⟨mid, x12, b1, ?_, by rw [k13]; exact c2⟩
  refine all2_impl ?_ (all2_comp (all2_comp (all2_comp b2 k7) k10) c1)
  rintro e e' ⟨y3, ⟨y2, ⟨y1, ⟨y0, s1, s2⟩, s3⟩, s4⟩, s5⟩
  unfold itemSteps
  rw [s1, okBind, s2, okBind, s3, okBind, s4, okBind, s5]

/-! ### One item -/

omit [UnicodeDB] in
theorem replace_front {old new i : Str} (ho : old ≠ []) : replace (old ++ i) old new = new ++ replace i old new := by
  cases old with
  | nil => exact absurd rfl ho
  | cons c old =>
    unfold replace
    rw [List.cons_append, replaceGo, if_pos (by rw [List.isPrefixOf_iff_prefix]; exact ⟨i, rfl⟩)]
    congr 1
    simp only [List.length_cons, Nat.add_sub_cancel]
    clear ho
    generalize hn : (c :: old) = w
    clear hn
    induction old with
    | nil => rfl
    | cons d old ih => rw [List.length_cons, List.cons_append, replaceGo, ih]

theorem itemSteps_becomes {e e' : El} (h : itemSteps e = .ok e') : Becomes e e' := by
  unfold itemSteps at h
  by_cases h1 : e.ty = .reportnumber
  · obtain ⟨x, k1, h⟩ := bind_ok h
    have t1 := ty_report k1
    rw [h1] at t1
    rw [other_ed (by rw [t1]; decide), okBind] at h
    obtain ⟨y, k2, h⟩ := bind_ok h
    have t2 : y.ty = .reportnumber := by
      unfold formatHepEl at k2
      rw [if_pos t1] at k2
      obtain ⟨v, -, k2⟩ := bind_ok k2
      rw [← pure_ok k2]; exact t1
    rw [other_arxiv (by rw [t2]; decide), okBind, other_hdlUrl (by rw [t2]; decide)] at h
    cases h
    cases hr : e.reportNum with
    | none => simp [formatReportNumber1, h1, hr, getKey, bind, Except.bind] at k1
    | some r =>
      have hn : Props.normaliseReport e = .ok e' := by
        unfold Props.normaliseReport
        rw [k1, okBind, k2]
      by_cases hl : r.getLast? = some '\n'
      · rw [Props.normaliseReport_eq e r h1 hr] at hn
        cases hn
        exact .reportNumber h1 hr (Or.inr (Or.inr (Or.inr hl)))
      · obtain ⟨r', n1, n2⟩ := Props.C18_only_separator e r h1 hr hl
        rw [hn] at n1
        cases n1
        refine .reportNumber h1 hr ?_
        rcases n2 with n2 | n2 | n2
        · exact Or.inl n2
        · exact Or.inr (Or.inl n2)
        · exact Or.inr (Or.inr (Or.inl n2))
  rw [other_report h1, okBind] at h
  by_cases h2 : e.ty = .auth
  · obtain ⟨x, k1, h⟩ := bind_ok h
    have t1 := ty_ed k1
    rw [h2] at t1
    rw [other_hep (by rw [t1]; decide), okBind, other_arxiv (by rw [t1]; decide), okBind, other_hdlUrl (by rw [t1]; decide)] at h
    cases h
    unfold formatAuthorEd1 at k1
    rw [if_pos h2] at k1
    obtain ⟨a, k2, k1⟩ := bind_ok k1
    have := pure_ok k1
    subst this
    have ha : e.authTxt = some a := by
      unfold getKey at k2
      split at k2
      · cases k2; assumption
      · cases k2
    exact .author h2 ha ⟨_, replace_rewritten (by decide) a, replace_rewritten (by decide) _⟩
  rw [other_ed h2, okBind, other_hep h1, okBind] at h
  by_cases h3 : e.ty = .url
  · obtain ⟨x, k1, h⟩ := bind_ok h
    unfold arxivUrl1 at k1
    rw [if_pos h3] at k1
    obtain ⟨u, k2, k1⟩ := bind_ok k1
    have hu : e.urlString = some u := by
      unfold getKey at k2
      split at k2
      · cases k2; assumption
      · cases k2
    split at k1
    · rename_i hs
      have := pure_ok k1
      subst this
      rw [other_hdlUrl (by intro hh; cases hh)] at h
      cases h
      obtain ⟨i, rfl⟩ := List.isPrefixOf_iff_prefix.1 hs
      refine .eprint h3 hu ?_
      rw [replace_front (by decide)]
      by_cases hi : abstractAddress <:+: i
      · exact Or.inr hi
      · rw [replace_absent hi]
        exact Or.inl rfl
    · rename_i hs
      have := pure_ok k1
      subst this
      unfold hdlUrl1 at h
      rw [if_pos h3, k2, okBind] at h
      cases hm : reMatch Rx.re_hdl u with
      | none =>
        rw [hm] at h
        have := pure_ok h
        subst this
        refine .link h3 hu (fun hp => hs (List.isPrefixOf_iff_prefix.2 hp)) (hdl_none.1 hm)
      | some m =>
        rw [hm] at h
        dsimp only at h
        obtain ⟨d, -, h⟩ := bind_ok h
        have := pure_ok h
        subst this
        obtain ⟨p, i, r, rfl, -, -, m1, m2, m3, m4⟩ := hdl_match hm
        rw [m1]
        exact .handle h3 hu m2 m3 m4
  · rw [other_arxiv h3, okBind, other_hdlUrl h3] at h
    cases h
    exact .other (by simp [h1, h2, h3])

end Py
