import Verif.Lemmas.Unknown3
import Verif.Spec.Reports
import Verif.Lemmas.Transform2
import Verif.Props.Places

/-!
# Helper lemmas: a report number of a known category, from the line to the tagged line
-/

namespace Py
open Spec
open scoped List

variable [UnicodeDB]

/-! ### The written form -/

theorem nameSet_iff {c : Char} : nameSet.mem c = true ↔ ('A' ≤ c ∧ c ≤ 'Z') ∨ c = '-' := by
  rw [mem_nameSet]
  simp only [isAsciiUpper, Bool.and_eq_true, decide_eq_true_eq]
  exact Iff.rfl

theorem report_cut {s a b : Str} (h : ReportCut s a b) : formatReport s = if a.getLast? = some '-' then s else a ++ '-' :: b := by
  obtain ⟨h1, ⟨h2, h2'⟩, h3, h4, h5⟩ := h
  have ha : ∀ c ∈ a, nameSet.mem c = true := fun c hc => nameSet_iff.2 (h3 c hc)
  have hb : ∀ c ∈ b, numSet.mem c = true := fun c hc => (mem_numSet c).2 (h4 c hc)
  unfold formatReport
  cases hm : reMatch Rx.re_report s with
  | none =>
    exfalso
    have hex : (reMatch Rx.re_report s).isSome = true := by
      refine Option.isSome_iff_exists.2 ((matchHere_isSome Rx.re_report [] s).2 ⟨s, [], by simp, ?_⟩)
      exact ⟨[], s, rfl, ⟨rfl, rfl⟩, a, b, h1, sem_plus_set.2 ⟨h2, ha⟩, b, [], by simp, sem_plus_set.2 ⟨h2', hb⟩, rfl, .inl rfl⟩
    rw [hm] at hex
    cases hex
  | some m =>
    obtain ⟨name, nums, g1, g2, g3, g4, g5, g6, g7, g8⟩ := report_match hm
    have hl := g8 a b (.inl h1) h2' ha hb
    have hnl : s = name ++ nums := by
      rcases g7 with g7 | g7
      · exact g7
      · exfalso
        have : '\n' ∈ a ++ b := by rw [← h1, g7]; simp
        rcases List.mem_append.1 this with h | h
        · have := ha _ h
          rw [nameSet_iff] at this
          revert this; decide
        · have := hb _ h
          rw [nl_not_num] at this
          cases this
    obtain ⟨e, he⟩ : a <+: name := List.prefix_of_prefix_length_le ⟨b, h1.symm⟩ ⟨nums, hnl.symm⟩ hl
    have hb2 : b = e ++ nums := by
      have : a ++ b = a ++ (e ++ nums) := by rw [← h1, hnl, ← he]; simp
      exact List.append_cancel_left this
    cases e with
    | cons c e' =>
      exfalso
      refine h5 c (e' ++ nums) hb2 (by simp [g4]) (nameSet_iff.1 (g5 c ?_))
      rw [← he]; simp
    | nil =>
      have e1 : name = a := by simpa using he.symm
      have e2 : nums = b := by simpa using hb2.symm
      subst e1 e2
      simp only [g1, g2]
      have : endsWith name ['-'] = true ↔ name.getLast? = some '-' := by
        rw [endsWith, List.isPrefixOf_iff_prefix, ← List.head?_reverse]
        constructor
        · rintro ⟨t, e⟩
          rw [← e]; rfl
        · intro h
          cases hr : name.reverse with
          | nil => rw [hr] at h; cases h
          | cons x t => rw [hr] at h; cases h; exact ⟨t, rfl⟩
      by_cases hh : name.getLast? = some '-'
      · rw [if_pos (this.2 hh), if_pos hh]
      · rw [if_neg (fun h => hh (this.1 h)), if_neg hh]; simp

theorem report_form {s : Str} (hn : s.getLast? ≠ some '\n') : ReportForm s (formatHepStr (formatReport s)) := by
  by_cases hc : ∃ a b, ReportCut s a b
  · obtain ⟨a, b, h⟩ := hc
    rw [report_cut h]
    split
    · rename_i hl
      have : formatHepStr s = s := by
        obtain ⟨c, a', rfl⟩ := List.exists_cons_of_ne_nil h.some.1
        rw [h.whole, List.cons_append, hep_name (nameSet_iff.2 (h.name c (by simp)))]
      rcases hep_cases s with ⟨h1, h2⟩ | h1
      · rw [h1]
        refine .same ?_ ?_
        · intro a' b' h'
          have e1 := report_cut h
          have e2 := report_cut h'
          rw [e1, if_pos hl] at e2
          by_cases hh : a'.getLast? = some '-'
          · exact hh
          · rw [if_neg hh, h'.whole] at e2
            have := congrArg List.length e2
            simp at this
        · rintro ⟨r', x, hx, y, e, -⟩
          obtain ⟨c, a', rfl⟩ := List.exists_cons_of_ne_nil h.some.1
          have hc := h.name c (by simp)
          rw [h.whole] at e
          have : ∀ x ∈ archives, ∀ c, x.head? = some c → ¬ (('A' ≤ c ∧ c ≤ 'Z') ∨ c = '-') := by decide
          cases x with
          | nil => revert hx; decide
          | cons d x =>
            simp only [List.cons_append, List.cons.injEq] at e
            exact this _ hx d rfl (e.1 ▸ hc)
      · exact .slash h1
    · rename_i hl
      have : formatHepStr (a ++ '-' :: b) = a ++ '-' :: b := by
        obtain ⟨c, a', rfl⟩ := List.exists_cons_of_ne_nil h.some.1
        rw [List.cons_append, hep_name (nameSet_iff.2 (h.name c (by simp)))]
      rw [this]
      exact .hyphen h hl
  · have hs : formatReport s = s := by
      rcases report_cases s with h | ⟨name, nums, h, h1, h2, h3, h4, h5⟩
      · exact h
      · exfalso
        have e : s = name ++ nums := by
          rcases h5 with h5 | h5
          · exact h5
          · exact absurd (by rw [h5]; simp) hn
        -- the longest first part
        have key : ∀ k (a b : Str), b.length ≤ k → s = a ++ b → a ≠ [] → b ≠ [] → (∀ c ∈ a, nameSet.mem c = true) → (∀ c ∈ b, numSet.mem c = true) →
            ∃ a b, ReportCut s a b := by
          intro k
          induction k with
          | zero =>
            intro a b hk _ _ hb
            exact absurd (List.length_eq_zero_iff.1 (by omega)) hb
          | succ k ih =>
            intro a b hk e ha hb h1 h2
            cases b with
            | nil => exact absurd rfl hb
            | cons c b =>
              by_cases hcut : b ≠ [] ∧ nameSet.mem c = true
              · refine ih (a ++ [c]) b (by simpa using hk) (by simp [e]) (by simp) hcut.1 ?_ (fun d hd => h2 d (by simp [hd]))
                intro d hd
                rcases List.mem_append.1 hd with hd | hd
                · exact h1 d hd
                · rw [List.mem_singleton.1 hd]; exact hcut.2
              · refine ⟨a, c :: b, e, ⟨ha, hb⟩, fun d hd => nameSet_iff.1 (h1 d hd), fun d hd => (mem_numSet d).1 (h2 d hd), ?_⟩
                intro d b' e' hb' hd
                simp only [List.cons.injEq] at e'
                obtain ⟨rfl, rfl⟩ := e'
                exact hcut ⟨hb', nameSet_iff.2 hd⟩
        exact hc (key nums.length name nums (Nat.le_refl _) e h1 h2 h3 h4)
    rw [hs]
    rcases hep_cases s with ⟨h1, h2⟩ | h1
    · rw [h1]
      refine .same (fun a b h => absurd ⟨a, b, h⟩ hc) ?_
      rintro ⟨r', a, ha, b, e, -⟩
      have hp : ∀ a ∈ archives, a ++ ['-'] ∈ hepPrefixes := by decide
      have := h2 _ (hp a ha)
      rw [startsWith, e] at this
      have h' : (a ++ ['-']).isPrefixOf (a ++ '-' :: b) = true := List.isPrefixOf_iff_prefix.2 ⟨b, by simp⟩
      rw [h'] at this
      cases this
    · exact .slash h1

/-! ### Recognition -/

theorem numeration_hyphenated {w : Str} (h1 : '-' ∉ w) (h2 : '/' ∉ w) (h3 : ¬ py! "  " <:+: w) : repnumNumeration w = hyphenated w := by
  show replace (replace (replace (sub Rx.re_multiple_hyphens (fun _ => ['-']) (replace w [' '] ['-'])) ['/', '-'] ['/']) ['-', '/'] ['/']) ['-', '/', '-'] ['/'] = _
  have e1 : replace w [' '] ['-'] = hyphenated w := by
    rw [replace_char]; rfl
  rw [e1]
  have hd : ∀ {k v : Str}, hyphenated w = k ++ v → ∃ k' v', w = k' ++ v' ∧ hyphenated k' = k ∧ hyphenated v' = v := by
    intro k v e
    obtain ⟨k', v', e1, e2, e3⟩ := List.map_eq_append_iff.1 e
    exact ⟨k', v', e1, e2, e3⟩
  have hb : ∀ {x : Char}, x ∈ w → (if x = ' ' then '-' else x) = '-' → x = ' ' := by
    intro x hx e
    by_cases hs : x = ' '
    · exact hs
    · rw [if_neg hs] at e
      exact absurd (e ▸ hx) h1
  have e2 : sub Rx.re_multiple_hyphens (fun _ => ['-']) (hyphenated w) = hyphenated w := by
    refine sub_of_no_match ?_
    rw [List.eq_nil_iff_forall_not_mem]
    intro m hm
    obtain ⟨p, q, e, hok⟩ := finditer_ok hm
    have hl := hok.lang
    obtain ⟨u, v, e', hu, hv⟩ : ∃ u v, m.txt = u ++ v ∧ Lang (Re.times 2 (Re.ch '-')) u ∧ Lang (.star true (Re.ch '-')) v := hl
    have hu' : u = py! "--" := by
      obtain ⟨a, b, rfl, ⟨x, rfl, hx⟩, y, rfl, hy⟩ := hu
      have hx' : x = '-' := by simpa [CSet.mem, CItem.mem] using hx
      have hy' : y = '-' := by simpa [CSet.mem, CItem.mem] using hy
      rw [hx', hy']
      rfl
    rw [e', hu'] at e
    obtain ⟨k1, v1, f1, f2, f3⟩ := hd (k := p) (v := py! "--" ++ (v ++ q)) (by rw [e]; simp)
    obtain ⟨x, v2, rfl, g1, g2⟩ := List.map_eq_cons_iff.1 f3
    obtain ⟨y, v3, rfl, i1, i2⟩ := List.map_eq_cons_iff.1 g2
    have hx := hb (by rw [f1]; simp) g1
    have hy := hb (by rw [f1]; simp) i1
    subst hx hy
    exact h3 ⟨k1, v3, by rw [f1]; simp⟩
  rw [e2]
  have hs : ∀ {x : Str}, '/' ∈ x → ¬ x <:+: hyphenated w := by
    intro x hx hi
    have := hi.subset hx
    obtain ⟨c, hc, e⟩ := List.mem_map.1 this
    by_cases hb : c = ' '
    · rw [if_pos hb] at e; revert e; decide
    · rw [if_neg hb] at e; exact h2 (e ▸ hc)
  rw [replace_absent (hs (by decide)), replace_absent (hs (by decide)), replace_absent (hs (by decide))]

omit [UnicodeDB] in
/-- A list sorted by an order that refines another one. -/
theorem sortBy_refines {α : Type} {le : α → α → Bool} {R : α → α → Prop} (h1 : ∀ a b, le a b = true → R a b) (h2 : ∀ a b, le a b = false → R b a)
    (ht : ∀ a b c, R a b → R b c → R a c) (l : List α) : (sortBy le l).Pairwise R := by
  have ins : ∀ (x : α) (l : List α), l.Pairwise R → (insertBy le x l).Pairwise R ∧ ∀ y ∈ insertBy le x l, y = x ∨ y ∈ l := by
    intro x l
    induction l with
    | nil => intro _; simp [insertBy]
    | cons y l ih =>
      intro h
      obtain ⟨h3, h4⟩ := List.pairwise_cons.1 h
      rw [insertBy]
      cases hl : le x y with
      | true =>
        rw [if_pos rfl]
        refine ⟨List.pairwise_cons.2 ⟨?_, h⟩, by simp⟩
        intro z hz
        rcases List.mem_cons.1 hz with rfl | hz
        · exact h1 _ _ hl
        · exact ht _ _ _ (h1 _ _ hl) (h3 z hz)
      | false =>
        rw [if_neg (by simp)]
        obtain ⟨i1, i2⟩ := ih h4
        refine ⟨List.pairwise_cons.2 ⟨?_, i1⟩, ?_⟩
        · intro z hz
          rcases i2 z hz with rfl | hz
          · exact h2 _ _ hl
          · exact h3 z hz
        · intro z hz
          rcases List.mem_cons.1 hz with rfl | hz
          · simp
          · rcases i2 z hz with rfl | hz
            · simp
            · simp [hz]
  unfold sortBy
  induction l with
  | nil => exact .nil
  | cons x l ih => exact (ins x _ ih).1

theorem repnumCateg_none {kbs : TagKbs} {st : Repnums} {c : Nat × Str} {r : Re} {S : Str} (h1 : dget kbs.reportPats c = some r) (h2 : dget kbs.reportStd c = some S)
    (h3 : finditer r st.line = []) : repnumCateg kbs.reportPats kbs.reportStd st c = .ok st := by
  simp [repnumCateg, h1, h2, getKey, bind, Except.bind, h3, pure, Except.pure]

theorem repnums_none {kbs : TagKbs} {st : Repnums} : ∀ {cs : List (Nat × Str)}, (∀ c ∈ cs, ∃ r S, dget kbs.reportPats c = some r ∧ dget kbs.reportStd c = some S ∧ finditer r st.line = []) →
    cs.foldlM (repnumCateg kbs.reportPats kbs.reportStd) st = .ok st
  | [], _ => rfl
  | c :: cs, h => by
    obtain ⟨r, S, h1, h2, h3⟩ := h c (by simp)
    rw [List.foldlM_cons, repnumCateg_none h1 h2 h3]
    exact repnums_none fun c hc => h c (by simp [hc])

/-- A report number is all that is found. -/
theorem identifyRepnums_single {kbs : TagKbs} {pre b tail S w : Str} (h : KnownReport kbs pre b tail S w) (hw : reading (pre ++ b ++ tail) = reading pre ++ reading b ++ reading tail)
    (hsl : '/' ∉ reading (pre ++ b ++ tail)) (hnum : repnumNumeration w = hyphenated w) :
    identifyRepnums (reading (pre ++ b ++ tail)) kbs = .ok ⟨[((reading pre).length, (reading b).length)], [((reading pre).length, S ++ hyphenated w)], blankedLine pre b tail⟩ := by
  obtain ⟨c, r, m, k1, k2, k3, k4, k5, k6, k7⟩ := h.known
  unfold identifyRepnums
  have hr : replace (reading (pre ++ b ++ tail)) ['/'] [' '] = reading (pre ++ b ++ tail) := replace_absent fun hi => hsl (hi.subset (by simp))
  rw [hr]
  dsimp only
  have hmem : c ∈ sortBy categBefore (kbs.reportStd.map (·.1)) :=
    (sortBy_perm _).mem_iff.2 ((dget_isSome kbs.reportStd c).1 (by rw [k1]; rfl))
  obtain ⟨c1, c2, e, hc1⟩ := first_of_mem hmem
  have hnd : (sortBy categBefore (kbs.reportStd.map (·.1))).Nodup := ((sortBy_perm _).nodup_iff).2 h.keys
  have hc2 : c ∉ c2 := by
    rw [e, List.nodup_append] at hnd
    exact (List.nodup_cons.1 hnd.2.1).1
  have hsort : (sortBy categBefore (kbs.reportStd.map (·.1))).Pairwise (fun a b => b.2.length ≤ a.2.length) := by
    refine sortBy_refines (R := fun (a b : Nat × Str) => b.2.length ≤ a.2.length) ?_ ?_ (fun a b c h1 h2 => Nat.le_trans h2 h1) _
    · intro a b hab
      unfold categBefore at hab
      split at hab
      · omega
      · have := of_decide_eq_true hab; omega
    · intro a b hab
      unfold categBefore at hab
      split at hab
      · omega
      · have := of_decide_eq_false hab; omega
  have hin : ∀ d ∈ c1 ++ c :: c2, ∃ p ∈ kbs.reportStd, p.1 = d := by
    intro d hd
    rw [← e] at hd
    obtain ⟨p, hp, rfl⟩ := List.mem_map.1 ((sortBy_perm _).mem_iff.1 hd)
    exact ⟨p, hp, rfl⟩
  have hstd : ∀ {p : (Nat × Str) × Str}, p ∈ kbs.reportStd → ∃ S, dget kbs.reportStd p.1 = some S := fun hp =>
    Option.isSome_iff_exists.1 ((dget_isSome kbs.reportStd _).2 (List.mem_map.2 ⟨_, hp, rfl⟩))
  rw [e] at hsort ⊢
  rw [List.foldlM_append, repnums_none]
  · show (c :: c2).foldlM (repnumCateg kbs.reportPats kbs.reportStd) _ = _
    rw [List.foldlM_cons]
    have hstep : repnumCateg kbs.reportPats kbs.reportStd ⟨[], [], reading (pre ++ b ++ tail)⟩ c =
        .ok ⟨[((reading pre).length, (reading b).length)], [((reading pre).length, S ++ hyphenated w)], blankedLine pre b tail⟩ := by
      simp only [repnumCateg, k1, k2, getKey, okBind, k3, List.foldlM_cons, List.foldlM_nil, repnumStep, k4, k5, k6, hnum]
      show Except.ok _ = _
      congr 2
      rw [hw]
      simp [splice, blankedLine, underscores]
    rw [hstep]
    refine repnums_none ?_
    intro d hd
    obtain ⟨p, hp, rfl⟩ := hin d (by simp [hd])
    obtain ⟨q, q1, -, q2⟩ := k7 p hp (fun e => hc2 (e ▸ hd))
    obtain ⟨S', hS⟩ := hstd hp
    refine ⟨q, S', q1, hS, q2 ?_⟩
    exact List.rel_of_pairwise_cons (List.pairwise_append.1 hsort).2.1 hd
  · intro d hd
    obtain ⟨p, hp, rfl⟩ := hin d (by simp [hd])
    obtain ⟨q, q1, q2, -⟩ := k7 p hp (fun e => hc1 (e ▸ hd))
    obtain ⟨S', hS⟩ := hstd hp
    exact ⟨q, S', q1, hS, q2 ((List.pairwise_append.1 hsort).2.2 p.1 hd c (by simp))⟩

theorem squeezed_noDouble : ∀ s : Str, ¬ py! "  " <:+: squeezed s := by
  intro s
  induction s with
  | nil => rintro ⟨a, b, e⟩; simp [squeezed] at e
  | cons c s ih =>
    rw [squeezed]
    split
    · exact ih
    · rename_i hn
      rintro ⟨a, b, e⟩
      cases a with
      | nil =>
        simp only [List.nil_append, List.cons_append, List.cons.injEq] at e
        refine hn ⟨e.1.symm, ?_⟩
        rw [← squeezed_head, ← e.2]
        rfl
      | cons x a =>
        simp only [List.cons_append, List.cons.injEq] at e
        exact ih ⟨a, b, e.2⟩

/-- What is recognised in a line with one report number. -/
theorem recognise_report {kbs : Kbs} {n : Nat} {pre b tail S w : Str} (hX : Calm (pre ++ b ++ tail)) (hl : NumberLine n pre b tail) (hk : KnownReport kbs.tag pre b tail S w)
    (ho : NothingBeside kbs pre b tail) :
    ∃ f, recognise (pre ++ b ++ tail) kbs.tag = .ok (f, []) ∧ f.journals = [] ∧ f.repLens = [((reading pre).length, (reading b).length)] ∧
      f.repTexts = [((reading pre).length, S ++ hyphenated w)] ∧ f.publishers = [] ∧
      accountSpaces f.spaces (some (reading b).length) (reading pre).length = (pre.length, b.length - (reading b).length) ∧ (reading b).length ≤ b.length := by
  have hc := hX.chars
  obtain ⟨x, hx1, hx2⟩ := hl.first
  obtain ⟨y, hy1, hy2⟩ := hl.last
  have hcp : ∀ c ∈ pre, c ∈ calmChars := fun c h => hc c (by simp [h])
  have hcb : ∀ c ∈ b, c ∈ calmChars := fun c h => hc c (by simp [h])
  have hct : ∀ c ∈ tail, c ∈ calmChars := fun c h => hc c (by simp [h])
  have hcl : cleanedLine (pre ++ b ++ tail) = pre.map rd ++ b.map rd ++ tail.map rd := by
    rw [cleaned_eq, calm_strip hX, upper_rd hc, List.map_append, List.map_append]
  have hsp : ∀ c ∈ pre.map rd ++ b.map rd ++ tail.map rd, isSpace c = true → c = ' ' := by
    intro c h
    rw [← List.map_append, ← List.map_append] at h
    obtain ⟨d, hd, rfl⟩ := List.mem_map.1 h
    exact readChars_space (rd_chars (hc d hd))
  obtain ⟨w1, w2, w3⟩ := squeezed_place hsp ⟨rd x, by rw [List.head?_map, hx2]; rfl, (solid_word hx1).2⟩
    ⟨rd y, by rw [List.getLast?_map, hy2]; rfl, (solid_word hy1).2⟩
  have e1 : squeezed (pre.map rd) = reading pre := by rw [reading, upper_rd hcp]
  have e2 : squeezed (b.map rd) = reading b := by rw [reading, upper_rd hcb]
  have e3 : squeezed (tail.map rd) = reading tail := by rw [reading, upper_rd hct]
  rw [e1, e2, e3] at w1
  rw [e1, e2, List.length_map, List.length_map] at w2
  rw [e2, List.length_map] at w3
  have e4 : reading (pre ++ b ++ tail) = reading pre ++ reading b ++ reading tail := by
    rw [reading, upper_rd hc, ← compress_squeezed (by simpa using hsp)]
    simpa using w1
  have hrc := reading_chars hc
  have hsl : '/' ∉ reading (pre ++ b ++ tail) := fun h => absurd (hrc _ h) (by decide)
  have hwin : w <:+: reading (pre ++ b ++ tail) := hk.part.trans ⟨reading pre, reading tail, by rw [e4]⟩
  have hnum : repnumNumeration w = hyphenated w := by
    refine numeration_hyphenated (fun h => absurd (hrc _ (hwin.subset h)) (by decide)) (fun h => hsl (hwin.subset h)) ?_
    intro hi
    exact squeezed_noDouble _ (hi.trans hwin)
  have hrep := identifyRepnums_single hk e4 hsl hnum
  obtain ⟨pairs, j1, j2, j3⟩ := ho.kb
  have hbpos : 0 < (reading b).length := by
    rw [← e2, List.length_pos_iff]
    intro e
    have := squeezed_head (b.map rd)
    rw [e, List.head?_map, hx2] at this
    cases this
  have hbl : blankedLine pre b tail = reading pre ++ underscores (reading b).length ++ reading tail := rfl
  have htit : identifyJournals (blankedLine pre b tail) kbs.tag.journalPats kbs.tag.journalKeys = .ok ⟨[], blankedLine pre b tail, []⟩ := by
    refine titleLoops_none (fun t ht => ?_) fun t ht i hat => ?_
    · rw [j1]; exact buildJournals_pats pairs t (by rw [← j2]; exact ht)
    · obtain ⟨u, v, e, -⟩ := atPos_split hat (j3 t ht).1
      have hi : t <:+: blankedLine pre b tail := ⟨u, v, e.symm⟩
      rw [hbl] at hi
      rcases infix_masked (j3 t ht).2 hbpos hi with h | h
      · exact (ho.titles t ht).1 h
      · exact (ho.titles t ht).2 h
  have hby : identifyJournalsRe (pre ++ b ++ tail) kbs.tag.journalsRe = [] := by
    unfold identifyJournalsRe
    have : ∀ l : List (Str × Re × Str), (∀ p ∈ l, search p.2.1 (pre ++ b ++ tail) = none) →
        l.foldl (fun d p => match search p.2.1 (pre ++ b ++ tail) with | some m => dset d m.start m.txt | none => d) ([] : List (Nat × Str)) = [] := by
      intro l
      induction l with
      | nil => intro _; rfl
      | cons p l ih =>
        intro h
        rw [List.foldl_cons, h p (by simp)]
        exact ih fun p hp => h p (by simp [hp])
    exact this _ ho.byRe
  have hpu : identifyPublishers (blankedLine pre b tail) kbs.tag.publishers = [] := by
    rw [List.eq_nil_iff_forall_not_mem]
    intro q hq
    obtain ⟨p, hp, -, m, hm, -⟩ := publishers_mem hq
    rw [ho.publishers p hp] at hm
    cases hm
  have hfind : (find (py! "IBID") (upper (blankedLine pre b tail))).isSome = false := by
    rw [upper_read]
    · cases hf : find (py! "IBID") (blankedLine pre b tail) with
      | none => rfl
      | some i =>
        exfalso
        obtain ⟨u, v, e⟩ := find_isSome_iff.1 (by rw [hf]; rfl : (find (py! "IBID") (blankedLine pre b tail)).isSome = true)
        have hi : py! "IBID" <:+: blankedLine pre b tail := ⟨u, v, e.symm⟩
        rw [hbl] at hi
        rcases infix_masked (by decide) hbpos hi with h | h
        · exact ho.ibid.1 h
        · exact ho.ibid.2 h
    · intro c h
      rw [hbl, List.mem_append, List.mem_append] at h
      rcases h with (h | h) | h
      · exact .inl (reading_chars hcp c h)
      · exact .inr (List.eq_of_mem_replicate h)
      · exact .inl (reading_chars hct c h)
  refine ⟨⟨[], [((reading pre).length, (reading b).length)], [((reading pre).length, S ++ hyphenated w)], [],
    sortBy (fun x y => decide (x.1 ≤ y.1)) (compressSpaces (pre.map rd ++ b.map rd ++ tail.map rd)).1,
    dupdate kbs.tag.journalStd (kbs.tag.journalsRe.map fun p => (p.1, p.2.2))⟩, ?_, rfl, rfl, rfl, rfl, w2, w3⟩
  unfold recognise
  rw [hby, hcl]
  have hw : (compressSpaces (pre.map rd ++ b.map rd ++ tail.map rd)).2 = reading (pre ++ b ++ tail) := by rw [w1, e4]
  generalize hC : compressSpaces (pre.map rd ++ b.map rd ++ tail.map rd) = C at hw
  obtain ⟨spaces, w⟩ := C
  dsimp only at hw ⊢
  subst hw
  rw [hrep, okBind]
  dsimp only
  rw [htit, okBind]
  dsimp only
  rw [hfind]
  simp only [Bool.false_eq_true, if_false, hpu]
  rfl

/-! ### The tagged line -/

omit [UnicodeDB] in
/-- A line with one tag. -/
def withReport (s r t : Str) : Str := s ++ (enclose (py! "REPORTNUMBER") r ++ t)

theorem wash_report {s r t : Str} (h1 : '<' ∉ s) (h2 : '<' ∉ r) (h3 : '<' ∉ t) : washVolumeTag (withReport s r t) = withReport s r t := by
  refine sub_of_no_match ?_
  rw [List.eq_nil_iff_forall_not_mem]
  intro m hm
  obtain ⟨p, q, e, hok⟩ := finditer_ok hm
  obtain ⟨c, x, e2, hcw⟩ := volume_text hok.lang
  have hin : '<' :: (py! "cds.VOL>" ++ [c, ' ']) <:+: withReport s r t := ⟨p, x ++ q, by rw [e, e2]; simp⟩
  have hc : c ≠ '<' := by
    rintro rfl
    have : isWord '<' = false := rfl
    rw [this] at hcw
    cases hcw
  revert hin
  have hx : '<' ∉ py! "cds.VOL>" ++ [c, ' '] := by
    simp only [List.mem_append, List.mem_cons, List.not_mem_nil, or_false, not_or]
    exact ⟨by decide, fun h => hc h.symm, by decide⟩
  have shape : withReport s r t = s ++ '<' :: (py! "cds.REPORTNUMBER>" ++ r ++ '<' :: (py! "/cds.REPORTNUMBER>" ++ t)) := by
    simp [withReport, enclose]
  rw [shape]
  refine lt_step h1 hx ?_ (lt_step (by simp [h2]) hx ?_ ?_)
  · rintro ⟨v, e⟩
    simp at e
  · rintro ⟨v, e⟩
    simp at e
  · intro hi
    have := hi.subset (show '<' ∈ '<' :: (py! "cds.VOL>" ++ [c, ' ']) by simp)
    simp [h3] at this

theorem strip_report {s r t : Str} (h1 : '<' ∉ s) (h2 : '<' ∉ r) (h3 : '<' ∉ t) :
    ∃ g, (∀ c ∈ g, c = '_') ∧ stripTags (withReport s r t) = s ++ g ++ t := by
  have n1 : TagName (py! "REPORTNUMBER") := ⟨by decide, by decide⟩
  have shape : withReport s r t = s ++ (enclose (py! "REPORTNUMBER") r ++ (t ++ [])) := by simp [withReport]
  have hf : NoNesting (withReport s r t) := by
    rw [shape]
    exact flat_noNesting (flat_text h1 (.tag (closed_enclose n1 h2) (flat_text h3 .nil)))
  have hb := (Props.C27_partial _ hf).1
  rw [shape] at hb
  obtain ⟨t1, e1, hb1⟩ := blanked_text h1 hb
  obtain ⟨t2, rfl, hb2⟩ := blanked_enclose n1 h2 hb1
  obtain ⟨t3, rfl, hb3⟩ := blanked_text h3 hb2
  have : t3 = [] := by
    generalize hl : ([] : Str) = l at hb3
    cases hb3 with
    | nil => rfl
    | ch => cases hl
    | tag hw _ => rcases hw with ⟨n, b, n', rfl, -⟩ | ⟨n, rfl, -⟩ <;> simp at hl
  subst this
  refine ⟨underscores (enclose (py! "REPORTNUMBER") r).length, fun c h => List.eq_of_mem_replicate h, ?_⟩
  rw [shape, e1]
  simp only [List.append_assoc, List.append_nil]

omit [UnicodeDB] in
theorem unclosed_eq (tail : Str) : (match tail with | ']' :: c' => c' | ')' :: c' => c' | c => c) = unclosed tail := by
  split
  · simp [unclosed]
  · simp [unclosed]
  · rename_i h1 h2
    cases tail with
    | nil => rfl
    | cons c s =>
      rw [unclosed, if_neg]
      rintro (rfl | rfl)
      · exact h2 s rfl
      · exact h1 s rfl

theorem rebuild_report {f : Found} {pre b tail r : Str} {i k : Nat} (h1 : f.journals = []) (h2 : f.repLens = [(i, k)])
    (h3 : f.repTexts = [(i, r)]) (h4 : f.publishers = []) (h5 : accountSpaces f.spaces (some k) i = (pre.length, b.length - k)) (h6 : k ≤ b.length)
    (pubs : List (Str × Re × Str)) : rebuildTagged (pre ++ b ++ tail) f pubs = .ok (washVolumeTag (withReport pre.dropLast r (unclosed tail))) := by
  have hloc : locations f = [(i, .reportnumber)] := by
    unfold locations
    rw [h1, h3, h4]
    rfl
  obtain ⟨c1, c2, c3⟩ := Props.C75_partial pre b tail r 0 k (b.length - k) (by omega)
  unfold rebuildTagged
  rw [if_neg (by rw [h2]; simp), hloc, List.foldlM_cons]
  have hstep : replaceStep (pre ++ b ++ tail) f pubs (0, none, []) (i, .reportnumber) =
      .ok ((addReportNumber (pre ++ b ++ tail) k r 0 pre.length (b.length - k)).2, none, (addReportNumber (pre ++ b ++ tail) k r 0 pre.length (b.length - k)).1) := by
    unfold replaceStep
    dsimp only
    have e1 : getKey (dget f.repLens i) = .ok k := by rw [h2]; simp [dget, getKey]
    have e2 : getKey (dget f.repTexts i) = .ok r := by rw [h3]; simp [dget, getKey]
    rw [e1, okBind, e2, okBind, h5]
    rfl
  rw [hstep, okBind]
  dsimp only [List.foldlM_nil, pure, Except.pure]
  rw [okBind]
  dsimp only
  congr 2
  rw [c3.trans (unclosed_eq tail)]
  rcases List.eq_nil_or_concat pre with rfl | ⟨a, x, rfl⟩
  · rw [c2 (by simp)]
    simp [withReport, enclose]
  · rw [c1 (by simp) a x (by simp)]
    simp [withReport, enclose]

theorem unclosed_mem {s : Str} {c : Char} (h : c ∈ unclosed s) : c ∈ s := by
  cases s with
  | nil => exact h
  | cons d s =>
    rw [unclosed] at h
    split at h
    · exact .tail _ h
    · exact h

/-- The line with tags. -/
theorem tag_report {lib : Lib} {kbs : Kbs} {n : Nat} {pre b tail S w : Str} (hl : NumberLine n pre b tail) (hk : KnownReport kbs.tag pre b tail S w)
    (ho : NothingBeside kbs pre b tail) (hu : ∀ s, (∀ c ∈ s, isAscii c = true) → lib.unidecode s = s) :
    (∀ c ∈ S ++ hyphenated w, c ≠ '<' ∧ c ≠ '\n') ∧
    tagReferenceLine lib (pre ++ b ++ tail) kbs.tag [] = .ok (withReport pre.dropLast (S ++ hyphenated w) (unclosed tail), []) := by
  have hX : Calm (pre ++ b ++ tail) := calm_suffix (a := bracketed n ++ [' ']) (by simpa using hl.calm)
  obtain ⟨f, hrec, f1, f2, f3, f4, f5, f6⟩ := recognise_report hX hl hk ho
  have q1 : ∀ c ∈ pre.dropLast, c ∈ quietChars := fun c hc => hl.quiet c (by simp [(List.dropLast_sublist _).subset hc])
  have q2 : ∀ c ∈ unclosed tail, c ∈ quietChars := fun c hc => hl.quiet c (by simp [unclosed_mem hc])
  have lt1 : '<' ∉ pre.dropLast := fun h => absurd (q1 _ h) (by decide)
  have lt2 : '<' ∉ unclosed tail := fun h => absurd (q2 _ h) (by decide)
  have hw : ∀ c ∈ hyphenated w, c ∈ '-' :: readChars := by
    intro c hc
    obtain ⟨d, hd, rfl⟩ := List.mem_map.1 hc
    have := reading_chars (fun c hc => hX.chars c (by simp [hc])) d (hk.part.subset hd)
    split
    · exact .head _
    · exact .tail _ this
  have a1 : ∀ {l : List Char}, (l.all fun c => isAscii c && c != '\n') = true → ∀ c ∈ l, isAscii c = true ∧ c ≠ '\n' := by
    intro l h1 c h2
    simpa using List.all_eq_true.1 h1 c h2
  have hr : ∀ c ∈ S ++ hyphenated w, isAscii c = true ∧ c ≠ '\n' := by
    intro c hc
    rcases List.mem_append.1 hc with hc | hc
    · exact ⟨hk.ascii c hc, fun e => hk.plain.2 (e ▸ hc)⟩
    · exact a1 (l := '-' :: readChars) (by decide) c (hw c hc)
  have ltr : '<' ∉ S ++ hyphenated w := by
    intro h
    rcases List.mem_append.1 h with h | h
    · exact hk.plain.1 h
    · exact absurd (hw _ h) (by decide)
  refine ⟨fun c hc => ⟨fun e => ltr (e ▸ hc), (hr c hc).2⟩, ?_⟩
  have hascii : ∀ c ∈ withReport pre.dropLast (S ++ hyphenated w) (unclosed tail), isAscii c = true ∧ c ≠ '\n' := by
    intro c hc
    have : withReport pre.dropLast (S ++ hyphenated w) (unclosed tail) = pre.dropLast ++ (py! "<cds.REPORTNUMBER>" ++ ((S ++ hyphenated w) ++ (py! "</cds.REPORTNUMBER>" ++ unclosed tail))) := by
      simp [withReport, enclose]
    rw [this] at hc
    simp only [List.mem_append] at hc
    rcases hc with h | h | h | h | h
    · exact a1 (l := quietChars) (by decide) c (q1 c h)
    · exact a1 (by decide) c h
    · exact hr c (by simpa using h)
    · exact a1 (by decide) c h
    · exact a1 (l := quietChars) (by decide) c (q2 c h)
  obtain ⟨g, hg, hstrip⟩ := strip_report lt1 ltr lt2
  have hauth : finditer Rx.RE_AUTH (stripTags (withReport pre.dropLast (S ++ hyphenated w) (unclosed tail))) = [] := by
    rw [hstrip]
    refine barren_finditer (A := quietUnder) (by decide) (by decide +kernel) ?_
    intro c hc
    rcases List.mem_append.1 hc with hc | hc
    · rcases List.mem_append.1 hc with hc | hc
      · exact List.mem_cons_of_mem _ (q1 c hc)
      · rw [hg c hc]; decide
    · exact List.mem_cons_of_mem _ (q2 c hc)
  unfold tagReferenceLine
  rw [calm_fixed lib hX, okBind, hrec, okBind]
  dsimp only
  have hs : sumDicts [] ([] : List (Str × Nat)) = .ok [] := rfl
  rw [hs, okBind]
  unfold processLine
  rw [rebuild_report f1 f2 f3 f4 f5 f6, okBind, wash_report lt1 ltr lt2, tagAuthors_none ?_ (hu _ fun c hc => (hascii c hc).1) hauth, okBind,
    tagCollaborations_none ?_, okBind]
  · have : (withReport pre.dropLast (S ++ hyphenated w) (unclosed tail)).filter (· != '\n') = withReport pre.dropLast (S ++ hyphenated w) (unclosed tail) := by
      rw [List.filter_eq_self]
      intro c hc
      simpa using (hascii c hc).2
    rw [this]
    rfl
  · intro q hq
    rw [hstrip]
    exact ho.collaborations q hq g hg
  · intro q hq hi
    obtain ⟨c, hc, hn⟩ := ho.authors q hq
    rw [(hascii c (hi.subset hc)).1] at hn
    cases hn

end Py
