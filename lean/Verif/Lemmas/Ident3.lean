import Verif.Lemmas.Ident2

/-!
# Older arXiv identifiers, ATLAS notes
-/

open Spec

namespace Py

variable [UnicodeDB]

omit [UnicodeDB] in
theorem rewrittenBy_foldl {α : Type} {f : Str → α → Str} {P : α → Str → Str → Str → Str → Prop} :
    ∀ (l : List α), (∀ a ∈ l, ∀ s, Rewritten (P a) [] s (f s a)) → ∀ s, RewrittenBy (l.map P) s (l.foldl f s)
  | [], _, _ => .nil
  | a :: l, h, s => .cons (h a (by simp) s) (rewrittenBy_foldl l (fun b hb => h b (by simp [hb])) _)

/-! ### Seven digits and an archive in brackets -/

omit [UnicodeDB] in
theorem catchup_minLen : 0 < Rx.RE_ARXIV_CATCHUP.minLen := by decide

theorem catchup_rewritten (line : Str) : Rewritten ArxivCatchup [] line (sub Rx.RE_ARXIV_CATCHUP
    (fun m => m.tgroup G.suffix ++ ['/'] ++ m.tgroup G.year ++ m.tgroup G.month ++ m.tgroup G.num) line) := by
  refine rewritten_sub catchup_minLen ?_ ?_ line
  · intro pre post m h
    obtain ⟨t, ht, hp, -, hg⟩ := matchHere_first h
    have hpost : post = t.post := List.append_cancel_left hp
    obtain ⟨s1, lead, k1, h⟩ := first_seq ht
    obtain ⟨s2, sep, k2, h⟩ := first_seq h
    obtain ⟨s3, yy, k3, c3, h⟩ := first_group_seq h
    obtain ⟨s4, hh, k4, h⟩ := first_seq h
    obtain ⟨s5, mm, k5, c5, h⟩ := first_group_seq h
    obtain ⟨s6, sep2, k6, h⟩ := first_seq h
    obtain ⟨s7, num, k7, c7, h⟩ := first_group_seq h
    obtain ⟨s8, sp, k8, h⟩ := first_seq h
    obtain ⟨s9, o, k9, h⟩ := first_seq h
    obtain ⟨s10, a, k10, c10, h⟩ := first_group_seq h
    obtain ⟨c, k11⟩ := h.step
    obtain rfl := sem_ch.1 k9.sem
    obtain rfl := sem_ch.1 k11.sem
    obtain ⟨hne, ha⟩ := sem_plus_set.1 k10.sem
    refine ⟨lead, sep, yy, hh, mm, sep2, num, sp, a, ?_, sem_strI.1 k1.sem, fun c hc => colon_hyphen_mem.1 (sem_star_set.1 k2.sem c hc),
      sem_digits.1 k3.sem, sem_optCh.1 k4.sem, sem_digits.1 k5.sem, fun c hc => dot_hyphen_mem.1 (sem_star_set.1 k6.sem c hc),
      sem_digits.1 k7.sem, sem_spaces.1 k8.sem, ⟨a, rfl, hne, fun c hc => catSet_mem.1 (ha c hc)⟩, ?_⟩
    · have := k1.post
      simp only [k2.post, k3.post, k4.post, k5.post, k6.post, k7.post, k8.post, k9.post, k10.post, k11.post] at this
      rw [hp] at this
      refine List.append_cancel_right (bs := t.post) ?_
      rw [this]
      simp
    · have d3 : m.group G.year = some yy := by
        rw [hg, k11.cap _ (by decide), k10.cap _ (by decide), k9.cap _ (by decide), k8.cap _ (by decide), k7.cap _ (by decide),
          k6.cap _ (by decide), k5.cap _ (by decide), k4.cap _ (by decide), c3]
      have d5 : m.group G.month = some mm := by
        rw [hg, k11.cap _ (by decide), k10.cap _ (by decide), k9.cap _ (by decide), k8.cap _ (by decide), k7.cap _ (by decide),
          k6.cap _ (by decide), c5]
      have d7 : m.group G.num = some num := by
        rw [hg, k11.cap _ (by decide), k10.cap _ (by decide), k9.cap _ (by decide), k8.cap _ (by decide), c7]
      have d10 : m.group G.suffix = some a := by rw [hg, k11.cap _ (by decide), c10]
      simp only [Match.tgroup, d3, d5, d7, d10, Option.getD_some]
  · rintro pre w post x ⟨lead, sep, yy, hh, mm, sep2, num, sp, a, rfl, h1, h2, h3, h4, h5, h6, h7, h8, ⟨a', e, hne, ha⟩, -⟩
    have : a = a' := by simpa using e
    subst this
    simp only [List.append_assoc]
    exact sem_seq_intro (sem_strI.2 h1) (sem_seq_intro (sem_star_set.2 fun c hc => colon_hyphen_mem.2 (h2 c hc)) (sem_seq_intro (sem_digits.2 h3)
      (sem_seq_intro (sem_optCh.2 h4) (sem_seq_intro (sem_digits.2 h5) (sem_seq_intro (sem_star_set.2 fun c hc => dot_hyphen_mem.2 (h6 c hc))
      (sem_seq_intro (sem_digits.2 h7) (sem_seq_intro (sem_spaces.2 h8) (sem_seq_intro (sem_ch.2 rfl)
      (sem_seq_intro (sem_plus_set.2 ⟨hne, fun c hc => catSet_mem.2 (ha c hc)⟩) (sem_ch.2 rfl))))))))))

/-! ### Names of archives -/

/-- The pattern for the name of an archive. -/
def archiveRe (name : Str) (two : Bool) : Re :=
  if two then Re.strI name ⬝ Re.times 2 (.set ⟨false, true, [.range 'a' 'z']⟩) else Re.strI name

omit [UnicodeDB] in
theorem old_arxiv_eq : Rx.old_arxiv = arxivArchives.map fun a => (archiveRe a.1 a.2.1, a.2.2) := rfl

theorem lowerI_mem {c : Char} : CSet.mem ⟨false, true, [.range 'a' 'z']⟩ c = true ↔ ∃ d ∈ caseVariants c, isAsciiLower d = true := by
  have hr : ∀ d : Char, (CItem.mem d (.range 'a' 'z') = true ↔ isAsciiLower d = true) := by
    intro d
    simp only [CItem.mem, isAsciiLower, Bool.and_eq_true, decide_eq_true_eq]
    rfl
  simp only [CSet.mem, if_true, List.any_eq_true, List.any_cons, List.any_nil, Bool.or_false, Bool.false_eq_true, if_false, hr]

theorem sem_archive {name : Str} {two : Bool} {pre w post : Str} : Sem (archiveRe name two) pre w post ↔ ArchiveName name two w := by
  cases two with
  | false =>
    simp only [archiveRe, ArchiveName, Bool.false_eq_true, if_false, sem_strI]
    exact ⟨fun h => ⟨w, [], by simp, h, rfl⟩, fun ⟨u, v, e, h, h'⟩ => by rw [e, h', List.append_nil]; exact h⟩
  | true =>
    simp only [archiveRe, ArchiveName, if_true]
    constructor
    · rintro ⟨u, v, rfl, h1, h2⟩
      obtain ⟨h3, h4⟩ := sem_times_set.1 h2
      exact ⟨u, v, rfl, sem_strI.1 h1, h3, fun c hc => lowerI_mem.1 (h4 c hc)⟩
    · rintro ⟨u, v, rfl, h1, h2, h3⟩
      exact ⟨u, v, rfl, sem_strI.2 h1, sem_times_set.2 ⟨h2, fun c hc => lowerI_mem.2 (h3 c hc)⟩⟩

omit [UnicodeDB] in
theorem archive_groups (name : Str) (two : Bool) : (archiveRe name two).groups = [] := by
  have : ∀ n : Str, (Re.strI n).groups = [] := by
    intro n
    match n with
    | [] => rfl
    | [c] => rfl
    | c :: d :: r =>
      have : ∀ (r : Str) c, (Re.strI (c :: r)).groups = [] := by
        intro r
        induction r with
        | nil => intro c; rfl
        | cons d r ih => intro c; simp only [Re.strI, Re.groups, ih d]; rfl
      exact this _ _
  unfold archiveRe
  split
  · simp only [Re.groups, this, List.nil_append]; rfl
  · exact this _

/-- The year of an old number. -/
def year91Re : Re := Re.alts [(Re.ch '9') ⬝ (.set ⟨false, false, [.range '1' '9']⟩), (Re.ch '0') ⬝ (.set ⟨false, false, [.range '0' '7']⟩)]

theorem sem_year91 {pre w post : Str} : Sem year91Re pre w post ↔ Year91 w := by
  have h9 : ∀ c, CSet.mem ⟨false, false, [.range '1' '9']⟩ c = true ↔ c ∈ py! "123456789" := fun c => range_mem (by decide) (by decide)
  have h2 : ∀ c, CSet.mem ⟨false, false, [.range '0' '7']⟩ c = true ↔ c ∈ py! "01234567" := fun c => range_mem (by decide) (by decide)
  constructor
  · rintro (⟨u, v, rfl, h, c, rfl, hc⟩ | ⟨u, v, rfl, h, c, rfl, hc⟩)
    · obtain rfl := sem_ch.1 h
      exact ⟨_, _, rfl, .inl ⟨rfl, (h9 c).1 hc⟩⟩
    · obtain rfl := sem_ch.1 h
      exact ⟨_, _, rfl, .inr ⟨rfl, (h2 c).1 hc⟩⟩
  · rintro ⟨a, b, rfl, ⟨rfl, hb⟩ | ⟨rfl, hb⟩⟩
    · exact .inl ⟨['9'], [b], rfl, sem_ch.2 rfl, b, rfl, (h9 b).2 hb⟩
    · exact .inr ⟨['0'], [b], rfl, sem_ch.2 rfl, b, rfl, (h2 b).2 hb⟩

/-- The version of an old number. -/
def oldVerRe : Re := (Re.chI 'v') ⬝ (Re.rep 1 3 (Re.digit))

theorem sem_oldVer {pre w post : Str} : Sem oldVerRe pre w post ↔ OldVersion w := by
  constructor
  · rintro ⟨u, v, rfl, h1, h2⟩
    obtain ⟨c, rfl, hc⟩ := sem_chI.1 h1
    obtain ⟨h3, h4, h5⟩ := (sem_rep_set (by decide)).1 h2
    exact ⟨c, v, rfl, .cons hc .nil, h3, h4, fun a ha => digitSet_mem.1 (h5 a ha)⟩
  · rintro ⟨c, d, rfl, hc, h1, h2, h3⟩
    cases hc with
    | cons hc _ =>
      exact ⟨[c], d, rfl, sem_chI.2 ⟨c, rfl, hc⟩, (sem_rep_set (by decide)).2 ⟨h1, h2, fun a ha => digitSet_mem.2 (h3 a ha)⟩⟩

/-- The end of an old number: no word character follows. -/
def endRe : Re := .look false (Re.alts [.set ⟨true, false, [.word, .digit]⟩, .eos])

theorem nonword_mem {c : Char} : CSet.mem ⟨true, false, [.word, .digit]⟩ c = true ↔ ¬ isWord c = true := by
  simp only [CSet.mem, CItem.mem, List.any_cons, List.any_nil, Bool.or_false, Bool.false_eq_true, if_false, if_true]
  by_cases hw : isWord c = true
  · simp [hw]
  · have : isDec c = false := by
      rw [Bool.eq_false_iff]
      exact fun h => hw (isDec_isWord h)
    simp [hw, this]

theorem sem_end {pre w post : Str} : Sem endRe pre w post ↔ w = [] ∧ NotFirst (fun c => isWord c = true) post := by
  simp only [endRe, Re.alts, Sem]
  refine and_congr_right fun _ => ?_
  simp only [true_iff]
  constructor
  · rintro ⟨u, v, rfl, ⟨c, rfl, hc⟩ | ⟨rfl, h⟩⟩
    · intro d hd
      simp only [List.singleton_append, List.head?_cons, Option.some.injEq] at hd
      subst hd
      exact nonword_mem.1 hc
    · rw [List.nil_append]
      rcases h with rfl | rfl
      · intro d hd; simp at hd
      · intro d hd
        simp only [List.head?_cons, Option.some.injEq] at hd
        subst hd
        simp [space_not_word (c := '\n') (by decide)]
  · intro h
    cases post with
    | nil => exact ⟨[], [], rfl, .inr ⟨rfl, .inl rfl⟩⟩
    | cons c post => exact ⟨[c], post, rfl, .inl ⟨c, rfl, nonword_mem.2 (h c rfl)⟩⟩

theorem sem_notWord {pre w post : Str} : Sem (.behind true [⟨false, false, [.word]⟩]) pre w post ↔
    w = [] ∧ NotFirst (fun c => isWord c = true) pre := by
  have hm : ∀ c, CSet.mem ⟨false, false, [.word]⟩ c = true ↔ isWord c = true := by intro c; simp [CSet.mem, CItem.mem]
  simp only [Sem]
  refine and_congr_right fun _ => ?_
  cases pre with
  | nil => simp [behindOk, NotFirst]
  | cons c pre =>
    simp only [List.reverse_cons, List.reverse_nil, List.nil_append, behindOk, Bool.and_true, hm]
    constructor
    · intro h d hd hdd
      simp only [List.head?_cons, Option.some.injEq] at hd
      subst hd
      exact absurd (h.2 hdd) (by decide)
    · intro h
      exact ⟨fun h' => absurd h' (by decide), fun h' => absurd h' (h c rfl)⟩

/-- The classes of the characters of a text, up to case for letters. -/
def foldSets (x : Str) : List CSet := x.map fun c => ⟨false, isAsciiUpper c || isAsciiLower c, [.ch c]⟩

theorem all2_foldSets {x : Str} (hx : ∀ c ∈ x, isAscii c = true) : ∀ {v : Str},
    All2 (fun c k => CSet.mem k c = true) v (foldSets x) ↔ FoldsTo v x := by
  have h1 : ∀ c ∈ x, ∀ d, CSet.mem ⟨false, isAsciiUpper c || isAsciiLower c, [.ch c]⟩ d = true ↔ c ∈ caseVariants d := by
    intro c hc d
    cases hl : (isAsciiUpper c || isAsciiLower c) with
    | true => exact chI_mem
    | false =>
      simp only [CSet.mem, CItem.mem, List.any_cons, List.any_nil, Bool.or_false, Bool.false_eq_true, if_false, beq_iff_eq]
      exact ⟨fun h => by rw [h]; exact self_mem_variants _, caseVariants_plain (hx c hc) hl⟩
  clear hx
  induction x with
  | nil =>
    intro v
    constructor
    · intro h; cases h; exact .nil
    · intro h; cases h; exact .nil
  | cons c x ih =>
    intro v
    constructor
    · intro h
      cases h with
      | cons ha hb => exact .cons ((h1 c (by simp) _).1 ha) ((ih fun d hd => h1 d (by simp [hd])).1 hb)
    · intro h
      cases h with
      | cons ha hb => exact .cons ((h1 c (by simp) _).2 ha) ((ih fun d hd => h1 d (by simp [hd])).2 hb)

theorem sem_notReport {pre w post : Str} : Sem (.behind true (foldSets (py! "<cds.REPORTNUMBER>"))) pre w post ↔
    w = [] ∧ ¬ ∃ a v, pre.reverse = a ++ v ∧ FoldsTo v (py! "<cds.REPORTNUMBER>") :=
  sem_behind fun _ => all2_foldSets (by decide)

omit [UnicodeDB] in
theorem lead_eq : Rx.old_arxiv_lead = (.behind true (foldSets (py! "<cds.REPORTNUMBER>"))) ⬝ (.behind true [⟨false, false, [.word]⟩]) := rfl

/-- The separator before an old number. -/
def oldSepSet : CSet := ⟨false, false, [.ch '|', .ch '/', .ch ':', .space, .ch '-']⟩

theorem oldSep_mem {c : Char} : oldSepSet.mem c = true ↔ (c ∈ py! "|/:-" ∨ isSpace c = true) := by
  simp only [oldSepSet, CSet.mem, CItem.mem, List.any_cons, List.any_nil, Bool.or_false, Bool.false_eq_true, if_false, Bool.or_eq_true, beq_iff_eq,
    List.mem_cons, List.not_mem_nil, or_false]
  constructor
  · rintro (h | h | h | h | h) <;> simp [h]
  · rintro ((h | h | h | h) | h) <;> simp [h]

/-- The digits of an old number. -/
def oldNumRe : Re := year91Re ⬝ monthRe ⬝ Re.times 3 Re.digit

theorem sem_oldNum {pre w post : Str} : Sem oldNumRe pre w post ↔ ∃ yy mm num, w = yy ++ mm ++ num ∧ Year91 yy ∧ Month2 mm ∧ DigitsOf 3 num := by
  constructor
  · rintro ⟨yy, v, rfl, h1, mm, num, rfl, h2, h3⟩
    exact ⟨yy, mm, num, by simp, sem_year91.1 h1, sem_month.1 h2, sem_digits.1 h3⟩
  · rintro ⟨yy, mm, num, rfl, h1, h2, h3⟩
    rw [List.append_assoc]
    exact ⟨yy, mm ++ num, rfl, sem_year91.2 h1, mm, num, rfl, sem_month.2 h2, sem_digits.2 h3⟩

omit [UnicodeDB] in
theorem numbers_eq : Rx.old_arxiv_numbers = (Re.opt (.set oldSepSet)) ⬝ (.group G.num oldNumRe) ⬝ (Re.opt oldVerRe) ⬝ endRe := rfl

theorem sem_optSet {k : CSet} {pre w post : Str} : Sem (Re.opt (.set k)) pre w post ↔ (w = [] ∨ ∃ c, w = [c] ∧ k.mem c = true) :=
  ⟨fun h => h.symm, fun h => h.symm⟩

omit [UnicodeDB] in
theorem seq_minLen {a b : Re} : (a ⬝ b).minLen = a.minLen + b.minLen := rfl

theorem old_rewritten (name : Str) (two : Bool) (repl : Option Str) (line : Str) :
    Rewritten (OldArxiv name two repl) [] line (sub (oldArxivRe (archiveRe name two)) (oldArxivTag repl) line) := by
  have hn : 0 < (oldArxivRe (archiveRe name two)).minLen := by
    have : 0 < Rx.old_arxiv_numbers.minLen := by decide
    simp only [oldArxivRe, seq_minLen]
    omega
  refine rewritten_sub hn ?_ ?_ line
  · intro pre post m h
    obtain ⟨t, ht, hp, -, hg⟩ := matchHere_first h
    have hpost : post = t.post := List.append_cancel_left hp
    rw [oldArxivRe, lead_eq, numbers_eq] at ht
    obtain ⟨s1, e1, k1, h⟩ := first_seq ht
    obtain ⟨s3, nm, k3, c3, h⟩ := first_group_seq h
    obtain ⟨s4, sep, k4, h⟩ := first_seq h
    obtain ⟨s5, num, k5, c5, h⟩ := first_group_seq h
    obtain ⟨s6, ver, k6, h⟩ := first_seq h
    obtain ⟨e7, k7⟩ := h.step
    obtain ⟨rfl, hend⟩ := sem_end.1 k7.sem
    obtain ⟨x1, x2, rfl, hx1, hx2⟩ := k1.sem
    obtain ⟨rfl, hrep⟩ := sem_notReport.1 hx1
    obtain ⟨rfl, hword⟩ := sem_notWord.1 hx2
    obtain ⟨yy, mm, n3, rfl, hy, hmm, hn3⟩ := sem_oldNum.1 k5.sem
    refine ⟨nm, sep, yy, mm, n3, ver, ?_, hrep, ?_, sem_archive.1 k3.sem, ?_, hy, hmm, hn3, ?_, ?_, ?_⟩
    · have := k1.post
      simp only [k3.post, k4.post, k5.post, k6.post, k7.post] at this
      rw [hp] at this
      refine List.append_cancel_right (bs := t.post) ?_
      rw [this]
      simp
    · simpa using hword
    · rcases sem_optSet.1 k4.sem with h | ⟨c, h, hc⟩
      · exact .inl h
      · exact .inr ⟨c, h, oldSep_mem.1 hc⟩
    · rcases k6.sem with h | h
      · exact .inr (sem_oldVer.1 h)
      · exact .inl h
    · rw [hpost]; exact hend
    · have d3 : m.group G.name = some nm := by
        rw [hg, k7.cap _ (by decide), k6.cap _ (by decide), k5.cap _ (by decide), k4.cap _ (by decide), c3]
      have d5 : m.group G.num = some (yy ++ mm ++ n3) := by rw [hg, k7.cap _ (by decide), k6.cap _ (by decide), c5]
      simp only [oldArxivTag, Match.tgroup, d3, d5, Option.getD_some, tagged]
      simp
  · rintro pre w post x ⟨nm, sep, yy, mm, n3, ver, rfl, h1, h2, h3, h4, h5, h6, h7, h8, h9, -⟩
    rw [List.reverse_reverse] at h2
    rw [oldArxivRe, lead_eq, numbers_eq]
    have k4 : Sem (Re.opt (.set oldSepSet)) (nm.reverse ++ pre) sep (yy ++ mm ++ n3 ++ ver ++ post) :=
      sem_optSet.2 (h4.imp id fun ⟨c, h, hc⟩ => ⟨c, h, oldSep_mem.2 hc⟩)
    have k8 : Sem (Re.opt oldVerRe) ((yy ++ mm ++ n3).reverse ++ (sep.reverse ++ (nm.reverse ++ pre))) ver post :=
      h8.symm.imp (fun h => sem_oldVer.2 h) id
    have k := sem_seq_intro (sem_seq_intro (v := []) (sem_notReport.2 ⟨rfl, h1⟩) (sem_notWord.2 ⟨rfl, h2⟩)) (sem_seq_intro (sem_archive.2 h3)
      (sem_seq_intro (v := (yy ++ mm ++ n3) ++ (ver ++ [])) (by simpa using k4) (sem_seq_intro (sem_oldNum.2 ⟨yy, mm, n3, rfl, h5, h6, h7⟩)
      (sem_seq_intro (v := []) (by simpa using k8) (sem_end.2 ⟨rfl, h9⟩)))))
    simp only [List.append_nil, List.nil_append, List.append_assoc] at k ⊢
    exact k

theorem tagArxivMore_rewritten (line : Str) : ∃ l, Rewritten ArxivCatchup [] line l ∧
    RewrittenBy (arxivArchives.map fun a => OldArxiv a.1 a.2.1 a.2.2) l (tagArxivMore line) := by
  refine ⟨_, catchup_rewritten line, ?_⟩
  simp only [tagArxivMore, old_arxiv_eq, List.foldl_map]
  exact rewrittenBy_foldl _ (fun a _ s => old_rewritten a.1 a.2.1 a.2.2 s) _

end Py
