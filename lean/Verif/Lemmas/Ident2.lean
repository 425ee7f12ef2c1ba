import Verif.Lemmas.Ident

/-!
# arXiv identifiers
-/

open Spec

namespace Py

variable [UnicodeDB]

/-- The characters of a category. -/
def catSet : CSet := ⟨false, true, [.range 'A' 'Z', .ch '.', .ch '-']⟩

/-- The category in brackets. -/
def catRe : Re := (Re.ch '[') ⬝ (Re.plus (.set catSet)) ⬝ (Re.ch ']')

/-- Blanks and the category. -/
def tailRe : Re := (.star true (Re.space)) ⬝ Re.opt (.group G.suffix catRe)

/-- The version. -/
def verRe : Re := (.star true (.set ⟨false, false, [.space, .ch '-']⟩)) ⬝ (Re.chI 'V') ⬝ (.group G.version (Re.digit))

/-- The month. -/
def monthRe : Re := Re.alts [(Re.ch '0') ⬝ (.set ⟨false, false, [.range '1' '9']⟩), (Re.ch '1') ⬝ (.set ⟨false, false, [.range '0' '2']⟩)]

/-- The year of a number with five digits. -/
def year13Re : Re := Re.alts [(Re.ch '1') ⬝ (.set ⟨false, false, [.range '3' '9']⟩), (.set ⟨false, false, [.range '2' '8']⟩) ⬝ (.set ⟨false, false, [.range '0' '9']⟩)]

/-- An identifier behind the word `arXiv`. -/
def namedRe (Y M : Re) (n : Nat) : Re :=
  (Re.strI (py! "ARXIV")) ⬝ (.star true (.set ⟨false, false, [.space, .ch ':', .ch '-']⟩)) ⬝ (.group G.year Y) ⬝ (Re.opt (Re.ch '-')) ⬝ (.group G.month M) ⬝ (.star true (.set ⟨false, false, [.space, .ch '.', .ch '-']⟩)) ⬝ (.group G.num (Re.times n (Re.digit))) ⬝ (.look true (Re.digit)) ⬝ (Re.opt verRe) ⬝ tailRe

/-- An identifier without the word. -/
def bareRe (Y : Re) (n : Nat) : Re :=
  (.behind true [⟨false, true, [.ch 'A']⟩, ⟨false, true, [.ch 'R']⟩, ⟨false, true, [.ch 'X']⟩, ⟨false, true, [.ch 'I']⟩, ⟨false, true, [.ch 'V']⟩, ⟨false, false, [.ch ':']⟩]) ⬝ (.behind true [⟨false, false, [.digit]⟩]) ⬝ (.group G.year Y) ⬝ (.group G.month monthRe) ⬝ (Re.ch '.') ⬝ (.group G.num (Re.times n (Re.digit))) ⬝ (Re.opt verRe) ⬝ (.look true (Re.digit)) ⬝ tailRe

omit [UnicodeDB] in
theorem arxiv_eq : Rx.re_arxiv = namedRe (Re.times 2 Re.digit) (Re.times 2 Re.digit) 4 := rfl
omit [UnicodeDB] in
theorem arxiv5_eq : Rx.re_arxiv_5digits = namedRe year13Re monthRe 5 := rfl
omit [UnicodeDB] in
theorem newArxiv_eq (Y : Re) : Rx.re_new_arxiv Y = bareRe Y 4 := rfl
omit [UnicodeDB] in
theorem newArxiv5_eq (Y : Re) : Rx.re_new_arxiv_5digits Y = bareRe Y 5 := rfl

theorem catSet_mem {c : Char} : catSet.mem c = true ↔ (c = '.' ∨ c = '-' ∨ ∃ d ∈ caseVariants c, isAsciiUpper d = true) := by
  have hr : ∀ d : Char, (CItem.mem d (.range 'A' 'Z') = true ↔ isAsciiUpper d = true) := by
    intro d
    simp only [CItem.mem, isAsciiUpper, Bool.and_eq_true, decide_eq_true_eq]
    rfl
  simp only [catSet, CSet.mem, if_true, List.any_eq_true, List.any_cons, List.any_nil, Bool.or_false, Bool.or_eq_true,
    Bool.false_eq_true, if_false, hr]
  constructor
  · rintro ⟨d, hd, h | h | h⟩
    · exact .inr (.inr ⟨d, hd, h⟩)
    · rw [CItem.mem, beq_iff_eq] at h
      subst h
      exact .inl (caseVariants_plain rfl rfl hd)
    · rw [CItem.mem, beq_iff_eq] at h
      subst h
      exact .inr (.inl (caseVariants_plain rfl rfl hd))
  · have self : ∀ c : Char, c ∈ caseVariants c := fun c => by unfold caseVariants; split <;> simp
    rintro (rfl | rfl | ⟨d, hd, h⟩)
    · exact ⟨_, self _, .inr (.inl (by simp [CItem.mem]))⟩
    · exact ⟨_, self _, .inr (.inr (by simp [CItem.mem]))⟩
    · exact ⟨d, hd, .inl h⟩

theorem sem_cat {pre w post : Str} : Sem catRe pre w post ↔ ArxivCategory w := by
  constructor
  · rintro ⟨u, v, rfl, h1, a, b, rfl, h2, h3⟩
    obtain rfl := sem_ch.1 h1
    obtain rfl := sem_ch.1 h3
    obtain ⟨hne, ha⟩ := sem_plus_set.1 h2
    exact ⟨a, rfl, hne, fun c hc => catSet_mem.1 (ha c hc)⟩
  · rintro ⟨a, rfl, hne, ha⟩
    exact ⟨['['], a ++ [']'], rfl, sem_ch.2 rfl, a, [']'], rfl, sem_plus_set.2 ⟨hne, fun c hc => catSet_mem.2 (ha c hc)⟩, sem_ch.2 rfl⟩

theorem gap_mem {c : Char} : CSet.mem ⟨false, false, [.space, .ch '-']⟩ c = true ↔ (c = '-' ∨ isSpace c = true) := by
  simp [CSet.mem, CItem.mem, Or.comm]

theorem sem_ver {pre w post : Str} : Sem verRe pre w post ↔ ArxivVersion w := by
  constructor
  · rintro ⟨g, v, rfl, h1, a, b, rfl, h2, c, rfl, h3⟩
    obtain ⟨d, rfl, h4⟩ := sem_chI.1 h2
    exact ⟨g, d, c, rfl, fun x hx => gap_mem.1 (sem_star_set.1 h1 x hx), .cons h4 .nil, digitSet_mem.1 h3⟩
  · rintro ⟨g, c, d, rfl, hg, hc, hd⟩
    cases hc with
    | cons hc _ =>
      exact ⟨g, [c, d], rfl, sem_star_set.2 fun x hx => gap_mem.2 (hg x hx), [c], [d], rfl, sem_chI.2 ⟨c, rfl, hc⟩, d, rfl, digitSet_mem.2 hd⟩

theorem sem_month {pre w post : Str} : Sem monthRe pre w post ↔ Month2 w := by
  have h9 : ∀ c, CSet.mem ⟨false, false, [.range '1' '9']⟩ c = true ↔ c ∈ py! "123456789" := fun c => range_mem (by decide) (by decide)
  have h2 : ∀ c, CSet.mem ⟨false, false, [.range '0' '2']⟩ c = true ↔ c ∈ py! "012" := fun c => range_mem (by decide) (by decide)
  constructor
  · rintro (⟨u, v, rfl, h, c, rfl, hc⟩ | ⟨u, v, rfl, h, c, rfl, hc⟩)
    · obtain rfl := sem_ch.1 h
      exact ⟨_, _, rfl, .inl ⟨rfl, (h9 c).1 hc⟩⟩
    · obtain rfl := sem_ch.1 h
      exact ⟨_, _, rfl, .inr ⟨rfl, (h2 c).1 hc⟩⟩
  · rintro ⟨a, b, rfl, ⟨rfl, hb⟩ | ⟨rfl, hb⟩⟩
    · exact .inl ⟨['0'], [b], rfl, sem_ch.2 rfl, b, rfl, (h9 b).2 hb⟩
    · exact .inr ⟨['1'], [b], rfl, sem_ch.2 rfl, b, rfl, (h2 b).2 hb⟩

theorem sem_year13 {pre w post : Str} : Sem year13Re pre w post ↔ Year13 w := by
  have h3 : ∀ c, CSet.mem ⟨false, false, [.range '3' '9']⟩ c = true ↔ c ∈ py! "3456789" := fun c => range_mem (by decide) (by decide)
  have h2 : ∀ c, CSet.mem ⟨false, false, [.range '2' '8']⟩ c = true ↔ c ∈ py! "2345678" := fun c => range_mem (by decide) (by decide)
  have h0 : ∀ c, CSet.mem ⟨false, false, [.range '0' '9']⟩ c = true ↔ c ∈ py! "0123456789" := fun c => range_mem (by decide) (by decide)
  constructor
  · rintro (⟨u, v, rfl, h, c, rfl, hc⟩ | ⟨u, v, rfl, ⟨d, rfl, hd⟩, c, rfl, hc⟩)
    · obtain rfl := sem_ch.1 h
      exact ⟨_, _, rfl, .inl ⟨rfl, (h3 c).1 hc⟩⟩
    · exact ⟨_, _, rfl, .inr ⟨(h2 d).1 hd, (h0 c).1 hc⟩⟩
  · rintro ⟨a, b, rfl, ⟨rfl, hb⟩ | ⟨ha, hb⟩⟩
    · exact .inl ⟨['1'], [b], rfl, sem_ch.2 rfl, b, rfl, (h3 b).2 hb⟩
    · exact .inr ⟨[a], [b], rfl, ⟨a, rfl, (h2 a).2 ha⟩, b, rfl, (h0 b).2 hb⟩

/-- What the end of the pattern takes. -/
theorem first_tail {s t : St} (h : First tailRe s t) (hs : s.cap G.suffix = none) :
    ∃ sp cat, s.post = sp ++ cat ++ t.post ∧ Spaces sp ∧ NotFirst (fun c => isSpace c = true) (cat ++ t.post) ∧
      Optionally (fun x _ => ArxivCategory x) cat t.post ∧ (t.cap G.suffix).getD [] = cat ∧ ∀ g, g ≠ G.suffix → t.cap g = s.cap g := by
  obtain ⟨u, fu, h⟩ := first_seq_total (run_total _ rfl) h
  obtain ⟨sp, k1, h1, h2⟩ := first_star fu
  have hsp : Spaces sp := fun c hc => (spaceSet_mem c).symm.trans (h1 c hc)
  have hnf : NotFirst (fun c => isSpace c = true) u.post := fun c hc hs => by
    have := h2 c hc
    rw [Bool.eq_false_iff] at this
    exact this ((spaceSet_mem c).trans hs)
  rcases first_opt h with h | ⟨h, rfl⟩
  · obtain ⟨v, cat, fv, kv, -, e2, e3, e4⟩ := first_group h
    refine ⟨sp, cat, by rw [k1.post, kv.post, e2]; simp, hsp, ?_, .inl (sem_cat.1 kv.sem), by rw [e3]; rfl, fun g hg => ?_⟩
    · rw [e2, ← kv.post]; exact hnf
    · rw [e4 g hg, kv.cap g (by simp [catRe, Re.groups, Re.ch, Re.plus]), k1.cap g (by simp [Re.groups])]
  · refine ⟨sp, [], by rw [k1.post]; simp, hsp, hnf, .inr ⟨rfl, ?_⟩, ?_, fun g _ => k1.cap g (by simp [Re.groups])⟩
    · rintro ⟨y, r', e, hy⟩
      exact run_nil h ⟨y, r', e, sem_cat.2 hy⟩
    · rw [k1.cap _ (by simp [Re.groups]), hs]; rfl

omit [UnicodeDB] in
theorem arxivTag_eq {m : Match} {yy mm num cat : Str} (h1 : m.group G.year = some yy) (h2 : m.group G.month = some mm)
    (h3 : m.group G.num = some num) (h4 : (m.group G.suffix).getD [] = cat) : arxivTag m = arxivId yy mm num cat := by
  have : (match m.group G.suffix with
    | some (c :: s) => ' ' :: c :: s
    | _ => []) = (if cat = [] then [] else ' ' :: cat) := by
    cases hs : m.group G.suffix with
    | none => rw [hs] at h4; subst h4; rfl
    | some x => rw [hs] at h4; subst h4; cases x <;> rfl
  simp only [arxivTag, h1, h2, h3, showVal, arxivId, tagged]
  simp
  exact this

theorem colon_hyphen_mem {c : Char} : CSet.mem ⟨false, false, [.space, .ch ':', .ch '-']⟩ c = true ↔ (c = ':' ∨ c = '-' ∨ isSpace c = true) := by
  simp [CSet.mem, CItem.mem]
  exact ⟨fun h => by rcases h with h | h | h <;> simp [h], fun h => by rcases h with h | h | h <;> simp [h]⟩

theorem dot_hyphen_mem {c : Char} : CSet.mem ⟨false, false, [.space, .ch '.', .ch '-']⟩ c = true ↔ (c = '.' ∨ c = '-' ∨ isSpace c = true) := by
  simp [CSet.mem, CItem.mem]
  exact ⟨fun h => by rcases h with h | h | h <;> simp [h], fun h => by rcases h with h | h | h <;> simp [h]⟩

theorem sem_lookDigit {pre w post : Str} : Sem (.look true Re.digit) pre w post ↔ w = [] ∧ NotFirst (fun c => isDec c = true) post := by
  rw [Re.digit, sem_look_set]
  simp only [digitSet_mem]

theorem named_rewritten {Y M : Re} {n : Nat} {year month : Str → Prop} (hY : ∀ pre w post, Sem Y pre w post ↔ year w)
    (hM : ∀ pre w post, Sem M pre w post ↔ month w) (gY : Y.groups = []) (gM : M.groups = []) (hn : 0 < (namedRe Y M n).minLen)
    (line : Str) : Rewritten (ArxivNamed year month n) [] line (sub (namedRe Y M n) arxivTag line) := by
  have gt : ∀ n, (Re.times n Re.digit).groups = [] := by
    intro n
    induction n using Nat.strongRecOn with
    | ind n ih =>
      match n with
      | 0 => rfl
      | 1 => rfl
      | n + 2 => simp only [Re.times, Re.groups, ih (n + 1) (by omega)]; rfl
  refine rewritten_sub hn ?_ ?_ line
  · intro pre post m h
    obtain ⟨t, ht, hp, -, hg⟩ := matchHere_first h
    have hpost : post = t.post := List.append_cancel_left hp
    obtain ⟨s1, lead, k1, h⟩ := first_seq ht
    obtain ⟨s2, sep, k2, h⟩ := first_seq h
    obtain ⟨s3, yy, k3, c3, h⟩ := first_group_seq h
    obtain ⟨s4, hh, k4, h⟩ := first_seq h
    obtain ⟨s5, mm, k5, c5, h⟩ := first_group_seq h
    obtain ⟨s6, sep2, k6, h⟩ := first_seq h
    obtain ⟨s7, num, k7, c7, h⟩ := first_group_seq h
    obtain ⟨s8, e, k8, h⟩ := first_seq h
    obtain ⟨s9, f9, h⟩ := first_seq_total (run_total _ rfl) h
    obtain ⟨rfl, hd⟩ := sem_lookDigit.1 k8.sem
    have hcap : ∀ g, g ∉ [G.year, G.month, G.num, G.version] → s9.cap g = none := by
      intro g hg
      obtain ⟨w9, k9⟩ := f9.step
      simp only [List.mem_cons, List.not_mem_nil, or_false, not_or] at hg
      obtain ⟨g1, g2, g3, g4⟩ := hg
      rw [k9.cap g (by simp [verRe, Re.opt, Re.groups, Re.chI, Re.digit, g4]), k8.cap g (by simp [Re.groups, Re.digit]),
        k7.cap g (by simp [Re.groups, gt, g3]), k6.cap g (by simp [Re.groups]), k5.cap g (by simp [Re.groups, gM, g2]),
        k4.cap g (by simp [Re.groups, Re.opt, Re.ch]), k3.cap g (by simp [Re.groups, gY, g1]), k2.cap g (by simp [Re.groups]),
        k1.cap g (by simp [Re.groups, Re.strI, Re.chI])]
      rfl
    obtain ⟨sp, cat, e10, hsp, hnf, hcat, c10, hother⟩ := first_tail h (hcap _ (by decide))
    obtain ⟨ver, k9, hver⟩ : ∃ ver, Step (Re.opt verRe) s8 s9 ver ∧ Optionally (fun v _ => ArxivVersion v) ver s9.post := by
      rcases first_opt f9 with f | ⟨f, rfl⟩
      · obtain ⟨v, kv⟩ := f.step
        refine ⟨v, ⟨kv.post, kv.pre, .inl kv.sem, fun g hg => kv.cap g ?_⟩, .inl (sem_ver.1 kv.sem)⟩
        simpa [Re.opt, Re.groups] using hg
      · refine ⟨[], ⟨rfl, rfl, .inr rfl, fun _ _ => rfl⟩, .inr ⟨rfl, ?_⟩⟩
        rintro ⟨y, r', e, hy⟩
        exact run_nil f ⟨y, r', e, sem_ver.2 hy⟩
    refine ⟨lead, sep, yy, hh, mm, sep2, num, ver, sp, cat, ?_, sem_strI.1 k1.sem, fun c hc => colon_hyphen_mem.1 (sem_star_set.1 k2.sem c hc),
      (hY _ _ _).1 k3.sem, sem_optCh.1 k4.sem, (hM _ _ _).1 k5.sem, fun c hc => dot_hyphen_mem.1 (sem_star_set.1 k6.sem c hc),
      sem_digits.1 k7.sem, ?_, ?_, hsp, ?_, ?_, ?_⟩
    · have := k1.post
      simp only [k2.post, k3.post, k4.post, k5.post, k6.post, k7.post, k8.post, k9.post, e10] at this
      rw [hp] at this
      refine List.append_cancel_right (bs := t.post) ?_
      rw [this]
      simp
    · rw [k9.post, e10] at hd
      simpa [hpost] using hd
    · rw [hpost]
      rw [e10] at hver
      simpa using hver
    · rw [hpost]; exact hnf
    · rw [hpost]; exact hcat
    · have d3 : t.cap G.year = some yy := by
        rw [hother _ (by decide), k9.cap _ (by simp [verRe, Re.opt, Re.groups, Re.chI, Re.digit] <;> decide), k8.cap _ (by simp [Re.groups, Re.digit]),
          k7.cap _ (by simp [Re.groups, gt] <;> decide), k6.cap _ (by simp [Re.groups]), k5.cap _ (by simp [Re.groups, gM] <;> decide),
          k4.cap _ (by simp [Re.groups, Re.opt, Re.ch]), c3]
      have d5 : t.cap G.month = some mm := by
        rw [hother _ (by decide), k9.cap _ (by simp [verRe, Re.opt, Re.groups, Re.chI, Re.digit] <;> decide), k8.cap _ (by simp [Re.groups, Re.digit]),
          k7.cap _ (by simp [Re.groups, gt] <;> decide), k6.cap _ (by simp [Re.groups]), c5]
      have d7 : t.cap G.num = some num := by
        rw [hother _ (by decide), k9.cap _ (by simp [verRe, Re.opt, Re.groups, Re.chI, Re.digit] <;> decide), k8.cap _ (by simp [Re.groups, Re.digit]), c7]
      exact arxivTag_eq (by rw [hg, d3]) (by rw [hg, d5]) (by rw [hg, d7]) (by rw [hg, c10])
  · rintro pre w post x ⟨lead, sep, yy, hh, mm, sep2, num, ver, sp, cat, rfl, h1, h2, h3, h4, h5, h6, h7, h8, h9, h10, h11, h12, -⟩
    simp only [List.append_assoc]
    refine sem_seq_intro (sem_strI.2 h1) (sem_seq_intro (sem_star_set.2 fun c hc => colon_hyphen_mem.2 (h2 c hc)) (sem_seq_intro ((hY _ _ _).2 h3)
      (sem_seq_intro (sem_optCh.2 h4) (sem_seq_intro ((hM _ _ _).2 h5) (sem_seq_intro (sem_star_set.2 fun c hc => dot_hyphen_mem.2 (h6 c hc))
      (sem_seq_intro (sem_digits.2 h7) (?_ : Sem _ _ ([] ++ (ver ++ (sp ++ cat))) _)))))))
    refine sem_seq_intro (sem_lookDigit.2 ⟨rfl, by simpa using h8⟩) (sem_seq_intro ?_ (sem_seq_intro (sem_spaces.2 h10) ?_))
    · rcases h9 with h | ⟨rfl, -⟩
      · exact .inl (sem_ver.2 h)
      · exact .inr rfl
    · rcases h12 with h | ⟨rfl, -⟩
      · exact .inl (sem_cat.2 h)
      · exact .inr rfl

theorem behindOk_iff : ∀ {ks : List CSet} {pre : Str}, behindOk ks pre = true ↔
    ∃ v a, pre = v ++ a ∧ All2 (fun c k => CSet.mem k c = true) v ks
  | [], pre => ⟨fun _ => ⟨[], pre, rfl, .nil⟩, fun _ => by simp [behindOk]⟩
  | k :: ks, [] => by
    simp only [behindOk, Bool.false_eq_true, false_iff]
    rintro ⟨v, a, e, h⟩
    cases h
    simp at e
  | k :: ks, c :: pre => by
    simp only [behindOk, Bool.and_eq_true, behindOk_iff]
    constructor
    · rintro ⟨hc, v, a, rfl, h⟩
      exact ⟨c :: v, a, rfl, .cons hc h⟩
    · rintro ⟨v, a, e, h⟩
      cases h with
      | cons hc h =>
        simp only [List.cons_append, List.cons.injEq] at e
        obtain ⟨rfl, rfl⟩ := e
        exact ⟨hc, _, a, rfl, h⟩

omit [UnicodeDB] in
theorem all2_reverse {α β : Type} {R : α → β → Prop} {as : List α} {bs : List β} (h : All2 R as bs) : All2 R as.reverse bs.reverse := by
  induction h with
  | nil => exact .nil
  | @cons a b as bs hab _ ih =>
    rw [List.reverse_cons, List.reverse_cons]
    revert ih
    generalize as.reverse = x
    generalize bs.reverse = y
    intro ih
    induction ih with
    | nil => exact .cons hab .nil
    | cons h _ ih => exact .cons h ih

/-- A negative lookbehind in terms of the text before. -/
theorem sem_behind {ks : List CSet} {R : Str → Prop} (hR : ∀ v, All2 (fun c k => CSet.mem k c = true) v ks ↔ R v) {pre w post : Str} :
    Sem (.behind true ks) pre w post ↔ w = [] ∧ ¬ ∃ a v, pre.reverse = a ++ v ∧ R v := by
  simp only [Sem]
  refine and_congr_right fun _ => ?_
  have : behindOk ks.reverse pre = true ↔ ∃ a v, pre.reverse = a ++ v ∧ R v := by
    rw [behindOk_iff]
    constructor
    · rintro ⟨v, a, rfl, h⟩
      refine ⟨a.reverse, v.reverse, by simp, (hR _).1 ?_⟩
      have := all2_reverse h
      rwa [List.reverse_reverse] at this
    · rintro ⟨a, v, e, h⟩
      refine ⟨v.reverse, a.reverse, ?_, all2_reverse ((hR _).2 h)⟩
      rw [← List.reverse_append, ← e, List.reverse_reverse]
  rw [← this]
  simp

theorem self_mem_variants (c : Char) : c ∈ caseVariants c := by unfold caseVariants; split <;> simp

theorem sem_notArxiv {pre w post : Str} : Sem (.behind true [⟨false, true, [.ch 'A']⟩, ⟨false, true, [.ch 'R']⟩, ⟨false, true, [.ch 'X']⟩, ⟨false, true, [.ch 'I']⟩, ⟨false, true, [.ch 'V']⟩, ⟨false, false, [.ch ':']⟩]) pre w post ↔
    w = [] ∧ ¬ ∃ a v, pre.reverse = a ++ v ∧ FoldsTo v (py! "ARXIV:") := by
  refine sem_behind fun v => ?_
  have hc : ∀ c, CSet.mem ⟨false, false, [.ch ':']⟩ c = true ↔ ':' ∈ caseVariants c := by
    intro c
    simp only [CSet.mem, CItem.mem, List.any_cons, List.any_nil, Bool.or_false, Bool.false_eq_true, if_false, beq_iff_eq]
    exact ⟨fun h => by rw [h]; exact self_mem_variants _, caseVariants_plain rfl rfl⟩
  constructor
  · rintro (_ | ⟨h1, _ | ⟨h2, _ | ⟨h3, _ | ⟨h4, _ | ⟨h5, _ | ⟨h6, _ | _⟩⟩⟩⟩⟩⟩)
    exact .cons (chI_mem.1 h1) (.cons (chI_mem.1 h2) (.cons (chI_mem.1 h3) (.cons (chI_mem.1 h4) (.cons (chI_mem.1 h5) (.cons ((hc _).1 h6) .nil)))))
  · rintro (_ | ⟨h1, _ | ⟨h2, _ | ⟨h3, _ | ⟨h4, _ | ⟨h5, _ | ⟨h6, _ | _⟩⟩⟩⟩⟩⟩)
    exact .cons (chI_mem.2 h1) (.cons (chI_mem.2 h2) (.cons (chI_mem.2 h3) (.cons (chI_mem.2 h4) (.cons (chI_mem.2 h5) (.cons ((hc _).2 h6) .nil)))))

theorem sem_notDigit {pre w post : Str} : Sem (.behind true [⟨false, false, [.digit]⟩]) pre w post ↔
    w = [] ∧ NotFirst (fun c => isDec c = true) pre := by
  simp only [Sem]
  refine and_congr_right fun _ => ?_
  cases pre with
  | nil => simp [behindOk, NotFirst]
  | cons c pre =>
    simp only [List.reverse_cons, List.reverse_nil, List.nil_append, behindOk, Bool.and_true, digitSet_mem]
    constructor
    · intro h d hd hdd
      simp only [List.head?_cons, Option.some.injEq] at hd
      subst hd
      exact absurd (h.2 hdd) (by decide)
    · intro h
      exact ⟨fun h' => absurd h' (by decide), fun h' => absurd h' (h c rfl)⟩

/-- An optional part before something that may fail. -/
theorem first_opt_seq {a c : Re} {s t : St} (h : First (Re.opt a ⬝ c) s t) :
    First (a ⬝ c) s t ∨ (run (a ⬝ c) s = [] ∧ First c s t) := by
  unfold First at *
  simp only [Re.opt, run, List.flatMap_append, List.flatMap_cons, List.flatMap_nil, List.append_nil, List.head?_append] at h ⊢
  cases hl : (run a s).flatMap (run c) with
  | nil => rw [hl] at h; right; exact ⟨rfl, by simpa using h⟩
  | cons u l => rw [hl] at h; left; simpa using h

omit [UnicodeDB] in
theorem times_groups : ∀ n, (Re.times n Re.digit).groups = []
  | 0 => rfl
  | 1 => rfl
  | n + 2 => by simp only [Re.times, Re.groups, times_groups (n + 1)]; rfl

theorem bare_rewritten {Y : Re} {n : Nat} {year : Str → Prop} (hY : ∀ pre w post, Sem Y pre w post ↔ year w)
    (gY : Y.groups = []) (hn : 0 < (bareRe Y n).minLen) (line : Str) :
    Rewritten (ArxivBare year n) [] line (sub (bareRe Y n) arxivTag line) := by
  refine rewritten_sub hn ?_ ?_ line
  · intro pre post m h
    obtain ⟨t, ht, hp, -, hg⟩ := matchHere_first h
    have hpost : post = t.post := List.append_cancel_left hp
    obtain ⟨s1, e1, k1, h⟩ := first_seq ht
    obtain ⟨s2, e2, k2, h⟩ := first_seq h
    obtain ⟨s3, yy, k3, c3, h⟩ := first_group_seq h
    obtain ⟨s4, mm, k4, c4, h⟩ := first_group_seq h
    obtain ⟨s5, dot, k5, h⟩ := first_seq h
    obtain ⟨s6, num, k6, c6, h⟩ := first_group_seq h
    obtain ⟨s7, ver, k7, hver, h⟩ : ∃ s7 ver, Step (Re.opt verRe) s6 s7 ver ∧
        Optionally (fun v r => ArxivVersion v ∧ NotFirst (fun c => isDec c = true) r) ver s7.post ∧ First (.look true Re.digit ⬝ tailRe) s7 t := by
      rcases first_opt_seq h with h | ⟨hn, h⟩
      · obtain ⟨s7, v, k7, h⟩ := first_seq h
        obtain ⟨s8, e, k8, h'⟩ := first_seq h
        obtain ⟨rfl, hd⟩ := sem_lookDigit.1 k8.sem
        refine ⟨s7, v, ⟨k7.post, k7.pre, .inl k7.sem, fun g hg => k7.cap g ?_⟩, .inl ⟨sem_ver.1 k7.sem, ?_⟩, h⟩
        · simpa [Re.opt, Re.groups] using hg
        · rw [k8.post]; exact hd
      · refine ⟨s6, [], ⟨rfl, rfl, .inr rfl, fun _ _ => rfl⟩, .inr ⟨rfl, ?_⟩, h⟩
        rintro ⟨y, r', e, hy, hd⟩
        refine run_nil hn ⟨y ++ ([] ++ ([] ++ [])), r', by simpa using e, ?_⟩
        exact sem_seq_intro (sem_ver.2 hy) (sem_seq_intro (sem_lookDigit.2 ⟨rfl, hd⟩) (sem_seq_intro (sem_spaces.2 (by simp [Spaces])) (.inr rfl)))
    obtain ⟨s8, e, k8, h⟩ := first_seq h
    obtain ⟨rfl, hd⟩ := sem_lookDigit.1 k8.sem
    obtain ⟨rfl, ha⟩ := sem_notArxiv.1 k1.sem
    obtain ⟨rfl, hb⟩ := sem_notDigit.1 k2.sem
    obtain rfl := sem_ch.1 k5.sem
    have hpre : s1.pre = pre := by simpa using k1.pre
    have hcap : s8.cap G.suffix = none := by
      rw [k8.cap _ (by simp [Re.groups, Re.digit]), k7.cap _ (by simp [verRe, Re.opt, Re.groups, Re.chI, Re.digit] <;> decide),
        k6.cap _ (by simp [Re.groups, times_groups] <;> decide), k5.cap _ (by simp [Re.groups, Re.ch]), k4.cap _ (by decide),
        k3.cap _ (by simp [Re.groups, gY] <;> decide), k2.cap _ (by simp [Re.groups]), k1.cap _ (by simp [Re.groups])]
      rfl
    obtain ⟨sp, cat, e10, hsp, hnf, hcat, c10, hother⟩ := first_tail h hcap
    have e7 : s7.post = sp ++ cat ++ post := by rw [k8.post, e10, hpost]; rfl
    refine ⟨yy, mm, num, ver, sp, cat, ?_, ha, ?_, (hY _ _ _).1 k3.sem, sem_month.1 k4.sem, sem_digits.1 k6.sem, ?_, ?_, hsp, ?_, ?_, ?_⟩
    · have := k1.post
      simp only [k2.post, k3.post, k4.post, k5.post, k6.post, k7.post, e7] at this
      refine List.append_cancel_right (bs := post) ?_
      rw [this]
      simp
    · rw [List.reverse_reverse, ← hpre]; exact hb
    · rwa [e7] at hver
    · rw [hpost, ← e10]; exact hd
    · rw [hpost]; exact hnf
    · rw [hpost]; exact hcat
    · have d6 : t.cap G.num = some num := by
        rw [hother _ (by decide), k8.cap _ (by simp [Re.groups, Re.digit]), k7.cap _ (by simp [verRe, Re.opt, Re.groups, Re.chI, Re.digit] <;> decide), c6]
      have d4 : t.cap G.month = some mm := by
        rw [hother _ (by decide), k8.cap _ (by simp [Re.groups, Re.digit]), k7.cap _ (by simp [verRe, Re.opt, Re.groups, Re.chI, Re.digit] <;> decide),
          k6.cap _ (by simp [Re.groups, times_groups] <;> decide), k5.cap _ (by simp [Re.groups, Re.ch]), c4]
      have d3 : t.cap G.year = some yy := by
        rw [hother _ (by decide), k8.cap _ (by simp [Re.groups, Re.digit]), k7.cap _ (by simp [verRe, Re.opt, Re.groups, Re.chI, Re.digit] <;> decide),
          k6.cap _ (by simp [Re.groups, times_groups] <;> decide), k5.cap _ (by simp [Re.groups, Re.ch]), k4.cap _ (by decide), c3]
      exact arxivTag_eq (by rw [hg, d3]) (by rw [hg, d4]) (by rw [hg, d6]) (by rw [hg, c10])
  · rintro pre w post x ⟨yy, mm, num, ver, sp, cat, rfl, h1, h2, h3, h4, h5, h6, h7, h8, h9, h10, -⟩
    simp only [List.append_assoc]
    rw [List.reverse_reverse] at h2
    refine (sem_seq_intro (sem_notArxiv.2 ⟨rfl, h1⟩) (sem_seq_intro (sem_notDigit.2 ⟨rfl, h2⟩) (sem_seq_intro ((hY _ _ _).2 h3)
      (sem_seq_intro (sem_month.2 h4) (sem_seq_intro (sem_ch.2 rfl) (sem_seq_intro (sem_digits.2 h5) (sem_seq_intro (v := [] ++ (sp ++ cat)) ?_
      (sem_seq_intro (sem_lookDigit.2 ⟨rfl, by simpa using h7⟩) (sem_seq_intro (sem_spaces.2 h8) ?_)))))))) :
      Sem (bareRe Y n) pre ([] ++ ([] ++ (yy ++ (mm ++ (['.'] ++ (num ++ (ver ++ ([] ++ (sp ++ cat))))))))) post)
    · rcases h6 with h | ⟨rfl, -⟩
      · exact .inl (sem_ver.2 h.1)
      · exact .inr rfl
    · rcases h10 with h | ⟨rfl, -⟩
      · exact .inl (sem_cat.2 h)
      · exact .inr rfl

end Py
