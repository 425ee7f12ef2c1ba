import Verif.Lemmas.Ident3
import Verif.Lemmas.Transform2

/-!
# ATLAS notes and Proceedings of Science
-/

open Spec

namespace Py

variable [UnicodeDB]

/-! ### ATLAS notes -/

/-- The pattern for a note with the given code. -/
def atlasRe (code : Re) : Re :=
  (.behind true [⟨false, false, [.word]⟩, ⟨false, false, [.ch ':']⟩]) ⬝ (.str (py! "ATL")) ⬝ (Re.opt (.str (py! "AS"))) ⬝ (.str (py! "-CONF-")) ⬝
    (.group G.code code) ⬝ (.look true (.set ⟨false, false, [.word, .digit]⟩))

/-- The codes before 2010. -/
def codeOld : Re := (Re.alts [(.str (py! "200")) ⬝ Re.digit, .str (py! "99")]) ⬝ (Re.ch '-') ⬝ (Re.times 3 (Re.digit))

/-- The codes since 2010. -/
def codeNew : Re := (.str (py! "20")) ⬝ (.set ⟨false, false, [.range '1' '9']⟩) ⬝ Re.digit ⬝ (Re.ch '-') ⬝ (Re.times 3 (Re.digit))

omit [UnicodeDB] in
theorem atlas_eq : Rx.RE_ATLAS_CONF_PRE_2010 = atlasRe codeOld ∧ Rx.RE_ATLAS_CONF_POST_2010 = atlasRe codeNew := ⟨rfl, rfl⟩

theorem sem_codeOld {pre w post : Str} : Sem codeOld pre w post ↔ CodeBefore2010 w := by
  constructor
  · rintro ⟨y, v, rfl, hy, h, n, rfl, h1, h2⟩
    obtain rfl := sem_ch.1 h1
    refine ⟨y, n, by simp, ?_, sem_digits.1 h2⟩
    rcases hy with ⟨a, b, rfl, rfl, d, rfl, hd⟩ | h
    · exact .inr ⟨d, rfl, digitSet_mem.1 hd⟩
    · exact .inl h
  · rintro ⟨y, n, rfl, hy, hn⟩
    rw [List.append_assoc]
    refine sem_seq_intro ?_ (sem_seq_intro (sem_ch.2 rfl) (sem_digits.2 hn))
    rcases hy with rfl | ⟨d, rfl, hd⟩
    · exact .inr rfl
    · exact .inl ⟨_, [d], rfl, rfl, d, rfl, digitSet_mem.2 hd⟩

theorem sem_codeNew {pre w post : Str} : Sem codeNew pre w post ↔ CodeSince2010 w := by
  have h9 : ∀ c, CSet.mem ⟨false, false, [.range '1' '9']⟩ c = true ↔ c ∈ py! "123456789" := fun c => range_mem (by decide) (by decide)
  constructor
  · rintro ⟨_, _, rfl, rfl, _, _, rfl, ⟨a, rfl, ha⟩, _, _, rfl, ⟨d, rfl, hd⟩, h, n, rfl, h1, h2⟩
    obtain rfl := sem_ch.1 h1
    exact ⟨a, d, n, by simp, (h9 a).1 ha, digitSet_mem.1 hd, sem_digits.1 h2⟩
  · rintro ⟨a, d, n, rfl, ha, hd, hn⟩
    have : py! "20" ++ [a, d] ++ ['-'] ++ n = py! "20" ++ ([a] ++ ([d] ++ (['-'] ++ n))) := by simp
    rw [this]
    exact sem_seq_intro rfl (sem_seq_intro ⟨a, rfl, (h9 a).2 ha⟩ (sem_seq_intro ⟨d, rfl, digitSet_mem.2 hd⟩ (sem_seq_intro (sem_ch.2 rfl) (sem_digits.2 hn))))

theorem sem_notFile {pre w post : Str} : Sem (.behind true [⟨false, false, [.word]⟩, ⟨false, false, [.ch ':']⟩]) pre w post ↔
    w = [] ∧ ¬ ∃ a v, pre.reverse = a ++ v ∧ ∃ u, v = [u, ':'] ∧ isWord u = true := by
  refine sem_behind fun v => ?_
  constructor
  · intro h
    cases h with
    | @cons u _ _ _ h1 h =>
      cases h with
      | @cons d _ _ _ h2 h =>
        cases h
        refine ⟨u, ?_, by simpa [CSet.mem, CItem.mem] using h1⟩
        have : d = ':' := by simpa [CSet.mem, CItem.mem] using h2
        rw [this]
  · rintro ⟨u, rfl, hu⟩
    exact .cons (by simpa [CSet.mem, CItem.mem] using hu) (.cons (by simp [CSet.mem, CItem.mem]) .nil)

theorem word_mem {c : Char} : CSet.mem ⟨false, false, [.word, .digit]⟩ c = true ↔ isWord c = true := by
  have := nonword_mem (c := c)
  simp only [CSet.mem, if_true, Bool.false_eq_true, if_false] at this ⊢
  constructor
  · intro h
    by_cases hw : isWord c = true
    · exact hw
    · have := this.2 hw
      rw [h] at this
      exact absurd this (by decide)
  · intro h
    simp [CItem.mem, h]

theorem atlas_rewritten {code : Re} {C : Str → Prop} (hc : ∀ pre w post, Sem code pre w post ↔ C w) (hl : 0 < code.minLen) (name : Str) (line : Str) :
    Rewritten (AtlasNote C name) [] line (sub (atlasRe code)
      (fun m => py! "<cds.REPORTNUMBER>" ++ name ++ m.tgroup G.code ++ py! "</cds.REPORTNUMBER>") line) := by
  have hn : 0 < (atlasRe code).minLen := by
    simp only [atlasRe, seq_minLen, Re.minLen]
    omega
  refine rewritten_sub hn ?_ ?_ line
  · intro pre post m h
    obtain ⟨t, ht, hp, -, hg⟩ := matchHere_first h
    have hpost : post = t.post := List.append_cancel_left hp
    obtain ⟨s1, e1, k1, h⟩ := first_seq ht
    obtain ⟨s2, l1, k2, h⟩ := first_seq h
    obtain ⟨s3, l2, k3, h⟩ := first_seq h
    obtain ⟨s4, l3, k4, h⟩ := first_seq h
    obtain ⟨s5, c, k5, c5, h⟩ := first_group_seq h
    obtain ⟨e6, k6⟩ := h.step
    obtain ⟨rfl, hfile⟩ := sem_notFile.1 k1.sem
    obtain ⟨rfl, hend⟩ := sem_look_set.1 k6.sem
    obtain rfl : l1 = py! "ATL" := k2.sem
    obtain rfl : l3 = py! "-CONF-" := k4.sem
    refine ⟨py! "ATL" ++ l2 ++ py! "-CONF-", c, ?_, ?_, ?_, (hc _ _ _).1 k5.sem, ?_, ?_⟩
    · have := k1.post
      simp only [k2.post, k3.post, k4.post, k5.post, k6.post] at this
      rw [hp] at this
      refine List.append_cancel_right (bs := t.post) ?_
      rw [this]
      simp
    · rintro ⟨a, u, e, hu⟩
      exact hfile ⟨a, _, e, u, rfl, hu⟩
    · rcases k3.sem with h | h
      · right; rw [show l2 = _ from h]; rfl
      · left; rw [show l2 = _ from h]; rfl
    · rw [hpost]; exact fun d hd hw => hend d hd (word_mem.2 hw)
    · have d5 : m.group G.code = some c := by rw [hg, k6.cap _ (by simp [Re.groups]), c5]
      simp [Match.tgroup, d5, tagged]
  · rintro pre w post x ⟨k, c, rfl, hf, hk, hC, he, -⟩
    have k1 : Sem (.behind true [⟨false, false, [.word]⟩, ⟨false, false, [.ch ':']⟩]) pre [] (k ++ c ++ post) :=
      sem_notFile.2 ⟨rfl, fun ⟨a, v, e, u, hv, hu⟩ => hf ⟨a, u, by rw [e, hv], hu⟩⟩
    have k6 : ∀ pre, Sem (.look true (.set ⟨false, false, [.word, .digit]⟩)) pre [] post :=
      fun pre => sem_look_set.2 ⟨rfl, fun d hd hw => he d hd (word_mem.1 hw)⟩
    rcases hk with rfl | rfl
    · have e : py! "ATL-CONF-" ++ c = [] ++ (py! "ATL" ++ ([] ++ (py! "-CONF-" ++ (c ++ [])))) := by simp
      rw [e] at k1 ⊢
      exact sem_seq_intro k1 (sem_seq_intro rfl (sem_seq_intro (.inr rfl) (sem_seq_intro rfl (sem_seq_intro ((hc _ _ _).2 hC) (k6 _)))))
    · have e : py! "ATLAS-CONF-" ++ c = [] ++ (py! "ATL" ++ (py! "AS" ++ (py! "-CONF-" ++ (c ++ [])))) := by simp
      rw [e] at k1 ⊢
      exact sem_seq_intro k1 (sem_seq_intro rfl (sem_seq_intro (.inl rfl) (sem_seq_intro rfl (sem_seq_intro ((hc _ _ _).2 hC) (k6 _)))))

theorem tagAtlas_rewritten (line : Str) : RewrittenBy [AtlasNote CodeBefore2010 (py! "ATL-CONF-"), AtlasNote CodeSince2010 (py! "ATLAS-CONF-")]
    line (tagAtlas line) :=
  .cons (atlas_rewritten (code := codeOld) (fun _ _ _ => sem_codeOld) (by decide) (py! "ATL-CONF-") line)
    (.cons (atlas_rewritten (code := codeNew) (fun _ _ _ => sem_codeNew) (by decide) (py! "ATLAS-CONF-") _) .nil)

/-! ### Proceedings of Science -/

/-- Replacing with a function that may raise rewrites the text. -/
theorem rewritten_subPy {r : Re} {P : Str → Str → Str → Str → Prop} {f : Match → Py Str} (hr : 0 < r.minLen)
    (hit : ∀ pre post m, matchHere r false pre (m.txt ++ post) = some m → ∃ x, f m = .ok x ∧ P pre.reverse m.txt post x)
    (sem : ∀ pre w post x, P pre.reverse w post x → Sem r pre w post) (s : Str) : ∃ t, subPy r f s = .ok t ∧ Rewritten P [] s t := by
  have key : ∀ {pre s : Str} {ps : List Piece}, Scanned r pre s ps → ∃ parts : List Str, (ps.mapM fun p => match p with
      | .ch c => Except.ok [c]
      | .hit m => f m) = Except.ok parts ∧ Rewritten P pre.reverse s parts.flatten := by
    intro pre s ps h
    induction h with
    | nil => exact ⟨[], rfl, .nil⟩
    | @ch pre c t ps hn _ ih =>
      obtain ⟨parts, e, ih⟩ := ih
      rw [List.reverse_cons] at ih
      refine ⟨[c] :: parts, by rw [List.mapM_cons, e]; rfl, .ch ?_ ih⟩
      rintro ⟨w, r', x, hw, hP⟩
      exact (matchHere_none _ _ _).1 hn ⟨w, r', hw, sem _ _ _ _ hP⟩
    | @hit pre t ps m hm hne _ ih =>
      obtain ⟨parts, e, ih⟩ := ih
      rw [List.reverse_append, List.reverse_reverse] at ih
      obtain ⟨x, hx, hP⟩ := hit _ _ _ hm
      refine ⟨x :: parts, ?_, .hit hne hP ih⟩
      rw [List.mapM_cons, e]
      dsimp only
      rw [hx]
      rfl
  obtain ⟨parts, e, h⟩ := key (scan_scanned' hr s)
  refine ⟨parts.flatten, ?_, by simpa using h⟩
  have hs : subPy r f s = (((scan r s).mapM fun p => match p with
      | .ch c => Except.ok [c]
      | .hit m => f m) >>= fun parts => pure parts.flatten : Py Str) := by
    have hf : ∀ g h : Piece → Py Str, (∀ p, g p = h p) → ((scan r s).mapM g >>= fun parts => pure parts.flatten : Py Str) =
        ((scan r s).mapM h >>= fun parts => pure parts.flatten) := fun g h e => by rw [funext e]
    exact hf _ _ fun p => by cases p <;> rfl
  rw [hs, e]
  rfl

/-- The separators. -/
def posSet : CSet := ⟨false, false, [.ch ',', .space, .ch ':', .ch '-']⟩

theorem posSet_mem {c : Char} : posSet.mem c = true ↔ (c ∈ py! ",:-" ∨ isSpace c = true) := by
  simp only [posSet, CSet.mem, CItem.mem, List.any_cons, List.any_nil, Bool.or_false, Bool.false_eq_true, if_false, Bool.or_eq_true, beq_iff_eq,
    List.mem_cons, List.not_mem_nil, or_false]
  constructor
  · rintro (h | h | h | h) <;> simp [h]
  · rintro ((h | h | h) | h) <;> simp [h]

/-- What has happened between two states, no groups being changed. -/
structure Skip (s u : St) (g : Str) : Prop where
  post : s.post = g ++ u.post
  pre : u.pre = g.reverse ++ s.pre
  cap : ∀ i, u.cap i = s.cap i

theorem first_sep {r : Re} {s t : St} (h : First ((.star true Re.space) ⬝ (.set posSet) ⬝ (.star true Re.space) ⬝ r) s t) :
    ∃ u g, PosSep g ∧ Skip s u g ∧ First r u t := by
  obtain ⟨s1, a, k1, h⟩ := first_seq h
  obtain ⟨s2, c, k2, h⟩ := first_seq h
  obtain ⟨s3, b, k3, h⟩ := first_seq h
  obtain ⟨c, rfl, hc⟩ := k2.sem
  refine ⟨s3, a ++ [c] ++ b, ⟨a, c, b, rfl, sem_spaces.1 k1.sem, posSet_mem.1 hc, sem_spaces.1 k3.sem⟩, ⟨?_, ?_, ?_⟩, h⟩
  · rw [k1.post, k2.post, k3.post]; simp
  · rw [k3.pre, k2.pre, k1.pre]; simp
  · intro i
    rw [k3.cap i (by simp [Re.groups, Re.space]), k2.cap i (by simp [Re.groups]), k1.cap i (by simp [Re.groups, Re.space])]

theorem first_gap {r : Re} {s t : St} (h : First ((.star true Re.space) ⬝ (Re.opt (.set posSet)) ⬝ (.star true Re.space) ⬝ r) s t) :
    ∃ u g, PosGap g ∧ Skip s u g ∧ First r u t := by
  obtain ⟨s1, a, k1, h⟩ := first_seq h
  obtain ⟨s2, c, k2, h⟩ := first_seq h
  obtain ⟨s3, b, k3, h⟩ := first_seq h
  refine ⟨s3, a ++ c ++ b, ?_, ⟨?_, ?_, ?_⟩, h⟩
  · rcases sem_optSet.1 k2.sem with rfl | ⟨c, rfl, hc⟩
    · right
      intro d hd
      simp only [List.append_nil, List.mem_append] at hd
      exact hd.elim (sem_spaces.1 k1.sem d) (sem_spaces.1 k3.sem d)
    · exact .inl ⟨a, c, b, rfl, sem_spaces.1 k1.sem, posSet_mem.1 hc, sem_spaces.1 k3.sem⟩
  · rw [k1.post, k2.post, k3.post]; simp
  · rw [k3.pre, k2.pre, k1.pre]; simp
  · intro i
    rw [k3.cap i (by simp [Re.groups, Re.space]), k2.cap i (by simp [Re.groups, Re.opt]), k1.cap i (by simp [Re.groups, Re.space])]

theorem sem_sep_intro {r : Re} {pre g v post : Str} (hg : PosSep g) (h : Sem r (g.reverse ++ pre) v post) :
    Sem ((.star true Re.space) ⬝ (.set posSet) ⬝ (.star true Re.space) ⬝ r) pre (g ++ v) post := by
  obtain ⟨a, c, b, rfl, ha, hc, hb⟩ := hg
  have : a ++ [c] ++ b ++ v = a ++ ([c] ++ (b ++ v)) := by simp
  rw [this]
  refine sem_seq_intro (sem_spaces.2 ha) (sem_seq_intro ⟨c, rfl, posSet_mem.2 hc⟩ (sem_seq_intro (sem_spaces.2 hb) ?_))
  simpa using h

theorem sem_gap_intro {r : Re} {pre g v post : Str} (hg : PosGap g) (h : Sem r (g.reverse ++ pre) v post) :
    Sem ((.star true Re.space) ⬝ (Re.opt (.set posSet)) ⬝ (.star true Re.space) ⬝ r) pre (g ++ v) post := by
  rcases hg with ⟨a, c, b, rfl, ha, hc, hb⟩ | hg
  · have : a ++ [c] ++ b ++ v = a ++ ([c] ++ (b ++ v)) := by simp
    rw [this]
    refine sem_seq_intro (sem_spaces.2 ha) (sem_seq_intro (.inl ⟨c, rfl, posSet_mem.2 hc⟩) (sem_seq_intro (sem_spaces.2 hb) ?_))
    simpa using h
  · have : g ++ v = g ++ ([] ++ ([] ++ v)) := by simp
    rw [this]
    refine sem_seq_intro (sem_spaces.2 hg) (sem_seq_intro (.inr rfl) (sem_seq_intro (sem_spaces.2 (by simp [Spaces])) ?_))
    simpa using h

/-- The century of a year. -/
def centRe : Re := Re.alts [Re.strI (py! "19"), Re.strI (py! "20")]

theorem sem_cent {pre w post : Str} : Sem centRe pre w post ↔ (w = py! "19" ∨ w = py! "20") := by
  constructor
  · rintro (h | h)
    · exact .inl (foldsTo_plain (by decide) (sem_strI.1 h))
    · exact .inr (foldsTo_plain (by decide) (sem_strI.1 h))
  · rintro (rfl | rfl)
    · exact .inl (sem_strI.2 (.cons (self_mem_variants _) (.cons (self_mem_variants _) .nil)))
    · exact .inr (sem_strI.2 (.cons (self_mem_variants _) (.cons (self_mem_variants _) .nil)))

/-- A year with its century. -/
def year4Re : Re := centRe ⬝ (Re.times 2 (Re.digit))

theorem sem_year4 {pre w post : Str} : Sem year4Re pre w post ↔ Year4 w := by
  constructor
  · rintro ⟨p, d, rfl, hp, hd⟩
    exact ⟨p, d, rfl, sem_cent.1 hp, sem_digits.1 hd⟩
  · rintro ⟨p, d, rfl, hp, hd⟩
    exact ⟨p, d, rfl, sem_cent.2 hp, sem_digits.2 hd⟩

/-- A year in brackets or between blanks. -/
def posYearRe : Re := Re.alts [Re.space ⬝ centRe ⬝ (Re.times 2 (Re.digit)) ⬝ Re.space, (Re.ch '(') ⬝ centRe ⬝ (Re.times 2 (Re.digit)) ⬝ (Re.ch ')')]

theorem sem_posYear {pre w post : Str} : Sem posYearRe pre w post ↔ ∃ y, PosYear w y := by
  constructor
  · rintro (⟨a, v, rfl, h1, p, v, rfl, h2, d, b, rfl, h3, h4⟩ | ⟨a, v, rfl, h1, p, v, rfl, h2, d, b, rfl, h3, h4⟩)
    · obtain ⟨a, rfl, ha⟩ := sem_space1.1 h1
      obtain ⟨b, rfl, hb⟩ := sem_space1.1 h4
      exact ⟨p ++ d, ⟨p, d, rfl, sem_cent.1 h2, sem_digits.1 h3⟩, .inr ⟨a, b, by simp, ha, hb⟩⟩
    · obtain rfl := sem_ch.1 h1
      obtain rfl := sem_ch.1 h4
      exact ⟨p ++ d, ⟨p, d, rfl, sem_cent.1 h2, sem_digits.1 h3⟩, .inl (by simp)⟩
  · rintro ⟨y, ⟨p, d, rfl, hp, hd⟩, rfl | ⟨a, b, rfl, ha, hb⟩⟩
    · have : '(' :: (p ++ d) ++ [')'] = ['('] ++ (p ++ (d ++ [')'])) := by simp
      rw [this]
      exact .inr (sem_seq_intro (sem_ch.2 rfl) (sem_seq_intro (sem_cent.2 hp) (sem_seq_intro (sem_digits.2 hd) (sem_ch.2 rfl))))
    · have : a :: (p ++ d) ++ [b] = [a] ++ (p ++ (d ++ [b])) := by simp
      rw [this]
      exact .inl (sem_seq_intro (sem_space1.2 ⟨a, rfl, ha⟩) (sem_seq_intro (sem_cent.2 hp) (sem_seq_intro (sem_digits.2 hd) (sem_space1.2 ⟨b, rfl, hb⟩))))

theorem year4_dec {y : Str} (h : Year4 y) : y ≠ [] ∧ ∀ c ∈ y, isDec c = true := by
  have h1 : isDec '1' = true := rfl
  have h2 : isDec '2' = true := rfl
  have h9 : isDec '9' = true := rfl
  have h0 : isDec '0' = true := rfl
  obtain ⟨p, d, rfl, hp, -, hd⟩ := h
  rcases hp with rfl | rfl
  · refine ⟨by simp, fun c hc => ?_⟩
    simp only [List.mem_append, List.mem_cons, List.not_mem_nil, or_false] at hc
    rcases hc with (rfl | rfl) | hc
    · exact h1
    · exact h9
    · exact hd c hc
  · refine ⟨by simp, fun c hc => ?_⟩
    simp only [List.mem_append, List.mem_cons, List.not_mem_nil, or_false] at hc
    rcases hc with (rfl | rfl) | hc
    · exact h2
    · exact h0
    · exact hd c hc

omit [UnicodeDB] in
theorem stripP_both {p : Char → Bool} {a b : Char} {y : Str} (ha : p a = true) (hb : p b = true) (hne : y ≠ []) (hy : ∀ c ∈ y, p c = false) :
    stripP p (a :: y ++ [b]) = y := by
  have h := stripP_none hy
  have hl : lstripP p (a :: y ++ [b]) = y ++ [b] := by
    cases y with
    | nil => exact absurd rfl hne
    | cons c y => simp [lstripP, ha, hy c (by simp)]
  have hl' : lstripP p y = y := by
    cases y with
    | nil => rfl
    | cons c y => simp [lstripP, hy c (by simp)]
  rw [stripP, hl] at *
  rw [hl'] at h
  rw [rstripP, List.reverse_append, List.reverse_singleton, List.singleton_append, List.dropWhile_cons, hb, if_pos rfl]
  exact h

theorem posYear_strip {ys y : Str} (h : PosYear ys y) : ys ≠ [] ∧ stripP (inSet ['(', ')']) (strip ys) = y := by
  obtain ⟨hy, h⟩ := h
  obtain ⟨hne, hd⟩ := year4_dec hy
  have hp : ∀ c ∈ y, inSet ['(', ')'] c = false := by
    intro c hc
    have hdc := hd c hc
    simp only [inSet, List.contains_eq_mem, List.mem_cons, List.not_mem_nil, or_false, decide_eq_false_iff_not]
    rintro (rfl | rfl)
    · exact absurd hdc (by simp [isDec, decVal, show isAscii '(' = true from rfl, show isAsciiDigit '(' = false from rfl])
    · exact absurd hdc (by simp [isDec, decVal, show isAscii ')' = true from rfl, show isAsciiDigit ')' = false from rfl])
  rcases h with rfl | ⟨a, b, rfl, ha, hb⟩
  · refine ⟨by simp, ?_⟩
    have : strip ('(' :: y ++ [')']) = '(' :: y ++ [')'] := by
      refine stripP_none fun c hc => ?_
      simp only [List.cons_append, List.mem_cons, List.mem_append, List.not_mem_nil, or_false] at hc
      rcases hc with rfl | hc | rfl
      · decide
      · exact isDec_not_space (hd c hc)
      · decide
    rw [this]
    exact stripP_both (by decide) (by decide) hne hp
  · refine ⟨by simp, ?_⟩
    rw [strip, stripP_both ha hb hne fun c hc => isDec_not_space (hd c hc)]
    exact stripP_none hp

omit [UnicodeDB] in
theorem posOut_eq {name num y page : Str} : py! "<cds.JOURNAL>PoS</cds.JOURNAL> <cds.VOL>" ++ name ++ num ++ py! "</cds.VOL>" ++
    (py! " <cds.YR>(" ++ y ++ py! ")</cds.YR>") ++ py! " <cds.PG>" ++ page ++ py! "</cds.PG>" = posCitation (name ++ num) y page := by
  simp [posCitation, tagged]

theorem posTag_year {m : Match} {name num ys y page : Str} (h1 : m.group G.volume_name = some name) (h2 : m.group G.volume_num = some num)
    (h3 : m.group G.year = some ys) (h4 : m.group G.page = some page) (hy : PosYear ys y) :
    posTag true m = .ok (posCitation (name ++ num) y page) := by
  obtain ⟨hne, hs⟩ := posYear_strip hy
  cases ys with
  | nil => exact absurd rfl hne
  | cons c ys =>
    simp only [posTag, posYear, if_true, h3, okBind, h1, h2, h4, showVal, Option.getD_some, hs]
    exact congrArg Except.ok posOut_eq

theorem yearNum_sem {pre w post : Str} : Sem Rx.re_pos_year_num pre w post ↔ Year4 w := by
  constructor
  · rintro ⟨p, d, rfl, hp, hd⟩
    exact ⟨p, d, rfl, hp, sem_digits.1 hd⟩
  · rintro ⟨p, d, rfl, hp, hd⟩
    exact ⟨p, d, rfl, hp, sem_digits.2 hd⟩

theorem year4_length {y : Str} (h : Year4 y) : y.length = 4 := by
  obtain ⟨p, d, rfl, rfl | rfl, hd⟩ := h <;> simp [hd.1]

theorem search_yearNum {y : Str} (h : Year4 y) : ∃ m, search Rx.re_pos_year_num y = some m ∧ m.txt = y := by
  have hr : 0 < Rx.re_pos_year_num.minLen := by decide
  cases hs : search Rx.re_pos_year_num y with
  | none => exact absurd ⟨y, [], by simp, yearNum_sem.2 h⟩ ((matchHere_none _ _ _).1 (search_none hr hs [] y rfl))
  | some m =>
    refine ⟨m, rfl, ?_⟩
    obtain ⟨a, b, e, hm, -⟩ := search_some hr hs
    obtain ⟨t, ht, hp, -, -⟩ := matchHere_first hm
    obtain ⟨w, hw⟩ := ht.step
    have hwt : m.txt = w := List.append_cancel_right (bs := t.post) (by rw [← hp]; exact hw.post)
    have h4 := year4_length (yearNum_sem.1 hw.sem)
    have h4' := year4_length h
    rw [e] at h4'
    simp only [List.length_append, hwt, h4] at h4'
    have ha : a = [] := List.eq_nil_of_length_eq_zero (by omega)
    have hb : b = [] := List.eq_nil_of_length_eq_zero (by omega)
    rw [e, ha, hb]
    simp

theorem posTag_volume {m : Match} {name num page : Str} (h1 : m.group G.volume_name = some name) (h2 : m.group G.volume_num = some num)
    (h4 : m.group G.page = some page) (hy : Year4 num) : posTag false m = .ok (posCitation (name ++ num) num page) := by
  obtain ⟨g, hg, ht⟩ := search_yearNum hy
  obtain ⟨hne, hd⟩ := year4_dec hy
  have hs : stripP (inSet ['(', ')']) (strip num) = num := by
    have : PosYear ('(' :: num ++ [')']) num := ⟨hy, .inl rfl⟩
    rw [strip_dec hd]
    have h := (posYear_strip this).2
    refine stripP_none fun c hc => ?_
    have hdc := hd c hc
    simp only [inSet, List.contains_eq_mem, List.mem_cons, List.not_mem_nil, or_false, decide_eq_false_iff_not]
    rintro (rfl | rfl)
    · exact absurd hdc (by simp [isDec, decVal, show isAscii '(' = true from rfl, show isAsciiDigit '(' = false from rfl])
    · exact absurd hdc (by simp [isDec, decVal, show isAscii ')' = true from rfl, show isAsciiDigit ')' = false from rfl])
  cases hn : num with
  | nil => exact absurd hn hne
  | cons c r =>
    rw [hn] at h2 hg ht hs
    simp only [posTag, posYear, Bool.false_eq_true, if_false, h2, hg, ht, okBind, h1, h4, showVal, Option.getD_some, hs]
    exact congrArg Except.ok posOut_eq

/-- The name of a volume. -/
def PosName (name : Str) : Prop := 1 ≤ name.length ∧ name.length ≤ 10 ∧ ∀ c ∈ name, isWord c = true

theorem sem_posName {pre w post : Str} : Sem (Re.rep 1 10 Re.word) pre w post ↔ PosName w := by
  rw [Re.word, sem_rep_set (by decide)]
  simp [PosName, CSet.mem, CItem.mem]

/-- A part is matched into a group. -/
structure Took (i : Nat) (s u : St) (w : Str) : Prop where
  post : s.post = w ++ u.post
  pre : u.pre = w.reverse ++ s.pre
  cap : u.cap i = some w
  other : ∀ j, j ≠ i → u.cap j = s.cap j

theorem first_took {i : Nat} {a r : Re} {s t : St} (ha : a.groups = []) (h : First (.group i a ⬝ r) s t) :
    ∃ u w, Took i s u w ∧ (∃ pre post, Sem a pre w post) ∧ First r u t := by
  obtain ⟨u, w, k, c, h⟩ := first_group_seq h
  exact ⟨u, w, ⟨k.post, k.pre, c, fun j hj => k.cap j (by simp [Re.groups, ha, hj])⟩, ⟨_, _, k.sem⟩, h⟩

theorem first_took_last {i : Nat} {a : Re} {s t : St} (ha : a.groups = []) (h : First (.group i a) s t) :
    ∃ w u, Took i s t w ∧ First a s u ∧ Step a s u w ∧ t.post = u.post := by
  obtain ⟨u, w, hu, k, e1, e2, c, -⟩ := first_group h
  obtain ⟨w', k'⟩ := h.step
  have : w' = w := List.append_cancel_right (bs := t.post) (by rw [← k'.post, e2, k.post])
  subst this
  exact ⟨w', u, ⟨k'.post, k'.pre, c, fun j hj => k'.cap j (by simp [Re.groups, ha, hj])⟩, hu, k, e2⟩

/-- The digits of the page when nothing follows. -/
theorem first_page {s t : St} (h : First (.group G.page (Re.rep 1 4 Re.digit)) s t) : ∃ p, Took G.page s t p ∧ PosPage p t.post := by
  obtain ⟨p, u, hp, hu, k, e⟩ := first_took_last (by decide) h
  obtain ⟨p', k', h1, h2, h3, h4⟩ := first_rep (by decide) hu
  have : p' = p := List.append_cancel_right (bs := u.post) (by rw [← k'.post, k.post])
  subst this
  refine ⟨p', hp, h1, h2, fun c hc => digitSet_mem.1 (h3 c hc), ?_⟩
  rw [e]
  exact h4.imp id fun h c hc hd => h c hc (digitSet_mem.2 hd)

theorem sem_posPage {p r pre post : Str} (h : PosPage p r) : Sem (.group G.page (Re.rep 1 4 Re.digit)) pre p post :=
  (sem_rep_set (by decide)).2 ⟨h.1, h.2.1, fun c hc => digitSet_mem.2 (h.2.2.1 c hc)⟩

omit [UnicodeDB] in
theorem pos_minLen : 0 < Rx.re_pos_0.minLen ∧ 0 < Rx.re_pos_1.minLen ∧ 0 < Rx.re_pos_2.minLen ∧ 0 < Rx.re_pos_3.minLen := by decide

theorem pos0_rewritten (line : Str) : ∃ t, subPy Rx.re_pos_0 (posTag true) line = .ok t ∧ Rewritten PosYearFirst [] line t := by
  refine rewritten_subPy pos_minLen.1 ?_ ?_ line
  · intro pre post m h
    obtain ⟨t, ht, hp, -, hg⟩ := matchHere_first h
    have hpost : post = t.post := List.append_cancel_left hp
    obtain ⟨s1, ti, k1, h⟩ := first_seq ht
    obtain ⟨s2, g, hg2, k2, h⟩ := first_gap h
    obtain ⟨s3, ys, k3, ⟨_, _, hy⟩, h⟩ := first_took (by decide) h
    obtain ⟨s4, g2, hg4, k4, h⟩ := first_sep h
    obtain ⟨s5, name, k5, ⟨_, _, hn⟩, h⟩ := first_took (by decide) h
    obtain ⟨s6, g3, hg6, k6, h⟩ := first_gap h
    obtain ⟨s7, num, k7, ⟨_, _, hv⟩, h⟩ := first_took (by decide) h
    obtain ⟨s8, g4, hg8, k8, h⟩ := first_sep h
    obtain ⟨p, k9, hpg⟩ := first_page h
    obtain ⟨y, hy⟩ := sem_posYear.1 hy
    obtain ⟨n1, n2, n3⟩ := sem_posName.1 hn
    have hv := sem_year4.1 hv
    refine ⟨_, posTag_year (name := name) (num := num) (ys := ys) (page := p) ?_ ?_ ?_ ?_ hy,
      ti, g, ys, g2, name ++ g3 ++ num, g4, p, y, name ++ num, ?_, sem_strI.1 k1.sem, hg2, hy, hg4, ⟨name, g3, num, rfl, rfl, n1, n2, n3, hg6, hv⟩,
      hg8, by rw [hpost]; exact hpg, rfl⟩
    · rw [hg, k9.other _ (by decide), k8.cap, k7.other _ (by decide), k6.cap, k5.cap]
    · rw [hg, k9.other _ (by decide), k8.cap, k7.cap]
    · rw [hg, k9.other _ (by decide), k8.cap, k7.other _ (by decide), k6.cap, k5.other _ (by decide), k4.cap, k3.cap]
    · rw [hg, k9.cap]
    · have := k1.post
      simp only [k2.post, k3.post, k4.post, k5.post, k6.post, k7.post, k8.post, k9.post] at this
      rw [hp] at this
      refine List.append_cancel_right (bs := t.post) ?_
      rw [this]
      simp only [List.append_assoc]
  · rintro pre w post x ⟨ti, g, ys, g2, vs, g4, p, y, v, rfl, h1, h2, h3, h4, ⟨name, g3, num, rfl, -, n1, n2, n3, h6, h7⟩, h8, h9, -⟩
    simp only [List.append_assoc]
    exact sem_seq_intro (sem_strI.2 h1) (sem_gap_intro h2 (sem_seq_intro (sem_posYear.2 ⟨y, h3⟩) (sem_sep_intro h4
      (sem_seq_intro (sem_posName.2 ⟨n1, n2, n3⟩) (sem_gap_intro h6 (sem_seq_intro (sem_year4.2 h7) (sem_sep_intro h8 (sem_posPage h9))))))))

theorem pos1_rewritten (line : Str) : ∃ t, subPy Rx.re_pos_1 (posTag true) line = .ok t ∧ Rewritten PosYearMiddle [] line t := by
  refine rewritten_subPy pos_minLen.2.1 ?_ ?_ line
  · intro pre post m h
    obtain ⟨t, ht, hp, -, hg⟩ := matchHere_first h
    have hpost : post = t.post := List.append_cancel_left hp
    obtain ⟨s1, ti, k1, h⟩ := first_seq ht
    obtain ⟨s2, g, hg2, k2, h⟩ := first_sep h
    obtain ⟨s5, name, k5, ⟨_, _, hn⟩, h⟩ := first_took (by decide) h
    obtain ⟨s6, g3, hg6, k6, h⟩ := first_gap h
    obtain ⟨s7, num, k7, ⟨_, _, hv⟩, h⟩ := first_took (by decide) h
    obtain ⟨s8, g4, hg8, k8, h⟩ := first_gap h
    obtain ⟨s3, ys, k3, ⟨_, _, hy⟩, h⟩ := first_took (by decide) h
    obtain ⟨s4, g2, hg4, k4, h⟩ := first_gap h
    obtain ⟨p, k9, hpg⟩ := first_page h
    obtain ⟨y, hy⟩ := sem_posYear.1 hy
    obtain ⟨n1, n2, n3⟩ := sem_posName.1 hn
    have hv := sem_year4.1 hv
    refine ⟨_, posTag_year (name := name) (num := num) (ys := ys) (page := p) ?_ ?_ ?_ ?_ hy,
      ti, g, name ++ g3 ++ num, g4, ys, g2, p, y, name ++ num, ?_, sem_strI.1 k1.sem, hg2, ⟨name, g3, num, rfl, rfl, n1, n2, n3, hg6, hv⟩, hg8, hy, hg4,
      by rw [hpost]; exact hpg, rfl⟩
    · rw [hg, k9.other _ (by decide), k4.cap, k3.other _ (by decide), k8.cap, k7.other _ (by decide), k6.cap, k5.cap]
    · rw [hg, k9.other _ (by decide), k4.cap, k3.other _ (by decide), k8.cap, k7.cap]
    · rw [hg, k9.other _ (by decide), k4.cap, k3.cap]
    · rw [hg, k9.cap]
    · have := k1.post
      simp only [k2.post, k5.post, k6.post, k7.post, k8.post, k3.post, k4.post, k9.post] at this
      rw [hp] at this
      refine List.append_cancel_right (bs := t.post) ?_
      rw [this]
      simp only [List.append_assoc]
  · rintro pre w post x ⟨ti, g, vs, g4, ys, g2, p, y, v, rfl, h1, h2, ⟨name, g3, num, rfl, -, n1, n2, n3, h6, h7⟩, h8, h3, h4, h9, -⟩
    simp only [List.append_assoc]
    exact sem_seq_intro (sem_strI.2 h1) (sem_sep_intro h2 (sem_seq_intro (sem_posName.2 ⟨n1, n2, n3⟩) (sem_gap_intro h6
      (sem_seq_intro (sem_year4.2 h7) (sem_gap_intro h8 (sem_seq_intro (sem_posYear.2 ⟨y, h3⟩) (sem_gap_intro h4 (sem_posPage h9))))))))

theorem space_not_dec_pos {c : Char} (h : isSpace c = true) : isDec c = false := by
  rw [Bool.eq_false_iff]
  intro hd
  rw [isDec_not_space hd] at h
  exact absurd h (by decide)

theorem gap_year_first {g ys y : Str} (hg : PosGap g) (hy : PosYear ys y) : NotFirst (fun c => isDec c = true) (g ++ ys) := by
  have h0 : ∀ c ∈ py! ",:-(", ¬ isDec c = true := by
    intro c hc
    simp only [List.mem_cons, List.not_mem_nil, or_false] at hc
    rcases hc with rfl | rfl | rfl | rfl <;> exact Bool.false_ne_true
  have hs : ∀ c, isSpace c = true → ¬ isDec c = true := fun c hc => by simp [space_not_dec_pos hc]
  have hyf : NotFirst (fun c => isDec c = true) ys := by
    intro c hc
    obtain ⟨-, rfl | ⟨a, b, rfl, ha, -⟩⟩ := hy
    · simp only [List.cons_append, List.head?_cons, Option.some.injEq] at hc
      subst hc
      exact h0 _ (by simp)
    · simp only [List.cons_append, List.head?_cons, Option.some.injEq] at hc
      subst hc
      exact hs _ ha
  intro c hc
  cases g with
  | nil => exact hyf c hc
  | cons d g =>
    simp only [List.cons_append, List.head?_cons, Option.some.injEq] at hc
    subst hc
    rcases hg with ⟨a, e, b, he, ha, hc, hb⟩ | hg
    · cases a with
      | nil =>
        simp only [List.nil_append, List.cons_append, List.cons.injEq] at he
        obtain ⟨rfl, -⟩ := he
        rcases hc with hc | hc
        · exact h0 _ (by simp at hc ⊢; rcases hc with h | h | h <;> simp [h])
        · exact hs _ hc
      | cons f a =>
        simp only [List.cons_append, List.cons.injEq] at he
        obtain ⟨rfl, -⟩ := he
        exact hs _ (ha _ (by simp))
    · exact hs _ (hg _ (by simp))

theorem pos2_rewritten (line : Str) : ∃ t, subPy Rx.re_pos_2 (posTag true) line = .ok t ∧ Rewritten PosYearLast [] line t := by
  refine rewritten_subPy pos_minLen.2.2.1 ?_ ?_ line
  · intro pre post m h
    obtain ⟨t, ht, hp, -, hg⟩ := matchHere_first h
    obtain ⟨s1, ti, k1, h⟩ := first_seq ht
    obtain ⟨s2, g, hg2, k2, h⟩ := first_sep h
    obtain ⟨s5, name, k5, ⟨_, _, hn⟩, h⟩ := first_took (by decide) h
    obtain ⟨s6, g3, hg6, k6, h⟩ := first_gap h
    obtain ⟨s7, num, k7, ⟨_, _, hv⟩, h⟩ := first_took (by decide) h
    obtain ⟨s8, g4, hg8, k8, h⟩ := first_sep h
    obtain ⟨s9, p, k9, ⟨_, _, hpg⟩, h⟩ := first_took (by decide) h
    obtain ⟨s4, g2, hg4, k4, h⟩ := first_gap h
    obtain ⟨ys, u, k3, -, k3', -⟩ := first_took_last (by decide) h
    obtain ⟨y, hy⟩ := sem_posYear.1 k3'.sem
    obtain ⟨n1, n2, n3⟩ := sem_posName.1 hn
    have hv := sem_year4.1 hv
    obtain ⟨p1, p2, p3⟩ := (sem_rep_set (by decide)).1 hpg
    refine ⟨_, posTag_year (name := name) (num := num) (ys := ys) (page := p) ?_ ?_ ?_ ?_ hy,
      ti, g, name ++ g3 ++ num, g4, p, g2, ys, y, name ++ num, ?_, sem_strI.1 k1.sem, hg2, ⟨name, g3, num, rfl, rfl, n1, n2, n3, hg6, hv⟩, hg8,
      ⟨p1, p2, fun c hc => digitSet_mem.1 (p3 c hc), .inr (gap_year_first hg4 hy)⟩, hg4, hy, rfl⟩
    · rw [hg, k3.other _ (by decide), k4.cap, k9.other _ (by decide), k8.cap, k7.other _ (by decide), k6.cap, k5.cap]
    · rw [hg, k3.other _ (by decide), k4.cap, k9.other _ (by decide), k8.cap, k7.cap]
    · rw [hg, k3.cap]
    · rw [hg, k3.other _ (by decide), k4.cap, k9.cap]
    · have := k1.post
      simp only [k2.post, k5.post, k6.post, k7.post, k8.post, k9.post, k4.post, k3.post] at this
      rw [hp] at this
      refine List.append_cancel_right (bs := t.post) ?_
      rw [this]
      simp only [List.append_assoc]
  · rintro pre w post x ⟨ti, g, vs, g4, p, g2, ys, y, v, rfl, h1, h2, ⟨name, g3, num, rfl, -, n1, n2, n3, h6, h7⟩, h8, h9, h4, h3, -⟩
    simp only [List.append_assoc]
    exact sem_seq_intro (sem_strI.2 h1) (sem_sep_intro h2 (sem_seq_intro (sem_posName.2 ⟨n1, n2, n3⟩) (sem_gap_intro h6
      (sem_seq_intro (sem_year4.2 h7) (sem_sep_intro h8 (sem_seq_intro (sem_posPage h9) (sem_gap_intro h4 (sem_posYear.2 ⟨y, h3⟩))))))))

theorem pos3_rewritten (line : Str) : ∃ t, subPy Rx.re_pos_3 (posTag false) line = .ok t ∧ Rewritten PosBrackets [] line t := by
  refine rewritten_subPy pos_minLen.2.2.2 ?_ ?_ line
  · intro pre post m h
    obtain ⟨t, ht, hp, -, hg⟩ := matchHere_first h
    have hpost : post = t.post := List.append_cancel_left hp
    obtain ⟨s1, ti, k1, h⟩ := first_seq ht
    obtain ⟨s2, g, hg2, k2, h⟩ := first_gap h
    obtain ⟨s3, o, k3, h⟩ := first_seq h
    obtain ⟨s5, name, k5, ⟨_, _, hn⟩, h⟩ := first_took (by decide) h
    obtain ⟨s6, g3, hg6, k6, h⟩ := first_gap h
    obtain ⟨s7, num, k7, ⟨_, _, hv⟩, h⟩ := first_took (by decide) h
    obtain ⟨s8, c, k8, h⟩ := first_seq h
    obtain ⟨s4, g2, hg4, k4, h⟩ := first_gap h
    obtain ⟨p, k9, hpg⟩ := first_page h
    obtain ⟨n1, n2, n3⟩ := sem_posName.1 hn
    have hv := sem_year4.1 hv
    obtain rfl := sem_ch.1 k3.sem
    obtain rfl := sem_ch.1 k8.sem
    refine ⟨_, posTag_volume (name := name) (num := num) (page := p) ?_ ?_ ?_ hv,
      ti, g, name ++ g3 ++ num, g2, p, name, g3, num, ?_, sem_strI.1 k1.sem, hg2, rfl, n1, n2, n3, hg6, hv, hg4,
      by rw [hpost]; exact hpg, rfl⟩
    · rw [hg, k9.other _ (by decide), k4.cap, k8.cap _ (by decide), k7.other _ (by decide), k6.cap, k5.cap]
    · rw [hg, k9.other _ (by decide), k4.cap, k8.cap _ (by decide), k7.cap]
    · rw [hg, k9.cap]
    · have := k1.post
      simp only [k2.post, k3.post, k5.post, k6.post, k7.post, k8.post, k4.post, k9.post] at this
      rw [hp] at this
      refine List.append_cancel_right (bs := t.post) ?_
      rw [this]
      simp only [List.append_assoc]
  · rintro pre w post x ⟨ti, g, vs, g2, p, name, g3, num, rfl, h1, h2, rfl, n1, n2, n3, h6, h7, h4, h9, -⟩
    simp only [List.append_assoc]
    exact sem_seq_intro (sem_strI.2 h1) (sem_gap_intro h2 (sem_seq_intro (sem_ch.2 rfl) (sem_seq_intro (sem_posName.2 ⟨n1, n2, n3⟩) (sem_gap_intro h6
      (sem_seq_intro (sem_year4.2 h7) (sem_seq_intro (sem_ch.2 rfl) (sem_gap_intro h4 (sem_posPage h9))))))))

theorem tagPos_rewritten (line : Str) : ∃ t, tagPos line = .ok t ∧
    RewrittenBy [PosYearFirst, PosYearMiddle, PosYearLast, PosBrackets] line t := by
  obtain ⟨t0, e0, h0⟩ := pos0_rewritten line
  obtain ⟨t1, e1, h1⟩ := pos1_rewritten t0
  obtain ⟨t2, e2, h2⟩ := pos2_rewritten t1
  obtain ⟨t3, e3, h3⟩ := pos3_rewritten t2
  refine ⟨t3, ?_, .cons h0 (.cons h1 (.cons h2 (.cons h3 .nil)))⟩
  simp only [tagPos, posPatterns, List.foldlM_cons, List.foldlM_nil, e0, e1, e2, e3, okBind]
  rfl

end Py
