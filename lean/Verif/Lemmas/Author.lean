import Verif.Lemmas.Collab4
import Verif.Spec.Author

/-!
# Marking author groups
-/

open Spec

namespace Py

variable [UnicodeDB]

/-! ### "et al." -/

theorem letter_mem {c x y : Char} (hx : isAscii x = true) (hy : isAscii y = true) (hx' : x ∉ ['I', 'i', 'K', 'k', 'S', 's'])
    (hy' : y ∉ ['I', 'i', 'K', 'k', 'S', 's']) (h1 : swapCase x = y) (h2 : swapCase y = x) :
    CSet.mem ⟨false, true, [.ch x, .ch y]⟩ c = true ↔ c ∈ [x, y] := by
  rw [either_mem]
  simp only [List.mem_cons, List.not_mem_nil, or_false, exists_eq_or_imp, exists_eq_left]
  constructor
  · rintro (h | h)
    · rcases caseVariants_ascii hx hx' h with rfl | rfl
      · exact .inl rfl
      · exact .inr h1
    · rcases caseVariants_ascii hy hy' h with rfl | rfl
      · exact .inr rfl
      · exact .inl h2
  · rintro (rfl | rfl)
    · exact .inl (self_mem_variants _)
    · exact .inr (self_mem_variants _)

theorem eE_mem {c : Char} : CSet.mem ⟨false, true, [.ch 'E', .ch 'e']⟩ c = true ↔ c ∈ ['E', 'e'] :=
  letter_mem (by decide) (by decide) (by decide) (by decide) (by decide) (by decide)
theorem tT_mem {c : Char} : CSet.mem ⟨false, true, [.ch 'T', .ch 't']⟩ c = true ↔ c ∈ ['T', 't'] :=
  letter_mem (by decide) (by decide) (by decide) (by decide) (by decide) (by decide)
theorem aA_mem {c : Char} : CSet.mem ⟨false, true, [.ch 'A', .ch 'a']⟩ c = true ↔ c ∈ ['A', 'a'] :=
  letter_mem (by decide) (by decide) (by decide) (by decide) (by decide) (by decide)
theorem lL_mem {c : Char} : CSet.mem ⟨false, true, [.ch 'L', .ch 'l']⟩ c = true ↔ c ∈ ['L', 'l'] :=
  letter_mem (by decide) (by decide) (by decide) (by decide) (by decide) (by decide)
theorem point_mem {c : Char} : CSet.mem ⟨false, false, [.ch ',', .ch '.']⟩ c = true ↔ c ∈ [',', '.'] := by
  simp [CSet.mem, CItem.mem]

/-- What stands between the two words. -/
def etSepRe : Re := Re.alts [(.set ⟨false, false, [.ch ',', .ch '.']⟩) ⬝ (.star true (Re.space)),
  (Re.opt (.set ⟨false, false, [.ch ',', .ch '.']⟩)) ⬝ (Re.plus (Re.space))]

/-- What may stand behind. -/
def etEndRe : Re := (Re.opt (.set ⟨false, false, [.ch ',', .ch '.']⟩)) ⬝ (Re.opt (.set ⟨false, false, [.ch ',', .ch '.']⟩))

omit [UnicodeDB] in
theorem etal_eq : Rx.re_etal = (.set ⟨false, true, [.ch 'E', .ch 'e']⟩) ⬝ (.set ⟨false, true, [.ch 'T', .ch 't']⟩) ⬝ etSepRe ⬝
    (.set ⟨false, true, [.ch 'A', .ch 'a']⟩) ⬝ (.set ⟨false, true, [.ch 'L', .ch 'l']⟩) ⬝ etEndRe := rfl

omit [UnicodeDB] in
theorem etal_minLen : 0 < Rx.re_etal.minLen := by decide

theorem sem_etSep {pre s post : Str} : Sem etSepRe pre s post ↔
    ((∃ c k, s = c :: k ∧ c ∈ [',', '.'] ∧ ∀ d ∈ k, isSpace d = true) ∨ (s ≠ [] ∧ ∀ d ∈ s, isSpace d = true)) := by
  have hs : ∀ {c}, CSet.mem ⟨false, false, [.space]⟩ c = true ↔ isSpace c = true := by intro c; simp [CSet.mem, CItem.mem]
  constructor
  · rintro (⟨u, v, rfl, ⟨c, rfl, h1⟩, h2⟩ | ⟨u, v, rfl, h1, h2⟩)
    · exact .inl ⟨c, v, rfl, point_mem.1 h1, fun d hd => hs.1 (sem_star_set.1 h2 d hd)⟩
    · obtain ⟨h3, h4⟩ := sem_plus_set.1 h2
      rcases sem_opt.1 h1 with ⟨c, rfl, h⟩ | rfl
      · exact .inl ⟨c, v, rfl, point_mem.1 h, fun d hd => hs.1 (h4 d hd)⟩
      · exact .inr ⟨h3, fun d hd => hs.1 (h4 d hd)⟩
  · rintro (⟨c, k, rfl, h1, h2⟩ | ⟨h1, h2⟩)
    · exact .inl ⟨[c], k, rfl, ⟨c, rfl, point_mem.2 h1⟩, sem_star_set.2 fun d hd => hs.2 (h2 d hd)⟩
    · exact .inr ⟨[], s, rfl, .inr rfl, sem_plus_set.2 ⟨h1, fun d hd => hs.2 (h2 d hd)⟩⟩

theorem sem_etEnd {pre p post : Str} : Sem etEndRe pre p post ↔ p.length ≤ 2 ∧ ∀ c ∈ p, c ∈ [',', '.'] := by
  constructor
  · rintro ⟨u, v, rfl, h1, h2⟩
    rcases sem_opt.1 h1 with ⟨c, rfl, h3⟩ | rfl <;> rcases sem_opt.1 h2 with ⟨d, rfl, h4⟩ | rfl
    · refine ⟨by simp, ?_⟩
      intro e he
      simp only [List.cons_append, List.nil_append, List.mem_cons, List.not_mem_nil, or_false] at he
      rcases he with rfl | rfl
      · exact point_mem.1 h3
      · exact point_mem.1 h4
    · refine ⟨by simp, ?_⟩
      intro e he
      simp only [List.append_nil, List.mem_cons, List.not_mem_nil, or_false] at he
      subst he; exact point_mem.1 h3
    · refine ⟨by simp, ?_⟩
      intro e he
      simp only [List.nil_append, List.mem_cons, List.not_mem_nil, or_false] at he
      subst he; exact point_mem.1 h4
    · exact ⟨by simp, by simp⟩
  · rintro ⟨h1, h2⟩
    match p, h1, h2 with
    | [], _, _ => exact ⟨[], [], rfl, .inr rfl, .inr rfl⟩
    | [a], _, h => exact ⟨[a], [], rfl, .inl ⟨a, rfl, point_mem.2 (h a (by simp))⟩, .inr rfl⟩
    | [a, b], _, h => exact ⟨[a], [b], rfl, .inl ⟨a, rfl, point_mem.2 (h a (by simp))⟩, .inl ⟨b, rfl, point_mem.2 (h b (by simp))⟩⟩
    | a :: b :: c :: k, h, _ => simp at h

theorem first_etEnd {s t : St} (h : First etEndRe s t) : ∃ p, Step etEndRe s t p ∧ (p.length = 2 ∨ (p.length < 2 ∧ NotFirst (· ∈ [',', '.']) t.post)) := by
  obtain ⟨p, hp⟩ := h.step
  refine ⟨p, hp, ?_⟩
  obtain ⟨h1, h2⟩ := sem_etEnd.1 hp.sem
  by_cases hl : p.length = 2
  · exact .inl hl
  refine .inr ⟨by omega, ?_⟩
  have no : ∀ {u : St}, run (.set ⟨false, false, [.ch ',', .ch '.']⟩) u = [] → NotFirst (· ∈ [',', '.']) u.post := by
    intro u hu c hc hm
    cases hpost : u.post with
    | nil => rw [hpost] at hc; simp at hc
    | cons d k =>
      rw [hpost] at hc
      simp only [List.head?_cons, Option.some.injEq] at hc
      subst hc
      exact run_nil hu ⟨[d], k, by simp [hpost], d, rfl, point_mem.2 hm⟩
  obtain ⟨u, h3, h4⟩ := first_seq_total (run_total _ rfl) h
  rcases first_opt h4 with h5 | ⟨h5, rfl⟩
  · rcases first_opt h3 with h6 | ⟨h6, rfl⟩
    · obtain ⟨w1, k1⟩ := h6.step
      obtain ⟨w2, k2⟩ := h5.step
      obtain ⟨c, rfl, -⟩ := k1.sem
      obtain ⟨d, rfl, -⟩ := k2.sem
      have e1 := k1.post
      have e2 := k2.post
      have e3 := hp.post
      rw [e1, e2] at e3
      have e4 : [c] ++ [d] = p := List.append_cancel_right (bs := t.post) (by simpa using e3)
      exact absurd (by rw [← e4]; rfl) hl
    · have := h5.mem
      rw [h6] at this
      simp at this
  · exact no h5

theorem etal_hit {pre post : Str} {m : Match} (h : matchHere Rx.re_etal false pre (m.txt ++ post) = some m) :
    EtAl pre.reverse m.txt post (py! "et al.") := by
  obtain ⟨t, ht, hp, -, -⟩ := matchHere_first h
  have hpost : post = t.post := List.append_cancel_left hp
  subst hpost
  rw [etal_eq] at ht
  obtain ⟨s1, w1, k1, ht⟩ := first_seq ht
  obtain ⟨s2, w2, k2, ht⟩ := first_seq ht
  obtain ⟨s3, w3, k3, ht⟩ := first_seq ht
  obtain ⟨s4, w4, k4, ht⟩ := first_seq ht
  obtain ⟨s5, w5, k5, ht⟩ := first_seq ht
  obtain ⟨p, k6, h6⟩ := first_etEnd ht
  obtain ⟨e, rfl, he⟩ := k1.sem
  obtain ⟨t', rfl, ht'⟩ := k2.sem
  obtain ⟨a, rfl, ha⟩ := k4.sem
  obtain ⟨l, rfl, hl⟩ := k5.sem
  refine ⟨e, t', w3, a, l, p, ?_, eE_mem.1 he, tT_mem.1 ht', aA_mem.1 ha, lL_mem.1 hl, sem_etSep.1 k3.sem, (sem_etEnd.1 k6.sem).2, h6, rfl⟩
  have e1 := k1.post
  rw [k2.post, k3.post, k4.post, k5.post, k6.post] at e1
  exact List.append_cancel_right (bs := t.post) (by simpa using e1)

theorem etal_sem {pre w post x : Str} (h : EtAl pre.reverse w post x) : Sem Rx.re_etal pre w post := by
  obtain ⟨e, t, s, a, l, p, rfl, he, ht, ha, hl, hs, hp, hp2, -⟩ := h
  have e : e :: t :: (s ++ a :: l :: p) = [e] ++ ([t] ++ (s ++ ([a] ++ ([l] ++ p)))) := by simp
  rw [e, etal_eq]
  refine sem_seq_intro ⟨_, rfl, eE_mem.2 he⟩ (sem_seq_intro ⟨_, rfl, tT_mem.2 ht⟩ (sem_seq_intro (sem_etSep.2 hs)
    (sem_seq_intro ⟨_, rfl, aA_mem.2 ha⟩ (sem_seq_intro ⟨_, rfl, lL_mem.2 hl⟩ (sem_etEnd.2 ⟨?_, hp⟩)))))
  rcases hp2 with h | h <;> omega

theorem etal_rewritten (s : Str) : Rewritten EtAl [] s (sub Rx.re_etal (fun _ => py! "et al.") s) :=
  rewritten_sub etal_minLen (fun _ _ _ h => etal_hit h) (fun _ _ _ _ h => etal_sem h) s

/-! ### The text of a group -/

omit [UnicodeDB] in
theorem endsWith_suffix {s p : Str} : endsWith s p = true ↔ ∃ a, s = a ++ p := by
  unfold endsWith
  rw [List.isPrefixOf_iff_prefix]
  constructor
  · rintro ⟨a, h⟩
    refine ⟨a.reverse, ?_⟩
    have := congrArg List.reverse h
    simpa using this.symm
  · rintro ⟨a, rfl⟩
    exact ⟨a.reverse, by simp⟩

theorem edNotation_id {s : Str} (h : '\n' ∉ s) : sub Rx.re_ed_notation (fun _ => py! "(ed.)") s = s := by
  refine sub_id (by decide) fun a b m e hs => absurd ?_ h
  obtain ⟨u, v, e', h1, -⟩ := hs
  have h2 := sem_strI.1 h1
  cases h2 with
  | cons h3 _ =>
    have := caseVariants_plain (by decide) (by decide) h3
    subst this
    rw [e, e']
    simp

omit [UnicodeDB] in
theorem authorText_intro {s w' : Str} (h1 : Rewritten EtAl [] s w') :
    AuthorText s (if endsWith (stripP (inSet (py! ",:;- [](")) (lstripP (inSet ['.']) w')) (py! "(ed.)")
      then stripP (inSet (py! ",:;- [](")) (lstripP (inSet ['.']) w')
      else stripP (inSet [')']) (stripP (inSet (py! ",:;- [](")) (lstripP (inSet ['.']) w'))) := by
  obtain ⟨d, h2, h3, h4⟩ := lstripP_split (inSet ['.']) w'
  generalize lstripP (inSet ['.']) w' = u at *
  have h5 := trimmed_stripP (py! ",:;- [](") u
  generalize stripP (inSet (py! ",:;- [](")) u = v' at *
  refine ⟨w', d, u, v', h1, h2, fun c hc => by simpa [inSet] using h3 c hc, ?_, h5, ?_⟩
  · intro c hc e
    subst e
    have := h4 _ hc
    simp [inSet] at this
  · split
    · rename_i he
      exact .inl ⟨endsWith_suffix.1 he, rfl⟩
    · rename_i he
      exact .inr ⟨fun h => he (endsWith_suffix.2 h), trimmed_stripP _ _⟩

theorem authText_spec {s : Str} (h : '\n' ∉ s) : AuthorText s (authText s) := by
  have := authorText_intro (etal_rewritten s)
  unfold authText
  rw [edNotation_id h]
  exact this

/-! ### One group -/

/-- A group as the pattern reports it. -/
def groupOf (m : Match) : AuthorGroup :=
  ⟨m.has G.et || m.has G.et2, m.has G.es || m.has G.ee, m.has G.multi_auth || m.has G.multi_surs, m.tgroup G.author_names⟩

/-- The pattern for author groups matches here. -/
def AuthorHere (b w r : Str) (g : AuthorGroup) : Prop :=
  ∃ m, matchHere Rx.RE_AUTH false b.reverse (w ++ r) = some m ∧ m.txt = w ∧ g = groupOf m

/-- The weaker pattern matches at the beginning, without marks of editors. -/
def WeakerFinds (u : Str) : Prop := ∃ m, reMatch Rx.RE_AUTH_NEAR_MISS u = some m ∧ (m.has G.es || m.has G.ee) = false

omit [UnicodeDB] in
theorem etalBefore_iff [UnicodeDB] {u : Str} : etalMatches.any (endsWith (lower (strip u))) = true ↔ EtAlBefore u := by
  unfold EtAlBefore etalMatches
  rw [List.any_eq_true]
  simp only [endsWith_suffix]

theorem authStart_spec (a : AuthPos) (g : AuthorGroup) (hg : g.several = a.multi) :
    (¬ EtAlBefore a.before ∧ AndBefore a.before g ∧ WeakerFinds a.before ∧ authStart a = (false, a.start - a.before.length)) ∨
    ((¬ Widened WeakerFinds a.before g) ∧ ∃ d, authStart a = (d, a.start) ∧ (d = true ↔ Doubtful WeakerFinds a.before g)) := by
  unfold authStart
  by_cases h1 : EtAlBefore a.before
  · right
    refine ⟨fun h => h.1 h1, true, ?_, by simp [Doubtful, h1]⟩
    simp only [etalBefore_iff.2 h1, if_true]
  · have h1' := mt etalBefore_iff.1 h1
    rw [Bool.not_eq_true] at h1'
    simp only [h1', Bool.false_eq_true, if_false]
    by_cases h2 : AndBefore a.before g
    · have h2' : (!a.multi && endsWith (lower (strip a.before)) (py! " and")) = true := by
        rw [← hg, h2.1, endsWith_suffix.2 h2.2]; rfl
      simp only [h2', if_true]
      cases hm : reMatch Rx.RE_AUTH_NEAR_MISS a.before with
      | none =>
        right
        have hn : ¬ WeakerFinds a.before := by rintro ⟨m, h, -⟩; rw [hm] at h; cases h
        exact ⟨fun h => hn h.2.2, true, rfl, by simp [Doubtful, h1, h2, hn]⟩
      | some m =>
        by_cases he : (m.has G.es || m.has G.ee) = true
        · right
          have hn : ¬ WeakerFinds a.before := by rintro ⟨m', h, h'⟩; rw [hm] at h; cases h; rw [he] at h'; cases h'
          simp only [he, if_true]
          exact ⟨fun h => hn h.2.2, true, rfl, by simp [Doubtful, h1, h2, hn]⟩
        · left
          rw [Bool.not_eq_true] at he
          refine ⟨h1, h2, ⟨m, hm, he⟩, ?_⟩
          simp only [he, Bool.false_eq_true, if_false]
          have : m.start = 0 := (matchHere_ok hm).1.start
          rw [this]; rfl
    · right
      have h2' : (!a.multi && endsWith (lower (strip a.before)) (py! " and")) = false := by
        rw [Bool.eq_false_iff]
        intro h
        rw [Bool.and_eq_true, Bool.not_eq_true', ← hg] at h
        exact h2 ⟨h.1, endsWith_suffix.1 h.2⟩
      simp only [h2', Bool.false_eq_true, if_false]
      exact ⟨fun h => h2 h.2.1, false, rfl, by simp [Doubtful, h1, h2]⟩

omit [UnicodeDB] in
theorem semi_iff (c : Char) : stripP (inSet [' ', ',', '.']) [c] = [';'] ↔ c = ';' := by
  by_cases h : inSet [' ', ',', '.'] c = true
  · have : stripP (inSet [' ', ',', '.']) [c] = [] := by simp [stripP, lstripP, rstripP, h]
    rw [this]
    refine ⟨fun h => (by cases h), fun e => ?_⟩
    subst e; exact absurd h (by decide)
  · have : stripP (inSet [' ', ',', '.']) [c] = [c] := by simp [stripP, lstripP, rstripP, h]
    rw [this]; simp

theorem tagAuthor_at {q w t : Str} {a : AuthPos} {d : Bool} {n : Str} (hs : authStart a = (d, q.length)) (he : a.stop = q.length + w.length)
    (hn : a.names = some n) (hnl : '\n' ∉ w) :
    (a.ed = false ∧ d = true ∧ tagAuthor (q ++ (w ++ t)) a = .ok (q ++ (w ++ t))) ∨
    ((a.ed = true ∨ d = false) ∧ ∃ x, AuthorMark ⟨a.etal, a.ed, a.multi, n⟩ w t x ∧ tagAuthor (q ++ (w ++ t)) a = .ok (q ++ (x ++ t))) := by
  have hmisc : semiAfter (q ++ (w ++ t))[a.stop]? = if t.head? = some ';' then [';'] else [] := by
    have : (q ++ (w ++ t))[a.stop]? = t.head? := by
      rw [he, ← List.append_assoc, List.getElem?_append_right (by simp)]
      simp [List.head?_eq_getElem?]
    rw [this]
    cases t with
    | nil => rfl
    | cons c t =>
      simp only [semiAfter, List.head?_cons, Option.some.injEq, semi_iff]
  have hsl : slice (q ++ (w ++ t)) q.length a.stop = w := by rw [he]; exact slice_mid q w t
  have hsp : ∀ x, splice (q ++ (w ++ t)) q.length x a.stop = q ++ (x ++ t) := by intro x; rw [he]; exact splice_here q w t x
  unfold tagAuthor
  simp only [hs, hmisc, hsl, hsp, hn]
  cases hed : a.ed with
  | true =>
    right
    refine ⟨.inl rfl, _, ⟨py! "incl", _, _, rfl, rfl, .inl ⟨rfl, rfl, _, _, etal_rewritten n, trimmed_stripP _ _, rfl⟩⟩, ?_⟩
    simp
  | false =>
    cases d with
    | true => left; exact ⟨rfl, rfl, by simp⟩
    | false =>
      right
      refine ⟨.inr rfl, _, ⟨if a.etal then py! "etal" else py! "stnd", authText w, _, rfl, rfl, .inr ⟨rfl, rfl, authText_spec hnl⟩⟩, ?_⟩
      cases a.etal <;> simp

/-- What happens to the line at one group; `u` stands before it in the covered line and `v` in the line. -/
theorem tagAuthor_spec {p u v w t : Str} {a : AuthPos} {g : AuthorGroup} {n : Str} (hb : a.before = u) (hl : u.length = v.length)
    (h1 : a.start = (p ++ v).length) (h2 : a.stop = (p ++ v ++ w).length) (hn : a.names = some n)
    (hg : g = ⟨a.etal, a.ed, a.multi, n⟩) (hnl : '\n' ∉ v ++ w) :
    (g.ed = false ∧ Doubtful WeakerFinds u g ∧ tagAuthor (p ++ (v ++ (w ++ t))) a = .ok (p ++ (v ++ (w ++ t)))) ∨
    ((g.ed = true ∨ ¬ Doubtful WeakerFinds u g) ∧ ¬ Widened WeakerFinds u g ∧ ∃ x, AuthorMark g w t x ∧
      tagAuthor (p ++ (v ++ (w ++ t))) a = .ok (p ++ (v ++ (x ++ t)))) ∨
    (Widened WeakerFinds u g ∧ ∃ x, AuthorMark g (v ++ w) t x ∧ tagAuthor (p ++ (v ++ (w ++ t))) a = .ok (p ++ (x ++ t))) := by
  subst hb hg
  rcases authStart_spec a ⟨a.etal, a.ed, a.multi, n⟩ rfl with ⟨k1, k2, k3, k4⟩ | ⟨k1, d, k2, k3⟩
  · right; right
    have hs : authStart a = (false, p.length) := by rw [k4, h1]; simp [hl]
    rcases tagAuthor_at (q := p) (w := v ++ w) (t := t) hs (by rw [h2]; simp) hn hnl with ⟨_, h, _⟩ | ⟨_, x, h3, h4⟩
    · cases h
    · exact ⟨⟨k1, k2, k3⟩, x, h3, by simpa using h4⟩
  · have hs : authStart a = (d, (p ++ v).length) := by rw [k2, h1]
    rcases tagAuthor_at (q := p ++ v) (w := w) (t := t) hs (by rw [h2, List.length_append]) hn (fun h => hnl (by simp [h])) with ⟨h3, h4, h5⟩ | ⟨h3, x, h4, h5⟩
    · left
      exact ⟨h3, k3.1 h4, by simpa using h5⟩
    · right; left
      refine ⟨h3.imp id fun h h' => ?_, k1, x, h4, by simpa using h5⟩
      rw [k3.2 h'] at h; cases h

/-! ### The whole line -/

omit [UnicodeDB] in
theorem auth_minLen : 0 < Rx.RE_AUTH.minLen := by decide +kernel

omit [UnicodeDB] in
theorem auth_names : Rx.RE_AUTH.must [G.author_names] = true := by decide +kernel

omit [UnicodeDB] in
theorem noGroup_append {A : Str → Str → Str → AuthorGroup → Prop} {b u r : Str} (h : NoGroup A b u r) :
    ∀ {v r'}, r = v ++ r' → NoGroup A (b ++ u) v r' → NoGroup A b (u ++ v) r' := by
  induction h with
  | nil => intro v r' _ h; simpa using h
  | @ch b c u r hn _ ih =>
    intro v r' e h
    subst e
    refine .ch ?_ (ih rfl (by simpa using h))
    simpa using hn
  | @over b w u r g h1 h2 _ ih =>
    intro v r' e h
    subst e
    rw [List.append_assoc]
    exact .over (by simpa using h1) h2 (ih rfl (by simpa using h))

theorem authors_scanned {pre s : Str} {ps : List Piece} (h : Scanned Rx.RE_AUTH pre s ps) :
    ∀ {b u p v l : Str}, pre.reverse = b ++ u → NoGroup AuthorHere b u s → p.length = b.length → Under u v → Under s l → '\n' ∉ v ++ l →
      ∃ t, (authPositions (b ++ (u ++ s)) b.length (ps.filterMap Piece.match?)).reverse.foldlM tagAuthor (p ++ (v ++ l)) = .ok (p ++ t) ∧
        AuthorsMarked AuthorHere WeakerFinds b (u ++ s) (v ++ l) t := by
  induction h with
  | nil pre =>
    intro b u p v l _ hg _ huv hl _
    cases hl
    exact ⟨v ++ [], by simp [authPositions, pure, Except.pure], .rest (by simpa using hg) (by rw [List.append_nil, List.append_nil]; exact huv)⟩
  | @ch pre c s ps hn _ ih =>
    intro b u p v l hb hg hp huv hl hnl
    cases hl with
    | @cons _ d _ l hcd hl =>
      obtain ⟨t, h1, h2⟩ := ih (b := b) (u := u ++ [c]) (p := p) (v := v ++ [d]) (l := l) (by rw [List.reverse_cons, hb]; simp)
        (noGroup_append hg (r' := s) (v := [c]) rfl (.ch (by
          rintro ⟨w, r', g, e, m, hm, -⟩
          rw [← hb, List.reverse_reverse, ← e] at hm
          rw [List.nil_append, hn] at hm
          cases hm) .nil)) hp (huv.append (.cons hcd .nil)) hl (by simpa using hnl)
      rw [List.filterMap_cons]
      simp only [Piece.match?]
      refine ⟨t, ?_, ?_⟩
      · simpa using h1
      · simpa using h2
  | @hit pre s ps m hm hne _ ih =>
    intro b u p v l hb hg hp huv hl hnl
    obtain ⟨w', l', rfl, hw, hl'⟩ := under_split (x := m.txt ++ s) hl rfl
    have hlen := huv.length
    have hst : m.start = (b ++ u).length := by rw [(matchHere_ok hm).1.start, ← List.length_reverse, hb]
    have hA : AuthorHere (b ++ u) m.txt s (groupOf m) := ⟨m, by rw [← hb, List.reverse_reverse]; exact hm, rfl, rfl⟩
    have hslice : slice (b ++ (u ++ (m.txt ++ s))) m.start m.stop = m.txt := by
      rw [Match.stop, hst, ← List.append_assoc]
      exact slice_mid (b ++ u) m.txt s
    rw [List.filterMap_cons]
    simp only [Piece.match?, authPositions, hslice]
    by_cases hu : '_' ∈ m.txt
    · have : m.txt.contains '_' = true := by simpa using hu
      simp only [this, if_true]
      obtain ⟨t, h1, h2⟩ := ih (b := b) (u := u ++ m.txt) (p := p) (v := v ++ w') (l := l') (by rw [List.reverse_append, hb]; simp)
        (noGroup_append hg (r' := s) (v := m.txt) rfl (by
          have := NoGroup.over (A := AuthorHere) (b := b ++ u) (w := m.txt) (u := []) (r := s) hA hu .nil
          simpa using this)) hp (huv.append hw) hl' (by simpa using hnl)
      refine ⟨t, ?_, ?_⟩
      · simpa using h1
      · simpa using h2
    · have hc : m.txt.contains '_' = false := by simpa using hu
      simp only [hc, Bool.false_eq_true, if_false]
      have hw' := under_eq hw hu
      subst hw'
      have hstop : m.stop = (b ++ u ++ m.txt).length := by rw [Match.stop, hst]; simp; omega
      obtain ⟨t, h1, h2⟩ := ih (b := b ++ u ++ m.txt) (u := []) (p := p ++ v ++ m.txt) (v := []) (l := l') (by rw [List.reverse_append, hb]; simp)
        .nil (by simp [hp, hlen]) .nil hl' (fun h => hnl (by simp at h ⊢; simp [h]))
      obtain ⟨n, hnm⟩ : ∃ n, m.group G.author_names = some n := by
        obtain ⟨g, hg', x, hx⟩ := matchHere_must auth_names hm
        simp only [List.mem_singleton] at hg'
        subst hg'
        exact ⟨x, hx⟩
      have hb2 : slice (b ++ (u ++ (m.txt ++ s))) b.length m.start = u := by
        rw [hst, List.length_append]; exact slice_mid b u _
      have key := tagAuthor_spec (p := p) (u := u) (v := v) (w := m.txt) (t := t)
        (a := ⟨m.start, m.stop, m.has G.et || m.has G.et2, m.has G.es || m.has G.ee, m.has G.multi_auth || m.has G.multi_surs,
          slice (b ++ (u ++ (m.txt ++ s))) b.length m.start, m.group G.author_names⟩) (g := groupOf m) (n := n) hb2 hlen
        (by simp only [hst]; simp [hp, hlen]) (by simp only [hstop]; simp [hp, hlen]) hnm
        (by simp [groupOf, Match.tgroup, hnm]) (fun h => hnl (by simp at h ⊢; rcases h with h | h <;> simp [h]))
      have e1 : b ++ u ++ m.txt ++ ([] ++ s) = b ++ (u ++ (m.txt ++ s)) := by simp
      have e2 : p ++ v ++ m.txt ++ ([] ++ l') = p ++ (v ++ (m.txt ++ l')) := by simp
      rw [e1, ← hstop, e2] at h1
      simp only [List.nil_append] at h2
      simp only [List.reverse_cons, List.foldlM_append, h1, bind, Except.bind, List.foldlM_cons, List.foldlM_nil]
      have e3 : p ++ v ++ m.txt ++ t = p ++ (v ++ (m.txt ++ t)) := by simp
      rw [e3]
      rcases key with ⟨k1, k2, k3⟩ | ⟨k1, k2, x, k3, k4⟩ | ⟨k1, x, k2, k3⟩
      · exact ⟨_, by rw [k3]; rfl, .keep hg huv hA hu k1 k2 h2⟩
      · exact ⟨_, by rw [k4]; rfl, .mark hg huv hA hu k1 k2 k3 h2⟩
      · exact ⟨_, by rw [k3]; rfl, .wide hg huv hA hu k1 k2 h2⟩

end Py
