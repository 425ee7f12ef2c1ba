import Verif.Lemmas.Author2

/-!
# The parts of an author group
-/

open Spec

namespace Py

/-- What stands in front of a group. -/
def authLeadRe : Re := Re.alts [.bos, Re.plus (Re.space), Re.ch '(']

/-- The word `ed` and the like. -/
def edWordRe (w : Str) : Re := (.set ⟨false, false, [.ch 'E', .ch 'e']⟩) ⬝ (Re.alts [(.set ⟨false, false, [.ch 'D', .ch 'd']⟩) ⬝ (Re.opt (Re.ch 's')), .str (py! "dited"), (.str w) ⬝ (Re.opt (Re.ch 's'))])

/-- A point, a blank or both. -/
def pointBlankRe : Re := Re.alts [(Re.ch '.') ⬝ (Re.opt (Re.space)), (Re.opt (Re.ch '.')) ⬝ Re.space]

/-- Editors named before. -/
def edBeforeRe : Re := Re.alts [
  (.set ⟨false, false, [.ch 'E', .ch 'e']⟩) ⬝ (Re.alts [(.set ⟨false, false, [.ch 'D', .ch 'd']⟩) ⬝ (Re.opt (Re.ch 's')), .str (py! "dited"), (.str (py! "ditor")) ⬝ (Re.opt (Re.ch 's'))]) ⬝ pointBlankRe,
  (.set ⟨false, false, [.ch 'E', .ch 'e']⟩) ⬝ (Re.alts [(.set ⟨false, false, [.ch 'D', .ch 'd']⟩) ⬝ (Re.opt (Re.ch 's')), .str (py! "dited"), (.str (py! "dition")) ⬝ (Re.opt (Re.ch 's'))]) ⬝ pointBlankRe ⬝ (.str (py! "by")) ⬝ Re.alts [Re.space, (.set ⟨false, false, [.ch ':', .ch ',']⟩) ⬝ Re.space],
  (Re.ch '(') ⬝ (Re.opt (Re.space)) ⬝ edWordRe (py! "ditor") ⬝ (Re.opt pointBlankRe) ⬝ (Re.ch ')')]

/-- Editors named behind. -/
def edAfterRe : Re := (.star true (Re.space)) ⬝ (.set ⟨false, false, [.ch ',', .space]⟩) ⬝ (.star true (Re.space)) ⬝ (Re.opt (Re.ch '(')) ⬝ (.set ⟨false, false, [.ch 'E', .ch 'e']⟩) ⬝ (Re.alts [(.set ⟨false, false, [.ch 'D', .ch 'd']⟩) ⬝ (Re.ch 's'), .str (py! "ditors")]) ⬝ (Re.opt (Re.ch '.')) ⬝ (Re.opt (Re.ch ')')) ⬝ (Re.rep 0 2 (.set ⟨false, false, [.ch '.', .ch ',']⟩))

/-- The character behind. -/
def authEndRe : Re := .look false (.set ⟨false, false, [.space, .ch ',', .ch '.', .ch ';', .ch ':']⟩)

theorem auth_eq : ∃ N, Rx.RE_AUTH = authLeadRe ⬝ (Re.opt (.group G.es edBeforeRe)) ⬝ (.group G.author_names N) ⬝ (Re.opt (.group G.ee edAfterRe)) ⬝
    (Re.opt (Re.ch ')')) ⬝ authEndRe ∧ G.es ∉ N.groups.map (·.1) ∧ G.ee ∉ N.groups.map (·.1) := by
  refine ⟨_, rfl, ?_, ?_⟩ <;> decide +kernel

theorem nearMiss_eq : ∃ N, Rx.RE_AUTH_NEAR_MISS = authLeadRe ⬝ (Re.opt (.group G.es edBeforeRe)) ⬝ (.group G.author_names N) ⬝ (Re.opt (.group G.ee edAfterRe)) ⬝
    (Re.opt (Re.ch ')')) ⬝ authEndRe ∧ G.es ∉ N.groups.map (·.1) ∧ G.ee ∉ N.groups.map (·.1) := by
  refine ⟨_, rfl, ?_, ?_⟩ <;> decide +kernel

variable [UnicodeDB]

theorem blank_mem {c : Char} : CSet.mem ⟨false, false, [.space]⟩ c = true ↔ isSpace c = true := by simp [CSet.mem, CItem.mem]

theorem sem_blank {pre w post : Str} : Sem Re.space pre w post ↔ ∃ c, w = [c] ∧ isSpace c = true := by
  rw [Re.space, sem_set]; simp only [blank_mem]

theorem pair_mem {c x y : Char} : CSet.mem ⟨false, false, [.ch x, .ch y]⟩ c = true ↔ c ∈ [x, y] := by
  simp [CSet.mem, CItem.mem]

theorem sem_pointBlank {pre w post : Str} : Sem pointBlankRe pre w post ↔ PointBlank w := by
  constructor
  · rintro (⟨u, v, rfl, h1, h2⟩ | ⟨u, v, rfl, h1, h2⟩)
    · obtain rfl := sem_ch.1 h1
      rcases sem_opt.1 h2 with h2 | rfl
      · obtain ⟨c, rfl, hc⟩ := sem_blank.1 h2
        exact .inr ⟨c, hc, .inr rfl⟩
      · exact .inl rfl
    · obtain ⟨c, rfl, hc⟩ := sem_blank.1 h2
      rcases sem_optCh.1 h1 with rfl | rfl
      · exact .inr ⟨c, hc, .inl rfl⟩
      · exact .inr ⟨c, hc, .inr rfl⟩
  · rintro (rfl | ⟨c, hc, rfl | rfl⟩)
    · exact .inl ⟨['.'], [], rfl, sem_ch.2 rfl, .inr rfl⟩
    · exact .inr ⟨[], [c], rfl, .inr rfl, sem_blank.2 ⟨c, rfl, hc⟩⟩
    · exact .inl ⟨['.'], [c], rfl, sem_ch.2 rfl, .inl (sem_blank.2 ⟨c, rfl, hc⟩)⟩

theorem sem_edRest {w pre x post : Str} :
    Sem (Re.alts [(.set ⟨false, false, [.ch 'D', .ch 'd']⟩) ⬝ (Re.opt (Re.ch 's')), .str (py! "dited"), (.str w) ⬝ (Re.opt (Re.ch 's'))]) pre x post ↔
      (x ∈ [py! "D", py! "d", py! "Ds", py! "ds", py! "dited"] ∨ x ∈ [w, w ++ ['s']]) := by
  constructor
  · rintro (⟨u, v, rfl, ⟨c, rfl, hc⟩, h2⟩ | h | ⟨u, v, rfl, h1, h2⟩)
    · left
      replace hc := pair_mem.1 hc
      simp only [List.mem_cons, List.not_mem_nil, or_false] at hc
      rcases sem_optCh.1 h2 with rfl | rfl <;> rcases hc with rfl | rfl <;> decide
    · obtain rfl : x = _ := h
      left; decide
    · obtain rfl : u = w := h1
      right
      rcases sem_optCh.1 h2 with rfl | rfl <;> simp
  · rintro (h | h)
    · simp only [List.mem_cons, List.not_mem_nil, or_false] at h
      rcases h with rfl | rfl | rfl | rfl | rfl
      · exact .inl ⟨['D'], [], rfl, ⟨_, rfl, pair_mem.2 (by decide)⟩, .inr rfl⟩
      · exact .inl ⟨['d'], [], rfl, ⟨_, rfl, pair_mem.2 (by decide)⟩, .inr rfl⟩
      · exact .inl ⟨['D'], ['s'], rfl, ⟨_, rfl, pair_mem.2 (by decide)⟩, .inl (sem_ch.2 rfl)⟩
      · exact .inl ⟨['d'], ['s'], rfl, ⟨_, rfl, pair_mem.2 (by decide)⟩, .inl (sem_ch.2 rfl)⟩
      · exact .inr (.inl rfl)
    · simp only [List.mem_cons, List.not_mem_nil, or_false] at h
      rcases h with rfl | rfl
      · exact .inr (.inr ⟨x, [], by simp, rfl, .inr rfl⟩)
      · exact .inr (.inr ⟨w, ['s'], rfl, rfl, .inl (sem_ch.2 rfl)⟩)

theorem sem_edBefore {pre x post : Str} : Sem edBeforeRe pre x post ↔ EdsBefore x := by
  have e2 : ∀ {c : Char}, CSet.mem ⟨false, false, [.ch 'E', .ch 'e']⟩ c = true ↔ c ∈ ['E', 'e'] := pair_mem
  constructor
  · rintro (⟨_, v, rfl, ⟨e, rfl, he⟩, y, p, rfl, h1, h2⟩ | ⟨_, v, rfl, ⟨e, rfl, he⟩, y, v, rfl, h1, p, v, rfl, h2, _, v, rfl, rfl, h3⟩ | ⟨_, v, rfl, h0, k, v, rfl, h1, _, v, rfl, ⟨_, y, rfl, ⟨e, rfl, he⟩, h2⟩, p, c, rfl, h3, h4⟩)
    · exact .inl ⟨e :: y, p, by simp, ⟨e, y, rfl, e2.1 he, sem_edRest.1 h1⟩, sem_pointBlank.1 h2⟩
    · right; left
      rcases h3 with h3 | ⟨_, _, rfl, ⟨k, rfl, hk⟩, h3⟩
      · obtain ⟨c, rfl, hc⟩ := sem_blank.1 h3
        exact ⟨e :: y, p, [], c, by simp, ⟨e, y, rfl, e2.1 he, sem_edRest.1 h1⟩, sem_pointBlank.1 h2, by simp, hc⟩
      · obtain ⟨c, rfl, hc⟩ := sem_blank.1 h3
        refine ⟨e :: y, p, [k], c, by simp, ⟨e, y, rfl, e2.1 he, sem_edRest.1 h1⟩, sem_pointBlank.1 h2, ?_, hc⟩
        have := pair_mem.1 hk
        simpa using this
    · right; right
      obtain rfl := sem_ch.1 h0
      obtain rfl := sem_ch.1 h4
      refine ⟨k, e :: y, p, by simp, ?_, ⟨e, y, rfl, e2.1 he, sem_edRest.1 h2⟩, ?_⟩
      · rcases sem_opt.1 h1 with h1 | rfl
        · exact .inr (sem_blank.1 h1)
        · exact .inl rfl
      · rcases sem_opt.1 h3 with h3 | rfl
        · exact .inr (sem_pointBlank.1 h3)
        · exact .inl rfl
  · rintro (⟨_, p, rfl, ⟨e, y, rfl, he, hy⟩, hp⟩ | ⟨_, p, k, c, rfl, ⟨e, y, rfl, he, hy⟩, hp, hk, hc⟩ | ⟨k, _, p, rfl, hk, ⟨e, y, rfl, he, hy⟩, hp⟩)
    · exact .inl ⟨[e], y ++ p, by simp, ⟨e, rfl, e2.2 he⟩, y, p, rfl, sem_edRest.2 hy, sem_pointBlank.2 hp⟩
    · refine .inr (.inl ⟨[e], y ++ (p ++ (py! "by" ++ (k ++ [c]))), by simp, ⟨e, rfl, e2.2 he⟩, y, _, rfl, sem_edRest.2 hy, p, _, rfl, sem_pointBlank.2 hp, _, _, rfl, rfl, ?_⟩)
      simp only [List.mem_cons, List.not_mem_nil, or_false] at hk
      rcases hk with rfl | rfl | rfl
      · exact .inl (sem_blank.2 ⟨c, rfl, hc⟩)
      · exact .inr ⟨_, _, rfl, ⟨_, rfl, pair_mem.2 (by decide)⟩, sem_blank.2 ⟨c, rfl, hc⟩⟩
      · exact .inr ⟨_, _, rfl, ⟨_, rfl, pair_mem.2 (by decide)⟩, sem_blank.2 ⟨c, rfl, hc⟩⟩
    · refine .inr (.inr ⟨['('], k ++ ((e :: y) ++ (p ++ [')'])), by simp, sem_ch.2 rfl, k, _, rfl, ?_, e :: y, _, rfl, ⟨[e], y, rfl, ⟨e, rfl, e2.2 he⟩, sem_edRest.2 hy⟩, p, _, rfl, ?_, sem_ch.2 rfl⟩)
      · rcases hk with rfl | ⟨c, rfl, hc⟩
        · exact .inr rfl
        · exact .inl (sem_blank.2 ⟨c, rfl, hc⟩)
      · rcases hp with rfl | hp
        · exact .inr rfl
        · exact .inl (sem_pointBlank.2 hp)

theorem sem_edAfter {pre x post : Str} : Sem edAfterRe pre x post ↔ EdsAfter x := by
  have hsp : ∀ {pre w post : Str}, Sem (.star true Re.space) pre w post ↔ ∀ z ∈ w, isSpace z = true := by
    intro pre w post
    rw [Re.space, sem_star_set]; simp only [blank_mem]
  have hd : ∀ {c : Char}, CSet.mem ⟨false, false, [.ch ',', .space]⟩ c = true ↔ (c = ',' ∨ isSpace c = true) := by
    intro c; simp [CSet.mem, CItem.mem]
  constructor
  · rintro ⟨a, v, rfl, h1, _, v, rfl, ⟨d, rfl, h2⟩, k, v, rfl, h3, o, v, rfl, h4, _, v, rfl, ⟨e, rfl, h5⟩, y, v, rfl, h6, p, v, rfl, h7, c, q, rfl, h8, h9⟩
    obtain ⟨h10, h11, h12⟩ := (sem_rep_set (by decide)).1 h9
    refine ⟨a ++ d :: k, o, e, y, p, c, q, by simp, ⟨a, d, k, rfl, ?_, hd.1 h2⟩, ?_, pair_mem.1 h5, ?_, ?_, ?_, h11, fun z hz => pair_mem.1 (h12 z hz)⟩
    · intro z hz
      rcases List.mem_append.1 hz with hz | hz
      · exact hsp.1 h1 z hz
      · exact hsp.1 h3 z hz
    · simpa using sem_optCh.1 h4
    · rcases h6 with ⟨_, _, rfl, ⟨f, rfl, hf⟩, h6⟩ | h6
      · obtain rfl := sem_ch.1 h6
        have := pair_mem.1 hf
        simp only [List.mem_cons, List.not_mem_nil, or_false] at this
        rcases this with rfl | rfl <;> decide
      · obtain rfl : y = _ := h6
        decide
    · simpa using sem_optCh.1 h7
    · simpa using sem_optCh.1 h8
  · rintro ⟨s, o, e, y, p, c, q, rfl, ⟨a, d, k, rfl, h1, h2⟩, h3, h4, h5, h6, h7, h8, h9⟩
    refine ⟨a, [d] ++ (k ++ (o ++ ([e] ++ (y ++ (p ++ (c ++ q)))))), by simp, hsp.2 fun z hz => h1 z (by simp [hz]), _, _, rfl, ⟨d, rfl, hd.2 h2⟩, k, _, rfl,
      hsp.2 fun z hz => h1 z (by simp [hz]), o, _, rfl, sem_optCh.2 (by simpa using h3), _, _, rfl, ⟨e, rfl, pair_mem.2 h4⟩, y, _, rfl, ?_, p, _, rfl,
      sem_optCh.2 (by simpa using h6), c, q, rfl, sem_optCh.2 (by simpa using h7), (sem_rep_set (by decide)).2 ⟨by simp, h8, fun z hz => pair_mem.2 (h9 z hz)⟩⟩
    simp only [List.mem_cons, List.not_mem_nil, or_false] at h5
    rcases h5 with rfl | rfl | rfl
    · exact .inl ⟨['D'], ['s'], rfl, ⟨_, rfl, pair_mem.2 (by decide)⟩, sem_ch.2 rfl⟩
    · exact .inl ⟨['d'], ['s'], rfl, ⟨_, rfl, pair_mem.2 (by decide)⟩, sem_ch.2 rfl⟩
    · exact .inr rfl

theorem sem_authEnd {pre w post : Str} : Sem authEndRe pre w post ↔ w = [] ∧ Delimited post := by
  have hd : ∀ {c : Char}, CSet.mem ⟨false, false, [.space, .ch ',', .ch '.', .ch ';', .ch ':']⟩ c = true ↔ (isSpace c = true ∨ c ∈ py! ",.;:") := by
    intro c; simp [CSet.mem, CItem.mem]
  simp only [authEndRe, Sem, true_iff]
  refine and_congr_right fun _ => ?_
  constructor
  · rintro ⟨u, v, rfl, c, rfl, hc⟩
    exact ⟨c, v, rfl, hd.1 hc⟩
  · rintro ⟨c, v, rfl, hc⟩
    exact ⟨[c], v, rfl, c, rfl, hd.2 hc⟩

theorem sem_authLead {pre w post : Str} : Sem authLeadRe pre w post ↔
    ((w = [] ∧ pre = []) ∨ (w ≠ [] ∧ ∀ z ∈ w, isSpace z = true) ∨ w = ['(']) := by
  have hp : Sem (Re.plus Re.space) pre w post ↔ (w ≠ [] ∧ ∀ z ∈ w, isSpace z = true) := by
    rw [Re.space, sem_plus_set]; simp only [blank_mem]
  rw [← hp]
  constructor
  · rintro (h | h | h)
    · exact .inl h
    · exact .inr (.inl h)
    · exact .inr (.inr (sem_ch.1 h))
  · rintro (h | h | h)
    · exact .inl h
    · exact .inr (.inl h)
    · exact .inr (.inr (sem_ch.2 h))

omit [UnicodeDB] in
theorem edsBefore_ne {x : Str} (h : EdsBefore x) : x ≠ [] := by
  rintro rfl
  rcases h with ⟨_, p, e, ⟨a, b, rfl, -⟩, -⟩ | ⟨_, p, k, c, e, ⟨a, b, rfl, -⟩, -⟩ | ⟨k, _, p, e, -⟩ <;> simp at e

omit [UnicodeDB] in
theorem edsAfter_ne {x : Str} (h : EdsAfter x) : x ≠ [] := by
  rintro rfl
  obtain ⟨s, o, e, y, p, c, q, h, -⟩ := h
  simp at h

/-- An optional group. -/
theorem run_optional {g : Nat} {a : Re} {s t : St} (h : t ∈ run (Re.opt (.group g a)) s) (hs : s.cap g = none) :
    ∃ w, s.post = w ++ t.post ∧ t.pre = w.reverse ++ s.pre ∧ ((Sem a s.pre w t.post ∧ t.cap g = some w) ∨ (w = [] ∧ t.cap g = none)) := by
  rcases (run_alt (a := .group g a) (b := .eps)).1 h with h | h
  · obtain ⟨w, u, -, hu, h1, h2, h3, -⟩ := run_group h
    exact ⟨w, by rw [h2]; exact hu.post, by rw [h1]; exact hu.pre, .inl ⟨by rw [h2]; exact hu.sem, h3⟩⟩
  · simp only [run, List.mem_singleton] at h
    subst h
    exact ⟨[], rfl, rfl, .inr ⟨rfl, hs⟩⟩

theorem authorHere_shape {b w r : Str} {g : AuthorGroup} (h : AuthorHere b w r g) : ∃ o es ee c, GroupShape b w r g o es ee c := by
  obtain ⟨m, hm, rfl, rfl⟩ := h
  obtain ⟨N, hN, n1, n2⟩ := auth_eq
  obtain ⟨t, ht, e1, e2, -, hg⟩ := matchHere_cap hm
  have : r = t.post := List.append_cancel_left e1
  subst this
  rw [hN] at ht
  obtain ⟨u1, h1, ht⟩ := run_seq.1 ht
  obtain ⟨u2, h2, ht⟩ := run_seq.1 ht
  obtain ⟨u3, h3, ht⟩ := run_seq.1 ht
  obtain ⟨u4, h4, ht⟩ := run_seq.1 ht
  obtain ⟨u5, h5, ht⟩ := run_seq.1 ht
  obtain ⟨o, k1⟩ := run_step h1
  have c1 : ∀ g, u1.cap g = none := fun g => by
    rw [k1.cap g (by simp [authLeadRe, Re.alts, Re.groups, Re.plus, Re.space, Re.ch])]; rfl
  obtain ⟨es, p2, q2, k2⟩ := run_optional h2 (c1 _)
  obtain ⟨ns, v, -, k3, p3, q3, c3, d3⟩ := run_group h3
  obtain ⟨s2, k2'⟩ := run_step h2
  have ce2 : u2.cap G.ee = none := by rw [k2'.cap _ (by decide +kernel)]; exact c1 _
  have ce3 : u3.cap G.ee = none := by rw [d3 _ (by decide), k3.cap _ n2]; exact ce2
  have cs3 : u3.cap G.es = u2.cap G.es := by rw [d3 _ (by decide), k3.cap _ n1]
  obtain ⟨ee, p4, q4, k4⟩ := run_optional h4 ce3
  obtain ⟨s4, k4'⟩ := run_step h4
  obtain ⟨c, k5⟩ := run_step h5
  obtain ⟨z, k6⟩ := run_step ht
  obtain ⟨rfl, hd⟩ := sem_authEnd.1 k6.sem
  have ct : ∀ g, t.cap g = u4.cap g := fun g => by
    rw [k6.cap g (by simp [authEndRe, Re.groups]), k5.cap g (by simp [Re.opt, Re.groups, Re.ch])]
  have hns : m.group G.author_names = some ns := by rw [hg, ct, k4'.cap _ (by decide +kernel), c3]
  have hes : m.group G.es = u2.cap G.es := by rw [hg, ct, k4'.cap _ (by decide +kernel), cs3]
  have hee : m.group G.ee = u4.cap G.ee := by rw [hg, ct]
  refine ⟨o, es, ee, c, ?_, ?_, ?_, ?_, ?_, hd, ?_⟩
  · have e3 := k1.post
    rw [p2, k3.post, ← q3, p4, k5.post, k6.post, e1] at e3
    refine List.append_cancel_right (bs := t.post) ?_
    simpa [groupOf, Match.tgroup, hns] using e3
  · simpa using sem_authLead.1 k1.sem
  · rcases k2 with ⟨k2, -⟩ | ⟨rfl, -⟩
    · exact .inr (sem_edBefore.1 k2)
    · exact .inl rfl
  · rcases k4 with ⟨k4, -⟩ | ⟨rfl, -⟩
    · exact .inr (sem_edAfter.1 k4)
    · exact .inl rfl
  · exact sem_optCh.1 k5.sem
  · have has : ∀ {g x}, m.group g = some x → (m.has g = true ↔ x ≠ []) := by
      intro g x hx
      simp only [Match.has, Match.tgroup, hx, Option.getD_some, truthy, Bool.not_eq_true', List.isEmpty_eq_false_iff]
    have hno : ∀ {g}, m.group g = none → m.has g = false := by
      intro g hx
      simp [Match.has, Match.tgroup, hx, truthy]
    simp only [groupOf, Bool.or_eq_true]
    refine or_congr ?_ ?_
    · rcases k2 with ⟨-, k2⟩ | ⟨rfl, k2⟩
      · exact has (by rw [hes]; exact k2)
      · rw [hno (by rw [hes]; exact k2)]; simp
    · rcases k4 with ⟨-, k4⟩ | ⟨rfl, k4⟩
      · exact has (by rw [hee]; exact k4)
      · rw [hno (by rw [hee]; exact k4)]; simp

end Py
