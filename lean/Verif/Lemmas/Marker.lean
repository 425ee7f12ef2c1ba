import Verif.Lemmas.Parse
import Verif.Lemmas.Transform2

/-!
# Lemmas about the markers of reference lines
-/

open Spec

namespace Py

variable [UnicodeDB]

theorem sem_number {pre w post : Str} : Sem (Re.plus Re.digit) pre w post ↔ Decimals w := by
  unfold Re.digit
  rw [sem_plus_set]
  simp only [mem_digitSet, Decimals]

theorem letter_mem1 {c : Char} : CSet.mem ⟨false, true, [.range 'a' 'z', .range 'A' 'Z', .ch ':', .ch '-']⟩ c = true ↔ MarkLetter c := by
  simp [CSet.mem, CItem.mem, MarkLetter]

theorem letter_mem2 {c : Char} : CSet.mem ⟨false, true, [.range 'A' 'Z', .range 'a' 'z', .ch ':', .ch '-']⟩ c = true ↔ MarkLetter c := by
  simp [CSet.mem, CItem.mem, MarkLetter]
  constructor
  · rintro ⟨d, hd, h | h | h⟩
    · exact ⟨d, hd, .inr (.inl h)⟩
    · exact ⟨d, hd, .inl h⟩
    · exact ⟨d, hd, .inr (.inr h)⟩
  · rintro ⟨d, hd, h | h | h⟩
    · exact ⟨d, hd, .inr (.inl h)⟩
    · exact ⟨d, hd, .inl h⟩
    · exact ⟨d, hd, .inr (.inr h)⟩

/-- What the patterns of markers capture. -/
def markBodies : List Re := [
  (Re.ch '[') ⬝ (.star true (Re.space)) ⬝ (.group G.marknum (Re.plus (Re.digit))) ⬝ (.star true (Re.space)) ⬝ (Re.ch ']'),
  (Re.ch '[') ⬝ (.star true (Re.space)) ⬝ (Re.plus (.set ⟨false, true, [.range 'a' 'z', .range 'A' 'Z', .ch ':', .ch '-']⟩)) ⬝ (Re.opt (Re.ch '+')) ⬝ (Re.opt (Re.space)) ⬝ (Re.opt ((Re.rep 1 4 (Re.digit)) ⬝ (Re.opt (.set ⟨false, true, [.range 'A' 'Z', .range 'a' 'z', .ch ':', .ch '-']⟩)))) ⬝ (.star true (Re.space)) ⬝ (Re.ch ']'),
  (Re.ch '{') ⬝ (.star true (Re.space)) ⬝ (.group G.marknum (Re.plus (Re.digit))) ⬝ (.star true (Re.space)) ⬝ (Re.ch '}'),
  (Re.ch '<') ⬝ (.star true (Re.space)) ⬝ (.group G.marknum (Re.plus (Re.digit))) ⬝ (.star true (Re.space)) ⬝ (Re.ch '>'),
  (Re.ch '(') ⬝ (.star true (Re.space)) ⬝ (.group G.marknum (Re.plus (Re.digit))) ⬝ (.star true (Re.space)) ⬝ (Re.ch ')'),
  (.group G.marknum (Re.plus (Re.digit))) ⬝ (.star true (Re.space)) ⬝ (Re.ch '.') ⬝ (.look true (Re.digit)),
  (.group G.marknum (Re.plus (Re.digit))) ⬝ (Re.plus (Re.space)),
  (.group G.marknum (Re.plus (Re.digit))) ⬝ (.star true (Re.space)) ⬝ (Re.ch ']'),
  (.group G.marknum (Re.plus (Re.digit))) ⬝ (.star true (Re.space)) ⬝ (Re.ch '}'),
  (.group G.marknum (Re.plus (Re.digit))) ⬝ (.star true (Re.space)) ⬝ (Re.ch ')'),
  (.group G.marknum (Re.plus (Re.digit))) ⬝ (.star true (Re.space)) ⬝ (Re.ch '>'),
  (Re.ch '[') ⬝ (.star true (Re.space)) ⬝ (Re.plus (Re.digit)) ⬝ (Re.ch '.') ⬝ (Re.plus (Re.digit)) ⬝ (.star true (Re.space)) ⬝ (Re.ch ']'),
  (Re.ch '[') ⬝ (.star true (Re.space)) ⬝ (Re.ch ']'),
  Re.ch '*']

omit [UnicodeDB] in
theorem markers_eq : Rx.marker_patterns .eps = markBodies.map fun b => (.star true (Re.space)) ⬝ .eps ⬝ .group G.mark b := rfl

theorem sem_bracket {o c : Char} {pre w post : Str} :
    Sem ((Re.ch o) ⬝ (.star true (Re.space)) ⬝ (.group G.marknum (Re.plus (Re.digit))) ⬝ (.star true (Re.space)) ⬝ (Re.ch c)) pre w post ↔
      ∃ a n b, Spaces a ∧ Decimals n ∧ Spaces b ∧ w = o :: a ++ n ++ b ++ [c] := by
  constructor
  · rintro ⟨w1, v1, rfl, h1, w2, v2, rfl, h2, w3, v3, rfl, h3, w4, v4, rfl, h4, h5⟩
    rw [sem_ch.1 h1, sem_ch.1 h5]
    exact ⟨w2, w3, w4, sem_spaces.1 h2, sem_number.1 h3, sem_spaces.1 h4, by simp⟩
  · rintro ⟨a, n, b, ha, hn, hb, rfl⟩
    exact ⟨[o], a ++ (n ++ (b ++ [c])), by simp, sem_ch.2 rfl, _, _, rfl, sem_spaces.2 ha, _, _, rfl, sem_number.2 hn, _, _, rfl,
      sem_spaces.2 hb, sem_ch.2 rfl⟩

theorem sem_numClose {c : Char} {pre w post : Str} :
    Sem ((.group G.marknum (Re.plus (Re.digit))) ⬝ (.star true (Re.space)) ⬝ (Re.ch c)) pre w post ↔
      ∃ n b, Decimals n ∧ Spaces b ∧ w = n ++ b ++ [c] := by
  constructor
  · rintro ⟨w3, v3, rfl, h3, w4, v4, rfl, h4, h5⟩
    rw [sem_ch.1 h5]
    exact ⟨w3, w4, sem_number.1 h3, sem_spaces.1 h4, by simp⟩
  · rintro ⟨n, b, hn, hb, rfl⟩
    exact ⟨n, b ++ [c], by simp, sem_number.2 hn, _, _, rfl, sem_spaces.2 hb, sem_ch.2 rfl⟩

theorem sem_letters {pre w post : Str} :
    Sem ((Re.ch '[') ⬝ (.star true (Re.space)) ⬝ (Re.plus (.set ⟨false, true, [.range 'a' 'z', .range 'A' 'Z', .ch ':', .ch '-']⟩)) ⬝ (Re.opt (Re.ch '+')) ⬝ (Re.opt (Re.space)) ⬝ (Re.opt ((Re.rep 1 4 (Re.digit)) ⬝ (Re.opt (.set ⟨false, true, [.range 'A' 'Z', .range 'a' 'z', .ch ':', .ch '-']⟩)))) ⬝ (.star true (Re.space)) ⬝ (Re.ch ']')) pre w post ↔
    ∃ a l p x n b, Spaces a ∧ l ≠ [] ∧ (∀ c ∈ l, MarkLetter c) ∧ (p = [] ∨ p = ['+']) ∧ (x = [] ∨ ∃ c, isSpace c = true ∧ x = [c]) ∧
      (n = [] ∨ ∃ d t, Decimals d ∧ d.length ≤ 4 ∧ (t = [] ∨ ∃ c, MarkLetter c ∧ t = [c]) ∧ n = d ++ t) ∧ Spaces b ∧
      w = '[' :: a ++ l ++ p ++ x ++ n ++ b ++ [']'] := by
  have hnum : ∀ {pre w post : Str}, Sem (Re.rep 1 4 (Re.digit)) pre w post ↔ Decimals w ∧ w.length ≤ 4 := by
    intro pre w post
    unfold Re.digit
    rw [sem_rep_set (by decide)]
    simp only [mem_digitSet, Decimals]
    constructor
    · rintro ⟨h1, h2, h3⟩
      exact ⟨⟨by rintro rfl; simp at h1, h3⟩, h2⟩
    · rintro ⟨⟨h1, h2⟩, h3⟩
      exact ⟨List.length_pos_iff.2 h1, h3, h2⟩
  have hopt : ∀ {pre w post : Str}, Sem (Re.opt ((Re.rep 1 4 (Re.digit)) ⬝ (Re.opt (.set ⟨false, true, [.range 'A' 'Z', .range 'a' 'z', .ch ':', .ch '-']⟩)))) pre w post ↔
      (w = [] ∨ ∃ d t, Decimals d ∧ d.length ≤ 4 ∧ (t = [] ∨ ∃ c, MarkLetter c ∧ t = [c]) ∧ w = d ++ t) := by
    intro pre w post
    rw [sem_opt, or_comm]
    refine or_congr Iff.rfl ?_
    constructor
    · rintro ⟨d, t, rfl, hd, ht⟩
      obtain ⟨h1, h2⟩ := hnum.1 hd
      refine ⟨d, t, h1, h2, ?_, rfl⟩
      rcases sem_opt.1 ht with ⟨c, rfl, hc⟩ | rfl
      · exact .inr ⟨c, letter_mem2.1 hc, rfl⟩
      · exact .inl rfl
    · rintro ⟨d, t, h1, h2, ht, rfl⟩
      refine ⟨d, t, rfl, hnum.2 ⟨h1, h2⟩, ?_⟩
      rcases ht with rfl | ⟨c, hc, rfl⟩
      · exact .inr rfl
      · exact .inl ⟨c, rfl, letter_mem2.2 hc⟩
  have hsp : ∀ {pre w post : Str}, Sem (Re.opt Re.space) pre w post ↔ (w = [] ∨ ∃ c, isSpace c = true ∧ w = [c]) := by
    intro pre w post
    rw [sem_opt, or_comm, sem_space1]
    exact or_congr Iff.rfl ⟨fun ⟨c, h1, h2⟩ => ⟨c, h2, h1⟩, fun ⟨c, h1, h2⟩ => ⟨c, h2, h1⟩⟩
  constructor
  · rintro ⟨w1, v1, rfl, h1, w2, v2, rfl, h2, w3, v3, rfl, h3, w4, v4, rfl, h4, w5, v5, rfl, h5, w6, v6, rfl, h6, w7, v7, rfl, h7, h8⟩
    rw [sem_ch.1 h1, sem_ch.1 h8]
    rw [sem_plus_set] at h3
    exact ⟨w2, w3, w4, w5, w6, w7, sem_spaces.1 h2, h3.1, fun c hc => letter_mem1.1 (h3.2 c hc), sem_optCh.1 h4, hsp.1 h5, hopt.1 h6,
      sem_spaces.1 h7, by simp⟩
  · rintro ⟨a, l, p, x, n, b, ha, hl, hl', hp, hx, hn, hb, rfl⟩
    exact ⟨['['], a ++ (l ++ (p ++ (x ++ (n ++ (b ++ [']']))))), by simp, sem_ch.2 rfl, _, _, rfl, sem_spaces.2 ha, _, _, rfl,
      sem_plus_set.2 ⟨hl, fun c hc => letter_mem1.2 (hl' c hc)⟩, _, _, rfl, sem_optCh.2 hp, _, _, rfl, hsp.2 hx, _, _, rfl, hopt.2 hn,
      _, _, rfl, sem_spaces.2 hb, sem_ch.2 rfl⟩

theorem noDigit_look {pre post : Str} (h : ¬ ∃ u v, post = u ++ v ∧ Sem Re.digit pre u v) : NoDigitFirst post := by
  intro c hc
  cases post with
  | nil => cases hc
  | cons d q =>
    cases hc
    cases hd : isDec c with
    | false => rfl
    | true => exact absurd ⟨[c], q, rfl, c, rfl, by simpa [CSet.mem, CItem.mem] using hd⟩ h

theorem sem_dot {pre w post : Str} :
    Sem ((.group G.marknum (Re.plus (Re.digit))) ⬝ (.star true (Re.space)) ⬝ (Re.ch '.') ⬝ (.look true (Re.digit))) pre w post ↔
      ∃ n b, Decimals n ∧ Spaces b ∧ w = n ++ b ++ ['.'] ∧ NoDigitFirst post := by
  constructor
  · rintro ⟨w3, v3, rfl, h3, w4, v4, rfl, h4, w5, v5, rfl, h5, h6⟩
    obtain ⟨rfl, h7⟩ := h6
    rw [sem_ch.1 h5]
    exact ⟨w3, w4, sem_number.1 h3, sem_spaces.1 h4, by simp, noDigit_look (fun h => by cases h7.2 h)⟩
  · rintro ⟨n, b, hn, hb, rfl, h⟩
    exact ⟨n, b ++ ['.'], by simp, sem_number.2 hn, _, _, rfl, sem_spaces.2 hb, ['.'], [], rfl, sem_ch.2 rfl, sem_look_digit h⟩

/-- The patterns of markers, all together. -/
theorem sem_marker {pre w post : Str} : (∃ b ∈ markBodies, Sem b pre w post) ↔ IsMarker w post := by
  simp only [markBodies, List.mem_cons, List.not_mem_nil, or_false, exists_eq_or_imp, exists_eq_left, sem_bracket, sem_letters, sem_dot,
    sem_numClose, sem_ch]
  constructor
  · rintro (⟨a, n, b, h⟩ | h | ⟨a, n, b, h⟩ | ⟨a, n, b, h⟩ | ⟨a, n, b, h⟩ | h | ⟨n, b, rfl, h1, h2⟩ | ⟨n, b, h1, h2, h3⟩ | ⟨n, b, h1, h2, h3⟩ | ⟨n, b, h1, h2, h3⟩ | ⟨n, b, h1, h2, h3⟩ |
      ⟨w1, v1, rfl, h1, w2, v2, rfl, h2, w3, v3, rfl, h3, w4, v4, rfl, h4, w5, v5, rfl, h5, w6, v6, rfl, h6, h7⟩ |
      ⟨w1, v1, rfl, h1, w2, v2, rfl, h2, h3⟩ | h)
    · exact .inl ⟨'[', ']', a, n, b, by simp, h⟩
    · exact .inr (.inl h)
    · exact .inl ⟨'{', '}', a, n, b, by simp, h⟩
    · exact .inl ⟨'<', '>', a, n, b, by simp, h⟩
    · exact .inl ⟨'(', ')', a, n, b, by simp, h⟩
    · exact .inr (.inr (.inl h))
    · exact .inr (.inr (.inr (.inl ⟨n, b, sem_number.1 h1, (plusSpace_sem.1 h2).2, (plusSpace_sem.1 h2).1, rfl⟩)))
    · exact .inr (.inr (.inr (.inr (.inl ⟨n, b, ']', h1, h2, by simp, h3⟩))))
    · exact .inr (.inr (.inr (.inr (.inl ⟨n, b, '}', h1, h2, by simp, h3⟩))))
    · exact .inr (.inr (.inr (.inr (.inl ⟨n, b, ')', h1, h2, by simp, h3⟩))))
    · exact .inr (.inr (.inr (.inr (.inl ⟨n, b, '>', h1, h2, by simp, h3⟩))))
    · refine .inr (.inr (.inr (.inr (.inr (.inl ⟨w2, w3, w5, w6, sem_spaces.1 h2, sem_number.1 h3, sem_number.1 h5, sem_spaces.1 h6, ?_⟩)))))
      rw [sem_ch.1 h1, sem_ch.1 h4, sem_ch.1 h7]
      simp
    · refine .inr (.inr (.inr (.inr (.inr (.inr (.inl ⟨w2, sem_spaces.1 h2, ?_⟩))))))
      rw [sem_ch.1 h1, sem_ch.1 h3]
      simp
    · exact .inr (.inr (.inr (.inr (.inr (.inr (.inr h))))))
  · rintro (⟨o, c, a, n, b, hoc, h⟩ | h | h | ⟨n, b, h1, h2, h3, rfl⟩ | ⟨n, b, c, h1, h2, hc, h3⟩ | ⟨a, n, n', b, h1, h2, h3, h4, rfl⟩ | ⟨a, h1, rfl⟩ | h)
    · simp only [List.mem_cons, Prod.mk.injEq, List.not_mem_nil, or_false] at hoc
      rcases hoc with ⟨rfl, rfl⟩ | ⟨rfl, rfl⟩ | ⟨rfl, rfl⟩ | ⟨rfl, rfl⟩
      · exact .inl ⟨a, n, b, h⟩
      · exact .inr (.inr (.inl ⟨a, n, b, h⟩))
      · exact .inr (.inr (.inr (.inl ⟨a, n, b, h⟩)))
      · exact .inr (.inr (.inr (.inr (.inl ⟨a, n, b, h⟩))))
    · exact .inr (.inl h)
    · exact .inr (.inr (.inr (.inr (.inr (.inl h)))))
    · exact .inr (.inr (.inr (.inr (.inr (.inr (.inl ⟨n, b, rfl, sem_number.2 h1, plusSpace_sem.2 ⟨h3, h2⟩⟩))))))
    · simp only [List.mem_cons, List.not_mem_nil, or_false] at hc
      rcases hc with rfl | rfl | rfl | rfl
      · exact .inr (.inr (.inr (.inr (.inr (.inr (.inr (.inl ⟨n, b, h1, h2, h3⟩)))))))
      · exact .inr (.inr (.inr (.inr (.inr (.inr (.inr (.inr (.inl ⟨n, b, h1, h2, h3⟩))))))))
      · exact .inr (.inr (.inr (.inr (.inr (.inr (.inr (.inr (.inr (.inl ⟨n, b, h1, h2, h3⟩)))))))))
      · exact .inr (.inr (.inr (.inr (.inr (.inr (.inr (.inr (.inr (.inr (.inl ⟨n, b, h1, h2, h3⟩))))))))))
    · exact .inr (.inr (.inr (.inr (.inr (.inr (.inr (.inr (.inr (.inr (.inr (.inl ⟨['['], a ++ (n ++ (['.'] ++ (n' ++ (b ++ [']'])))),
        by simp, sem_ch.2 rfl, _, _, rfl, sem_spaces.2 h1, _, _, rfl, sem_number.2 h2, _, _, rfl, sem_ch.2 rfl, _, _, rfl, sem_number.2 h3,
        _, _, rfl, sem_spaces.2 h4, sem_ch.2 rfl⟩)))))))))))
    · exact .inr (.inr (.inr (.inr (.inr (.inr (.inr (.inr (.inr (.inr (.inr (.inr (.inl ⟨['['], a ++ [']'],
        by simp, sem_ch.2 rfl, _, _, rfl, sem_spaces.2 h1, sem_ch.2 rfl⟩))))))))))))
    · exact .inr (.inr (.inr (.inr (.inr (.inr (.inr (.inr (.inr (.inr (.inr (.inr (.inr h))))))))))))

theorem firstMatch_some {line : Str} : ∀ {rs : List Re} {r : Re} {m : Match}, matchList line rs = some (r, m) →
    ∃ l1 l2, rs = l1 ++ r :: l2 ∧ (∀ a ∈ l1, reMatch a line = none) ∧ reMatch r line = some m
  | [], _, _, h => by cases h
  | r' :: rs, r, m, h => by
    rw [matchList] at h
    cases hm : reMatch r' line with
    | some m' =>
      rw [hm] at h
      cases h
      exact ⟨[], rs, rfl, by simp, hm⟩
    | none =>
      rw [hm] at h
      obtain ⟨l1, l2, rfl, h1, h2⟩ := firstMatch_some h
      refine ⟨r' :: l1, l2, rfl, ?_, h2⟩
      intro a ha
      rcases List.mem_cons.1 ha with rfl | ha
      · exact hm
      · exact h1 a ha

theorem firstMatch_none {line : Str} : ∀ {rs : List Re}, matchList line rs = none → ∀ r ∈ rs, reMatch r line = none
  | [], _, r, hr => by cases hr
  | r' :: rs, h, r, hr => by
    rw [matchList] at h
    cases hm : reMatch r' line with
    | some m' => rw [hm] at h; cases h
    | none =>
      rw [hm] at h
      rcases List.mem_cons.1 hr with rfl | hr
      · exact hm
      · exact firstMatch_none h r hr

omit [UnicodeDB] in
theorem spaces_nil {w s : Str} (hw : Spaces w) (hs : NoSpaceFirst (w ++ s)) : w = [] := by
  cases w with
  | nil => rfl
  | cons c w => exact absurd (hw c (.head _)) (by rw [hs c rfl]; simp)

theorem match_marker {b : Re} {line : Str} {m : Match} (hl : NoSpaceFirst line)
    (h : reMatch ((.star true (Re.space)) ⬝ .eps ⬝ .group G.mark b) line = some m) :
    ∃ rest, line = m.txt ++ rest ∧ Sem b [] m.txt rest ∧ m.tgroup G.mark = m.txt ∧ m.stop = m.txt.length := by
  obtain ⟨t, ht, h1, h2, h3, h4⟩ := matchHere_cap h
  obtain ⟨u, w1, hw1, ht⟩ := run_seq_step ht
  obtain ⟨u2, w2, hw2, ht⟩ := run_seq_step ht
  obtain ⟨w, v, hv, hw, e1, e2, e3, -⟩ := run_group ht
  have hn1 : w1 = [] := spaces_nil (sem_spaces.1 hw1.sem) (by rw [← hw1.post]; exact hl)
  have hn2 : w2 = [] := hw2.sem
  subst hn1 hn2
  have p1 : line = u2.post := by have := hw1.post; rw [hw2.post] at this; simpa using this
  have p2 : u2.pre = [] := by rw [hw2.pre, hw1.pre]; rfl
  have ht : m.txt = w := by
    have := hw.post
    rw [← p1, ← e2, h1] at this
    exact List.append_cancel_right this
  refine ⟨t.post, h1, ?_, ?_, ?_⟩
  · have := hw.sem
    rwa [p2, ← e2, ← ht] at this
  · rw [Match.tgroup, h4, e3, ht]; rfl
  · rw [Match.stop, h3]; simp

theorem match_blank {a : Re} {line : Str} {m : Match} {rest : Str}
    (h : reMatch ((.star true (Re.space)) ⬝ .eps ⬝ .group G.mark (a ⬝ Re.plus Re.space)) line = some m)
    (hs : line = m.txt ++ rest) : NoSpaceFirst rest := by
  have hrun : matchHere _ false [] line = some m := h
  simp only [matchHere, Bool.false_and, Bool.false_eq_true, if_false] at hrun
  rw [runK_seq_eq, runK_eq] at hrun
  obtain ⟨t, ht, hrun⟩ := List.exists_of_findSome?_eq_some hrun
  rw [runK_seq_eq, runK_eq] at hrun
  obtain ⟨t', ht', hrun⟩ := List.exists_of_findSome?_eq_some hrun
  rw [runK] at hrun
  rw [runK_seq_eq, runK_eq] at hrun
  obtain ⟨t'', ht'', hrun⟩ := List.exists_of_findSome?_eq_some hrun
  unfold Re.plus at hrun
  rw [runK_seq_eq, runK_eq] at hrun
  obtain ⟨u, hu, hrun⟩ := List.exists_of_findSome?_eq_some hrun
  unfold Re.space at hrun
  obtain ⟨w, q, hw⟩ := runK_star_some hrun
  have hok := hw.ok
  simp only [Option.some.injEq] at hok
  obtain ⟨x1, hx1, -⟩ := run_sound _ _ _ ht
  obtain ⟨x2, hx2, -⟩ := run_sound _ _ _ ht'
  obtain ⟨x3, hx3, -⟩ := run_sound _ _ _ ht''
  obtain ⟨x4, hx4, -⟩ := run_sound _ _ _ hu
  have hxx := ((hx1.trans hx2).trans hx3).trans hx4
  generalize x1 ++ x2 ++ x3 ++ x4 = x at hxx
  have hpost : line = x ++ (w ++ q) := by have := hxx.1; simpa [hw.split] using this
  have htxt : m.txt = x ++ w := by
    rw [← hok]
    have : w.reverse ++ u.pre = (x ++ w).reverse ++ [] := by rw [hxx.2]; simp
    simp only [mkMatch, this]
    rw [List.append_nil, List.take_of_length_le (by simp), List.reverse_reverse]
  have hq : rest = q := by
    rw [hs, htxt] at hpost
    have : x ++ w ++ rest = x ++ w ++ q := by rw [hpost]; simp
    exact List.append_cancel_left this
  subst hq
  intro c hc
  cases rest with
  | nil => simp at hc
  | cons d rest =>
    simp at hc; subst hc
    cases hsp : isSpace d with
    | false => rfl
    | true =>
      have := hw.longest (w ++ [d]) rest (by rw [hw.split]; simp) (by
        intro e he
        rcases List.mem_append.1 he with he | he
        · exact hw.mem e he
        · simp at he; subst he; rw [spaceSet_mem]; exact hsp) (by simp)
      simp at this

theorem match_marker_none {b : Re} {line : Str}
    (h : reMatch ((.star true (Re.space)) ⬝ .eps ⬝ .group G.mark b) line = none) : ∀ w rest, line = w ++ rest → ¬ Sem b [] w rest := by
  intro w rest e hs
  exact (matchHere_none _ _ _).1 h ⟨w, rest, e, [], w, rfl, sem_spaces.2 (by intro c hc; cases hc), [], w, rfl, rfl, hs⟩

omit [UnicodeDB] in
theorem lstrip_split (s : Str) : ∃ a, s = a ++ lstrip s ∧ Spaces a ∧ NoSpaceFirst (lstrip s) := lstripP_split isSpace s

/-- What the marker is: the match of the first pattern that matches at all. -/
theorem removeMarker_cases {line : Str} (hl : NoSpaceFirst line) :
    (∃ l1 b l2 mk post, markBodies = l1 ++ b :: l2 ∧ (∀ a ∈ l1, ∀ w rest, line = w ++ rest → ¬ Sem a [] w rest) ∧ line = mk ++ post ∧
      Sem b [] mk post ∧ ((∃ a, b = a ⬝ Re.plus Re.space) → NoSpaceFirst post) ∧ removeMarker line = (mk, lstrip post)) ∨
    ((∀ a ∈ markBodies, ∀ w rest, line = w ++ rest → ¬ Sem a [] w rest) ∧ removeMarker line = ([' '], line)) := by
  have hl' : lstrip line = line := by
    obtain ⟨a, h1, h2, h3⟩ := lstrip_split line
    have : a = [] := spaces_nil h2 (by rw [← h1]; exact hl)
    rw [this] at h1
    exact h1.symm
  unfold removeMarker
  simp only [hl', markers_eq]
  cases h : matchList line (markBodies.map fun b => (.star true (Re.space)) ⬝ .eps ⬝ .group G.mark b) with
  | none =>
    refine .inr ⟨fun a ha => match_marker_none (firstMatch_none h _ (List.mem_map.2 ⟨a, ha, rfl⟩)), rfl⟩
  | some p =>
    obtain ⟨r, m⟩ := p
    obtain ⟨l1, l2, e, hn, hm⟩ := firstMatch_some h
    obtain ⟨k1, k2, hk, rfl, hk2⟩ := List.map_eq_append_iff.1 e
    obtain ⟨b, k3, rfl, rfl, rfl⟩ := List.map_eq_cons_iff.1 hk2
    obtain ⟨rest, h1, h2, h3, h4⟩ := match_marker hl hm
    refine .inl ⟨k1, b, k3, m.txt, rest, hk, fun a ha => match_marker_none (hn _ (List.mem_map.2 ⟨a, ha, rfl⟩)), h1, h2, ?_, ?_⟩
    · rintro ⟨a, rfl⟩
      exact match_blank hm h1
    · dsimp only
      rw [h3, h4]
      congr 1
      rw [h1]
      simp

theorem removeMarker_lstrip (line : Str) : removeMarker line = removeMarker (lstrip line) := by
  have hl' : lstrip (lstrip line) = lstrip line := by
    obtain ⟨-, -, -, hl⟩ := lstrip_split line
    obtain ⟨a, h1, h2, h3⟩ := lstrip_split (lstrip line)
    have : a = [] := spaces_nil h2 (by rw [← h1]; exact hl)
    rw [this] at h1
    exact h1.symm
  unfold removeMarker
  rw [hl']

/-- A number before something that is no digit is cut in one way only. -/
theorem number_split : ∀ {n n' x x' : Str}, Decimals n → Decimals n' → NoDigitFirst x → NoDigitFirst x' → n ++ x = n' ++ x' → n = n' ∧ x = x'
  | n, n', x, x', h1, h2, h3, h4, e => by
    have key : ∀ {n n' : Str}, (∀ c ∈ n, isDec c = true) → (∀ c ∈ n', isDec c = true) → n ++ x = n' ++ x' → n = n' := by
      intro n
      induction n with
      | nil =>
        intro n' _ h' e
        cases n' with
        | nil => rfl
        | cons c n' =>
          have := h3 c (by rw [← List.nil_append x, e]; rfl)
          rw [h' c (.head _)] at this
          cases this
      | cons c n ih =>
        intro n' h h' e
        cases n' with
        | nil =>
          have := h4 c (by rw [← List.nil_append x', ← e]; rfl)
          rw [h c (.head _)] at this
          cases this
        | cons d n' =>
          injection e with e1 e2
          subst e1
          rw [ih (fun c hc => h c (.tail _ hc)) (fun c hc => h' c (.tail _ hc)) e2]
    have := key h1.2 h2.2 e
    subst this
    exact ⟨rfl, List.append_cancel_left e⟩

omit [UnicodeDB] in
/-- So is white space before something that is none. -/
theorem space_split {a a' x x' : Str} (h1 : Spaces a) (h2 : Spaces a') (h3 : NoSpaceFirst x) (h4 : NoSpaceFirst x') (e : a ++ x = a' ++ x') :
    a = a' ∧ x = x' := by
  have key : ∀ {n n' : Str}, Spaces n → Spaces n' → n ++ x = n' ++ x' → n = n' := by
    intro n
    induction n with
    | nil =>
      intro n' _ h' e
      exact (spaces_nil h' (by rw [← e]; exact h3)).symm
    | cons c n ih =>
      intro n' h h' e
      cases n' with
      | nil =>
        have := h4 c (by rw [← List.nil_append x', ← e]; rfl)
        rw [h c (.head _)] at this
        cases this
      | cons d n' =>
        injection e with e1 e2
        subst e1
        rw [ih (fun c hc => h c (.tail _ hc)) (fun c hc => h' c (.tail _ hc)) e2]
  have := key h1 h2 e
  subst this
  exact ⟨rfl, List.append_cancel_left e⟩

theorem noDigit_spaces {b x : Str} (hb : Spaces b) (hx : NoDigitFirst x) : NoDigitFirst (b ++ x) := by
  cases b with
  | nil => exact hx
  | cons c b =>
    intro d hd
    cases hd
    cases h : isDec c with
    | false => rfl
    | true => exact absurd (isDec_not_space h) (by rw [hb c (.head _)]; simp)

omit [UnicodeDB] in
theorem bodies_at {l1 l2 : List Re} {b : Re} (h : markBodies = l1 ++ b :: l2) :
    ∃ i, i < 14 ∧ l1 = markBodies.take i ∧ markBodies[i]? = some b := by
  refine ⟨l1.length, ?_, ?_, ?_⟩
  · have : markBodies.length = 14 := rfl
    rw [h] at this
    simp at this
    omega
  · rw [h]; simp
  · rw [h]; simp

theorem not_dec {c : Char} (h : c ∈ ['[', '{', '<', '(', '.', ']', '}', ')', '>', '*']) : isDec c = false := by
  simp only [List.mem_cons, List.not_mem_nil, or_false] at h
  rcases h with rfl | rfl | rfl | rfl | rfl | rfl | rfl | rfl | rfl | rfl <;> rfl

theorem sem_first {o : Char} {r : Re} {pre w post : Str} (h : Sem (Re.ch o ⬝ r) pre w post) : ∃ v, w = o :: v := by
  obtain ⟨w1, v, rfl, h1, -⟩ := h
  exact ⟨v, by rw [sem_ch.1 h1]; rfl⟩

/-- The patterns that begin with a bracket do not match a text that begins with a number. -/
theorem no_bracket {o : Char} {r : Re} {n x w post : Str} (hn : Decimals n) (ho : o ∈ ['[', '{', '<', '(', '.', ']', '}', ')', '>', '*'])
    (h : Sem (Re.ch o ⬝ r) [] w post) : n ++ x ≠ w ++ post := by
  obtain ⟨v, rfl⟩ := sem_first h
  intro e
  obtain ⟨hn1, hn2⟩ := hn
  cases n with
  | nil => exact hn1 rfl
  | cons c n =>
    injection e with e1 e2
    have := hn2 c (.head _)
    rw [e1, not_dec ho] at this
    cases this

end Py
