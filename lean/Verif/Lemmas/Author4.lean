import Verif.Lemmas.Author3

/-!
# Authors written plainly are recognised
-/

open Spec

namespace Py

/-- A further initial. -/
def furtherRe : Re := (.star true (Re.space)) ⬝ (Re.rep 1 3 (.set ⟨false, false, [.ch '.', .ch '\'', .ch '\u2019', .space, .ch '-']⟩)) ⬝ (.star true (Re.space)) ⬝ (.set ⟨false, false, [.authUpper]⟩)

/-- A short word before the surname. -/
def shortRe : Re := (.look true (.str (py! "at"))) ⬝ (Re.rep 1 3 (Re.word)) ⬝ (.behind true [⟨false, false, [.ch 'a']⟩, ⟨false, false, [.ch 'n']⟩, ⟨false, false, [.ch 'd']⟩]) ⬝ Re.alts [(.set ⟨false, false, [.ch '\u2019', .ch '\'', .ch '`', .ch '\u00b4', .ch '-']⟩) ⬝ (Re.opt (Re.space)), Re.space]

/-- No surname. -/
def badNameRe : Re := Re.alts [.str (py! "Supergravity"), .str (py! "Collaboration"), .str (py! "Theoretical"), .str (py! "Appendix"), .str (py! "Phys"), .str (py! "Paper"), .str (py! "Energy")]

/-- Not after "Volume". -/
def volumeRe : Re := .behind true [⟨false, false, [.ch 'V']⟩, ⟨false, false, [.ch 'o']⟩, ⟨false, false, [.ch 'l']⟩, ⟨false, false, [.ch 'u']⟩, ⟨false, false, [.ch 'm']⟩, ⟨false, false, [.ch 'e']⟩, ⟨false, false, [.space]⟩]

/-- The capital letters. -/
def capRe : Re := .set ⟨false, false, [.authUpper]⟩

theorem plain_eq : ∃ A B C D E F H I J K, Rx.RE_AUTH = authLeadRe ⬝ (Re.opt (.group G.es edBeforeRe)) ⬝
    (.group G.author_names (Re.alts [A, (Re.alts [(Re.opt B) ⬝ volumeRe ⬝ capRe ⬝ (Re.rep 0 4 furtherRe) ⬝
      (Re.rep 1 2 (.set ⟨false, false, [.ch '.', .space, .ch '-']⟩)) ⬝ (.star true (Re.space)) ⬝ (Re.opt B) ⬝ (Re.opt shortRe) ⬝
      (.look true badNameRe) ⬝ capRe ⬝ (Re.alts [C, Re.rep 1 20 (Re.word)]) ⬝ (Re.opt D) ⬝ (Re.opt E) ⬝ Re.opt F, H]) ⬝
      (.group G.multi_auth ((.star true I) ⬝ Re.opt J)) ⬝ Re.opt K])) ⬝
    (Re.opt (.group G.ee edAfterRe)) ⬝ (Re.opt (Re.ch ')')) ⬝ authEndRe :=
  ⟨_, _, _, _, _, _, _, _, _, _, rfl⟩

variable [UnicodeDB]

theorem sem_cap {pre w post : Str} : Sem capRe pre w post ↔ ∃ c, w = [c] ∧ Capital c := by
  rw [capRe, sem_set]
  simp [CSet.mem, CItem.mem, Capital]

theorem sem_blanks {pre w post : Str} : Sem (.star true Re.space) pre w post ↔ Blanks w := by
  rw [Re.space, sem_star_set]; simp only [blank_mem, Blanks]

theorem sem_wordRep {m n : Nat} (h : m ≤ n) {pre w post : Str} : Sem (Re.rep m n Re.word) pre w post ↔ m ≤ w.length ∧ w.length ≤ n ∧ ∀ c ∈ w, isWord c = true := by
  rw [Re.word, sem_rep_set h]
  simp [CSet.mem, CItem.mem]

/-- The initials after the first. -/
theorem pointTail_sem {n : Nat} {w : Str} (h : PointTail n w) : ∀ {m : Nat}, n ≤ m → ∃ u k, w = u ++ '.' :: k ∧ Blanks k ∧ ∀ pre post, Sem (Re.upTo m furtherRe) pre u post := by
  induction h with
  | last h => exact fun {m} _ => ⟨[], _, rfl, h, fun pre post => by cases m with | zero => exact rfl | succ m => exact .inr rfl⟩
  | @more k c n w hk hc _ ih =>
    intro m hm
    obtain ⟨m, rfl⟩ : ∃ m', m = m' + 1 := ⟨m - 1, by omega⟩
    obtain ⟨u, k', rfl, h1, h2⟩ := ih (m := m) (by omega)
    refine ⟨('.' :: (k ++ [c])) ++ u, k', by simp, h1, fun pre post => .inl ⟨_, _, rfl, ?_, h2 _ _⟩⟩
    refine ⟨[], _, rfl, sem_blanks.2 (by simp [Blanks]), ['.'], k ++ [c], rfl, ?_, k, [c], rfl, sem_blanks.2 hk, sem_cap.2 ⟨c, rfl, hc⟩⟩
    exact (sem_rep_set (by decide)).2 ⟨by simp, by simp, by simp [CSet.mem, CItem.mem]⟩

/-- Three letters in a row just before. -/
theorem sem_notAnd {pre w post : Str} : Sem (.behind true [⟨false, false, [.ch 'a']⟩, ⟨false, false, [.ch 'n']⟩, ⟨false, false, [.ch 'd']⟩]) pre w post ↔
    w = [] ∧ ¬ ∃ a v, pre.reverse = a ++ v ∧ v = py! "and" := by
  refine sem_behind (R := (· = py! "and")) fun v => ?_
  constructor
  · intro h
    cases h with | cons h1 h => cases h with | cons h2 h => cases h with | cons h3 h => cases h; simp [CSet.mem, CItem.mem] at h1 h2 h3; subst h1 h2 h3; rfl
  · rintro rfl
    exact .cons (by simp [CSet.mem, CItem.mem]) (.cons (by simp [CSet.mem, CItem.mem]) (.cons (by simp [CSet.mem, CItem.mem]) .nil))

theorem sem_notVolume {pre w post : Str} : Sem volumeRe pre w post ↔ w = [] ∧ ¬ ∃ a v, pre.reverse = a ++ v ∧ ∃ z, isSpace z = true ∧ v = py! "Volume" ++ [z] := by
  refine sem_behind (R := fun v => ∃ z, isSpace z = true ∧ v = py! "Volume" ++ [z]) fun v => ?_
  constructor
  · intro h
    cases h with | cons h1 h => cases h with | cons h2 h => cases h with | cons h3 h => cases h with | cons h4 h => cases h with | cons h5 h => cases h with | cons h6 h => cases h with | cons h7 h => cases h; simp [CSet.mem, CItem.mem] at h1 h2 h3 h4 h5 h6 h7; subst h1 h2 h3 h4 h5 h6; exact ⟨_, h7, rfl⟩
  · rintro ⟨z, hz, rfl⟩
    have k : ∀ c : Char, CSet.mem ⟨false, false, [.ch c]⟩ c = true := fun c => by simp [CSet.mem, CItem.mem]
    exact .cons (k _) (.cons (k _) (.cons (k _) (.cons (k _) (.cons (k _) (.cons (k _) (.cons (blank_mem.2 hz) .nil))))))

theorem plainAuthor_sem {b o w r : Str} (ho : (o = [] ∧ b = []) ∨ (o ≠ [] ∧ ∀ z ∈ o, isSpace z = true) ∨ o = ['('])
    (hv : ¬ ∃ a z, b ++ o = a ++ (py! "Volume" ++ [z]) ∧ isSpace z = true) (hw : PlainAuthor w) (hr : Delimited r) :
    Sem Rx.RE_AUTH b.reverse (o ++ w) r := by
  obtain ⟨A, B, C, D, E, F, H, I, J, K, e⟩ := plain_eq
  rw [e]
  obtain ⟨n, c, t, v, d, s, rfl, hn, hc, ht, hs, hd, l1, l2, hsw, hbad⟩ := hw
  obtain ⟨u, k, rfl, hk, hu⟩ := pointTail_sem ht hn
  refine ⟨o, _, rfl, sem_authLead.2 (by simpa using ho), [], _, rfl, .inr rfl, _, [], (List.append_nil _).symm, .inr ?_,
    [], [], rfl, .inr rfl, [], [], rfl, sem_optCh.2 (.inl rfl), sem_authEnd.2 ⟨rfl, hr⟩⟩
  refine ⟨_, [], (List.append_nil _).symm, .inl ?_, [], [], rfl, ⟨[], [], rfl, ⟨[], rfl, trivial⟩, .inr rfl⟩, .inr rfl⟩
  refine ⟨[], _, rfl, .inr rfl, [], _, rfl, sem_notVolume.2 ⟨rfl, ?_⟩, [c], _, rfl, sem_cap.2 ⟨c, rfl, hc⟩, u, '.' :: (k ++ (v ++ d :: s)), by simp,
    ⟨[], u, rfl, rfl, hu _ _⟩, ['.'], _, rfl, (sem_rep_set (by decide)).2 ⟨by simp, by simp, by simp [CSet.mem, CItem.mem]⟩, k, _, rfl, sem_blanks.2 hk,
    [], _, rfl, .inr rfl, v, _, rfl, ?_, [], _, rfl, ⟨rfl, by simp, ?_⟩, [d], s, rfl, sem_cap.2 ⟨d, rfl, hd⟩, s, [], by simp,
    .inr ((sem_wordRep (by decide)).2 ⟨l1, l2, hsw⟩), [], [], rfl, .inr rfl, [], [], rfl, .inr rfl, .inr rfl⟩
  · rintro ⟨a, v, e, z, hz, rfl⟩
    exact hv ⟨a, z, by simpa using e, hz⟩
  · rcases hs with rfl | ⟨x, z, rfl, h1, h2, h3, h4, h5, h6⟩
    · exact .inr rfl
    left
    refine ⟨[], _, rfl, ⟨rfl, by simp, ?_⟩, x, [z], rfl, (sem_wordRep (by decide)).2 ⟨h1, h2, h3⟩, [], [z], rfl, sem_notAnd.2 ⟨rfl, ?_⟩, .inr (sem_blank.2 ⟨z, rfl, h6⟩)⟩
    · rintro ⟨p, q, e, rfl⟩
      exfalso
      match x, h1, h4, h3, e with
      | [y], _, _, _, e =>
        simp at e
        rw [e.2.1] at h6
        exact absurd h6 (by decide)
      | y :: y' :: x, _, h4, _, e =>
        simp at e
        exact h4 (by simp [e.1, e.2.1])
    · rintro ⟨a, _, e, rfl⟩
      have hlast : ∀ y p, (k.reverse ++ ('.' :: (p : Str))).head? = some y → y ≠ 'n' ∧ y ≠ 'a' := by
        intro y p hy
        cases hkr : k.reverse with
        | nil => rw [hkr] at hy; simp at hy; subst hy; decide
        | cons y' q =>
          rw [hkr] at hy
          simp at hy
          subst hy
          have : isSpace y' = true := hk _ (by rw [← List.mem_reverse, hkr]; simp)
          constructor <;> (rintro rfl; revert this; decide)
      have e' := congrArg List.reverse e
      simp only [List.reverse_reverse, List.reverse_append, List.reverse_cons, List.reverse_nil, List.nil_append, List.append_assoc, List.cons_append] at e'
      match x, h1, h2, h5, e' with
      | [y], _, _, _, e' =>
        simp at e'
        have := (hlast _ _ (by rw [e'.2]; rfl)).1
        exact this rfl
      | [y, y'], _, _, _, e' =>
        simp at e'
        have := (hlast _ _ (by rw [e'.2.2]; rfl)).2
        exact this rfl
      | [y, y', y''], _, _, h5, e' =>
        simp at e'
        exact h5 (by rw [e'.1, e'.2.1, e'.2.2.1])
  · rintro ⟨x, y, e, hx⟩
    exfalso
    have hx' : x ∈ notSurnames := by
      rcases hx with hx | hx | hx | hx | hx | hx | hx <;> (obtain rfl : x = _ := hx; simp [notSurnames])
    have hl : ∀ z ∈ x, ¬ (isSpace z = true ∨ z ∈ py! ",.;:") := by
      have : ∀ x ∈ notSurnames, ∀ z ∈ x, ¬ (isSpace z = true ∨ z ∈ py! ",.;:") := by decide
      exact this x hx'
    obtain ⟨z, q, rfl, hz⟩ := hr
    change (d :: s) ++ (z :: q) = x ++ y at e
    rcases List.append_eq_append_iff.1 e with ⟨a, e1, e2⟩ | ⟨a, e1, e2⟩
    · cases a with
      | nil => exact hbad x hx' ⟨[], by simpa using e1⟩
      | cons a as =>
        simp at e2
        have := hl a (by rw [e1]; simp)
        exact this (e2.1 ▸ hz)
    · exact hbad x hx' ⟨a, e1.symm⟩

theorem plainAuthor_here {b o w r : Str} (ho : (o = [] ∧ b = []) ∨ (o ≠ [] ∧ ∀ z ∈ o, isSpace z = true) ∨ o = ['('])
    (hv : ¬ ∃ a z, b ++ o = a ++ (py! "Volume" ++ [z]) ∧ isSpace z = true) (hw : PlainAuthor w) (hr : Delimited r) :
    ∃ x y g, o ++ w ++ r = x ++ y ∧ AuthorHere b x y g := by
  have h := plainAuthor_sem ho hv hw hr
  cases hm : matchHere Rx.RE_AUTH false b.reverse (o ++ w ++ r) with
  | none => exact absurd ⟨o ++ w, r, rfl, h⟩ ((matchHere_none _ _ _).1 hm)
  | some m =>
    obtain ⟨y, e, -⟩ := matchHere_sem hm
    exact ⟨m.txt, y, groupOf m, e, m, by rw [← e]; exact hm, rfl, rfl⟩

theorem plainAuthor_gap {b u r : Str} (h : NoGroup AuthorHere b u r) : '_' ∉ u → ∀ {p q o w r' : Str}, u = p ++ q → q ≠ [] → q ++ r = o ++ w ++ r' →
    (o = [] ∧ b ++ p = []) ∨ (o ≠ [] ∧ ∀ z ∈ o, isSpace z = true) ∨ o = ['('] →
    (¬ ∃ a z, b ++ p ++ o = a ++ (py! "Volume" ++ [z]) ∧ isSpace z = true) → PlainAuthor w → ¬ Delimited r' := by
  induction h with
  | nil =>
    intro _ p q o w r' e hq
    exact absurd (List.append_eq_nil_iff.1 e.symm).2 hq
  | @ch b c u r hn _ ih =>
    intro hu p q o w r' e hq e2 ho hv hw hr
    cases p with
    | nil =>
      obtain ⟨x, y, g, e3, h3⟩ := plainAuthor_here (b := b) (by simpa using ho) (by simpa using hv) hw hr
      rw [List.nil_append] at e
      subst e
      exact hn ⟨x, y, g, by rw [← e3, ← e2]; rfl, h3⟩
    | cons p0 p =>
      simp only [List.cons_append, List.cons.injEq] at e
      obtain ⟨rfl, rfl⟩ := e
      exact ih (fun h => hu (by simp only [List.mem_cons]; exact .inr h)) rfl hq e2 (by simpa using ho) (by simpa using hv) hw hr
  | over _ h1 => exact fun hu => absurd (List.mem_append_left _ h1) hu

end Py
