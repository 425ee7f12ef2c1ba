import Verif.Lemmas.Boundary
import Verif.Lemmas.Lines
import Verif.Lemmas.Pipeline
import Verif.Lemmas.ReSem
import Verif.Lemmas.Transform2
import Verif.Model.Rebuild
import Verif.Spec.Rebuild

/-!
# Lemmas about the rebuilding of reference lines
-/

open Py Spec

namespace Py

theorem trimmed_strip (s : Str) : Stripped s (strip s) := by
  obtain ⟨a, b, h1, h2, h3, h4, h5⟩ := stripP_split isSpace s
  refine ⟨a, b, h1, ?_, fun c hc => h4 c (by simpa [strip] using hc), fun c hc => h5 c (by simpa [strip] using hc)⟩
  intro c hc
  rcases List.mem_append.1 hc with hc | hc
  · exact h2 c hc
  · exact h3 c hc

theorem joins_foldl (ps : List Str) : Joins ps (ps.foldl (fun w l => joinLines w (strip l)) []) := by
  have key : ∀ (ps qs : List Str) (x : Str), Joins qs x → Joins (qs ++ ps) (ps.foldl (fun w l => joinLines w (strip l)) x) := by
    intro ps
    induction ps with
    | nil => intro qs x h; simpa using h
    | cons p ps ih =>
      intro qs x h
      obtain ⟨g, hg, e⟩ := joinLines_glued x (strip p)
      have := ih (qs ++ [p]) (g ++ strip p) (.snoc h hg (trimmed_strip p))
      rw [List.foldl_cons, e]
      simpa using this
  exact key ps [] [] .nil

theorem refOf_prepare {ps : List Str} (h : ps ≠ []) : RefOf ps (prepareRef ps) := by
  obtain ⟨b, h1, h2, h3⟩ := rstripP_split isSpace ((ps.take maxLines).foldl (fun w l => joinLines w (strip l)) [])
  refine ⟨h, _, b, joins_foldl _, h1, h2, fun c hc => h3 c (by simpa [prepareRef, rstrip] using hc)⟩

theorem ink_append (a b : Str) : ink (a ++ b) = ink a ++ ink b := by simp [ink]

theorem ink_spaces {a : Str} (h : ∀ c ∈ a, isSpace c = true) : ink a = [] := by
  simp only [ink, List.filter_eq_nil_iff]
  intro c hc
  simp [h c hc]

theorem ink_trimmed {s t : Str} (h : Stripped s t) : ink s = ink t := by
  obtain ⟨a, b, rfl, h1, -⟩ := h
  rw [ink_append, ink_append, ink_spaces (a := a) (fun c hc => h1 c (by simp [hc])),
    ink_spaces (a := b) (fun c hc => h1 c (by simp [hc]))]
  simp

theorem ink_glued {x g : Str} (h : Glued x g) : ink g = ink x ∨ (ink x = ink g ++ ['-'] ∧ x ≠ []) := by
  have hs : isSpace ' ' = true := by decide
  cases h with
  | empty => exact .inl rfl
  | hyphen l => exact .inr ⟨by rw [ink_append]; rfl, by simp⟩
  | blank l => exact .inl rfl
  | @other l c _ _ =>
    refine .inl ?_
    rw [show l ++ [c, ' '] = l ++ [c] ++ [' '] by simp, ink_append (l ++ [c]), ink_spaces (a := [' '])]
    · simp
    · simpa using hs

theorem rest_drop {ps qs : List Str} (h : All2 Rest ps qs) {y : Str} (e : qs.flatten = y ++ ['-']) :
    ∃ qs', All2 Rest ps qs' ∧ qs'.flatten = y := by
  induction h generalizing y with
  | nil => simp at e
  | @cons p q ps qs h1 h2 ih =>
    by_cases hn : qs.flatten = []
    · rw [List.flatten_cons, hn, List.append_nil] at e
      obtain ⟨k, hk⟩ := h1
      refine ⟨y :: qs, .cons ⟨k + 1, ?_⟩ h2, by simp [hn]⟩
      rw [hk, e, List.append_assoc, List.replicate_succ]
      rfl
    · obtain ⟨z, c, hz⟩ : ∃ z c, qs.flatten = z ++ [c] := by
        rcases List.eq_nil_or_concat qs.flatten with h | ⟨z, c, h⟩
        · exact absurd h hn
        · exact ⟨z, c, by simpa using h⟩
      rw [List.flatten_cons, hz, ← List.append_assoc] at e
      obtain ⟨e1, e2⟩ := List.append_inj' e rfl
      simp only [List.cons.injEq, and_true] at e2
      subst e2
      obtain ⟨qs', h3, h4⟩ := ih hz
      exact ⟨q :: qs', .cons h1 h3, by rw [List.flatten_cons, h4, e1]⟩

theorem all2_snoc {α β : Type} {R : α → β → Prop} {as : List α} {bs : List β} {a : α} {b : β} (h : All2 R as bs) (hab : R a b) :
    All2 R (as ++ [a]) (bs ++ [b]) := by
  induction h with
  | nil => exact .cons hab .nil
  | cons h1 _ ih => exact .cons h1 ih

theorem joins_ink {ps : List Str} {x : Str} (h : Joins ps x) :
    (∃ qs, All2 Rest ps qs ∧ ink x = qs.flatten) ∧ (ink ps.flatten).length ≤ (ink x).length + (ps.length - 1) ∧
      (ps = [] → x = []) := by
  induction h with
  | nil => exact ⟨⟨[], .nil, rfl⟩, by simp [ink], fun _ => rfl⟩
  | @snoc ps x g p t h1 h2 h3 ih =>
    obtain ⟨⟨qs, ha, hq⟩, hl, hn⟩ := ih
    have hp : Rest p (ink t) := ⟨0, by simp [ink_trimmed h3]⟩
    have ef : (ps ++ [p]).flatten = ps.flatten ++ p := by simp
    rcases ink_glued h2 with e | ⟨e, hx⟩
    · refine ⟨⟨qs ++ [ink t], all2_snoc ha hp, by simp [ink_append, e, hq]⟩, ?_, by simp⟩
      rw [ef, ink_append, ink_append, e, ink_trimmed h3]
      simp only [List.length_append, List.length_cons, List.length_nil]
      omega
    · obtain ⟨qs', h5, h6⟩ := rest_drop ha (hq ▸ e)
      refine ⟨⟨qs' ++ [ink t], all2_snoc h5 hp, by simp [ink_append, h6]⟩, ?_, by simp⟩
      have : ps.length ≠ 0 := fun hh => hx (hn (List.length_eq_zero_iff.1 hh))
      rw [ef, ink_append, ink_append, ink_trimmed h3]
      rw [e] at hl
      simp only [List.length_append, List.length_cons, List.length_nil] at hl ⊢
      omega

theorem joins_ink1 {ps : List Str} {x : Str} (h : Joins ps x) (hp : ∀ p ∈ ps, ink p ≠ []) :
    (ps = [] ∧ x = []) ∨ ∃ ps' p qs, ps = ps' ++ [p] ∧ All2 Rest1 ps' qs ∧ ink x = qs.flatten ++ ink p := by
  induction h with
  | nil => exact .inl ⟨rfl, rfl⟩
  | @snoc ps x g p t h1 h2 h3 ih =>
    refine .inr ⟨ps, p, ?_⟩
    rcases ih (fun p hh => hp p (by simp [hh])) with ⟨rfl, rfl⟩ | ⟨ps', p0, qs, rfl, ha, hq⟩
    · refine ⟨[], rfl, .nil, ?_⟩
      have : g = [] := glued_unique h2 .empty
      simp [this, ink_trimmed h3]
    · rcases ink_glued h2 with e | ⟨e, hx⟩
      · exact ⟨qs ++ [ink p0], rfl, all2_snoc ha (.inl rfl), by simp [ink_append, e, hq, ink_trimmed h3]⟩
      · have hp0 := hp p0 (by simp)
        rcases List.eq_nil_or_concat (ink p0) with hh | ⟨z, c, hh⟩
        · exact absurd hh hp0
        · have hh : ink p0 = z ++ [c] := by simpa using hh
          rw [hq, hh, ← List.append_assoc] at e
          obtain ⟨e1, e2⟩ := List.append_inj' e rfl
          simp only [List.cons.injEq, and_true] at e2
          subst e2
          exact ⟨qs ++ [z], rfl, all2_snoc ha (.inr hh), by simp [ink_append, e1, ink_trimmed h3]⟩

variable [UnicodeDB]

omit [UnicodeDB] in
theorem flatten_unlessEmpty (l : Str) : (unlessEmpty l).flatten = l := by
  cases l <;> simp [unlessEmpty]

omit [UnicodeDB] in
theorem length_unlessEmpty (l : Str) : (unlessEmpty l).length ≤ 1 := by
  cases l <;> simp [unlessEmpty]

/-- Pieces `w` waiting, pieces `ps` of a line: which references are finished and what is waiting. -/
def Moves (w : List Str) (ps : List Str) (gs : List (List Str)) (w' : List Str) : Prop :=
  gs.flatten ++ w' = w ++ ps ∧ ∀ g ∈ gs, g ≠ []

omit [UnicodeDB] in
theorem finish_moves (w : List Str) : ∃ gs : List (List Str), finish w = gs.map prepareRef ∧ gs.flatten = w ∧ ∀ g ∈ gs, g ≠ [] := by
  cases w with
  | nil => exact ⟨[], rfl, rfl, by simp⟩
  | cons a w => exact ⟨[a :: w], by simp [finish], by simp, by simp⟩

theorem step_moves {mk : Marker} {ind : Bool} {s s' : Reb} {line : Str} (h : rebuildStep mk ind s line = .ok s') :
    ∃ ps gs, Cut line ps ∧ Moves s.work ps gs s'.work ∧ s'.refs = s.refs ++ gs.map prepareRef := by
  unfold rebuildStep at h
  split at h
  · cases h
    exact ⟨unlessEmpty line, [], ⟨flatten_unlessEmpty _, by have := length_unlessEmpty line; omega⟩, ⟨by simp, by simp⟩, by simp⟩
  · next m hm =>
    obtain ⟨num, h1, h⟩ := bind_ok h
    obtain ⟨new, h2, h⟩ := bind_ok h
    cases h
    split
    · obtain ⟨gs, e1, e2, e3⟩ := finish_moves (s.work ++ unlessEmpty (line.take m.start))
      refine ⟨unlessEmpty (line.take m.start) ++ unlessEmpty (line.drop m.start), gs, ⟨?_, ?_⟩, ⟨?_, e3⟩, ?_⟩
      · rw [List.flatten_append, flatten_unlessEmpty, flatten_unlessEmpty, List.take_append_drop]
      · have := length_unlessEmpty (line.take m.start)
        have := length_unlessEmpty (line.drop m.start)
        rw [List.length_append]; omega
      · simp [newRef, e2]
      · simp [newRef, e1]
    · exact ⟨[line], [], ⟨by simp, by simp⟩, ⟨by simp, by simp⟩, by simp⟩

theorem loop_moves {mk : Marker} {ind : Bool} {s s' : Reb} {ls : List Str} (h : rebuildLoop mk ind s ls = .ok s') :
    ∃ pss gs, All2 Cut ls pss ∧ Moves s.work pss.flatten gs s'.work ∧ s'.refs = s.refs ++ gs.map prepareRef := by
  induction ls generalizing s with
  | nil => cases h; exact ⟨[], [], .nil, ⟨by simp, by simp⟩, by simp⟩
  | cons l ls ih =>
    obtain ⟨s1, h1, h⟩ := bind_ok h
    obtain ⟨ps, gs, a1, ⟨b1, b2⟩, c1⟩ := step_moves h1
    obtain ⟨pss, gs', a2, ⟨b3, b4⟩, c2⟩ := ih h
    refine ⟨ps :: pss, gs ++ gs', .cons a1 a2, ⟨?_, ?_⟩, by simp [c2, c1]⟩
    · rw [List.flatten_append, List.append_assoc, b3, ← List.append_assoc, b1]
      simp
    · intro g hg
      rcases List.mem_append.1 hg with hg | hg
      · exact b2 g hg
      · exact b4 g hg

omit [UnicodeDB] in
theorem all2_prepare {gs : List (List Str)} (h : ∀ g ∈ gs, g ≠ []) : All2 RefOf gs (gs.map prepareRef) := by
  induction gs with
  | nil => exact .nil
  | cons g gs ih => exact .cons (refOf_prepare (h g (by simp))) (ih fun g hg => h g (by simp [hg]))

theorem rebuild_groups {sect : List Str} {mk : Option Marker} {refs : List Str} (h : rebuild sect mk = .ok refs) :
    ∃ pss groups, All2 Cut sect pss ∧ groups.flatten = pss.flatten ∧ All2 RefOf groups refs := by
  obtain ⟨s, h1, h⟩ := bind_ok h
  cases h
  obtain ⟨pss, gs, a, ⟨b1, b2⟩, c⟩ := loop_moves h1
  obtain ⟨gs', e1, e2, e3⟩ := finish_moves s.work
  refine ⟨pss, gs ++ gs', a, ?_, ?_⟩
  · rw [List.flatten_append, e2, b1]; rfl
  · rw [c, e1]
    simp only [List.nil_append, ← List.map_append]
    apply all2_prepare
    intro g hg
    rcases List.mem_append.1 hg with hg | hg
    · exact b2 g hg
    · exact e3 g hg

omit [UnicodeDB] in
theorem solid_append (a b : List Str) : solidPieces (a ++ b) = solidPieces a ++ solidPieces b := by simp [solidPieces]

omit [UnicodeDB] in
theorem solid_unlessEmpty (l : Str) : solidPieces [l] = unlessEmpty l := by cases l <;> rfl

omit [UnicodeDB] in
theorem solid_cons (l : Str) (ls : List Str) : solidPieces (l :: ls) = unlessEmpty l ++ solidPieces ls := by cases l <;> rfl

omit [UnicodeDB] in
theorem solid_unless2 (l : Str) : solidPieces (unlessEmpty l) = unlessEmpty l := by cases l <;> rfl

omit [UnicodeDB] in
theorem blockPieces_solid {w w' : List Str} (h : solidPieces w = solidPieces w') (bs : List Block) :
    (blockPieces w bs).map solidPieces = (blockPieces w' bs).map solidPieces := by
  cases bs <;> simp [blockPieces, solid_append, h]

/-- What one line does when the pattern is numbered. -/
theorem step_numbered {mk : Marker} (hn : mk.numbered = true) (he : search mk.re [] = none) {s s' : Reb} {c : Nat}
    (hc : s.cur = some c) (hs : ∀ x, s.num = some x → ∃ n, x = some n ∧ n ≠ c + 1) {line : Str}
    (h : rebuildStep mk false s line = .ok s') :
    ((∀ k, ¬ MarkAt mk.re G.marknum line k (c + 1)) ∧ s'.cur = some c ∧ (∀ x, s'.num = some x → ∃ n, x = some n ∧ n ≠ c + 1) ∧
      s'.refs = s.refs ∧ s'.work = s.work ++ unlessEmpty line) ∨
    ∃ k, MarkAt mk.re G.marknum line k (c + 1) ∧ s'.cur = some (c + 1) ∧ s'.num = some (some (c + 1)) ∧
      s'.refs = s.refs ++ finish (s.work ++ unlessEmpty (line.take k)) ∧ s'.work = unlessEmpty (line.drop k) := by
  have hline : ∀ m, search mk.re line = some m → [line] = unlessEmpty line := by
    intro m hm
    cases line with
    | nil => rw [he] at hm; cases hm
    | cons c cs => rfl
  unfold rebuildStep at h
  split at h
  · next hm =>
    cases h
    refine .inl ⟨?_, hc, hs, rfl, rfl⟩
    rintro k ⟨m, t, h1, -⟩
    rw [hm] at h1; cases h1
  · next m hm =>
    obtain ⟨num, h1, h⟩ := bind_ok h
    obtain ⟨new, h2, h⟩ := bind_ok h
    simp only [Bool.false_and, Bool.not_false, Bool.and_true] at h
    simp only [marknum, hn, if_true] at h1
    split at h1
    · cases h1
    · next t ht =>
      split at h1
      · next n hp =>
        cases h1
        simp only [inSequence, hc] at h2
        cases h2
        by_cases e : c + 1 = n
        · subst e
          simp only [beq_self_eq_true, if_true] at h
          cases h
          exact .inr ⟨m.start, ⟨m, t, hm, rfl, ht, hp⟩, rfl, rfl, rfl, rfl⟩
        · rw [if_neg (by simpa using e)] at h
          cases h
          refine .inl ⟨?_, hc, fun x hx => ⟨n, by cases hx; rfl, fun h => e h.symm⟩, rfl, by rw [← hline m hm]⟩
          rintro k ⟨m', t', g1, -, g3, g4⟩
          rw [hm] at g1; cases g1
          rw [ht] at g3; cases g3
          rw [hp] at g4; cases g4
          exact e rfl
      · next hp =>
        cases h1
        cases hnum : s.num with
        | none => rw [hnum] at h2; cases h2
        | some x =>
          obtain ⟨n, rfl, hne⟩ := hs x hnum
          rw [hnum] at h2
          simp only [inSequence, hc] at h2
          cases h2
          rw [if_neg (by simpa using fun h => hne h.symm)] at h
          cases h
          refine .inl ⟨?_, hc, fun x hx => hs x (by simpa [hnum] using hx), rfl, by rw [← hline m hm]⟩
          rintro k ⟨m', t', g1, -, g3, g4⟩
          rw [hm] at g1; cases g1
          rw [ht] at g3; cases g3
          rw [hp] at g4; cases g4

theorem loop_blocks {mk : Marker} (hn : mk.numbered = true) (he : search mk.re [] = none) {s s' : Reb} {c : Nat}
    (hc : s.cur = some c) (hs : ∀ x, s.num = some x → ∃ n, x = some n ∧ n ≠ c + 1) (hw : solidPieces s.work = s.work)
    {ls : List Str} (h : rebuildLoop mk false s ls = .ok s') :
    ∃ l0 bs, ls = l0 ++ bs.flatMap (fun b => b.head :: b.rest) ∧ (∀ l ∈ l0, ∀ k, ¬ MarkAt mk.re G.marknum l k (c + 1)) ∧
      NumberedFrom mk.re G.marknum c bs ∧
      s'.refs ++ finish s'.work = s.refs ++ ((blockPieces (s.work ++ l0) bs).map solidPieces).flatMap finish := by
  induction ls generalizing s c with
  | nil =>
    cases h
    exact ⟨[], [], rfl, by simp, fun i b hb => by simp at hb, by simp [blockPieces, hw]⟩
  | cons l ls ih =>
    obtain ⟨s1, h1, h⟩ := bind_ok h
    rcases step_numbered hn he hc hs h1 with ⟨a1, a2, a3, a4, a5⟩ | ⟨k, a1, a2, a3, a4, a5⟩
    · obtain ⟨l0, bs, b1, b2, b3, b4⟩ := ih a2 a3 (by rw [a5, solid_append, hw, solid_unless2]) h
      refine ⟨l :: l0, bs, by simp [b1], ?_, b3, ?_⟩
      · intro x hx
        rcases List.mem_cons.1 hx with rfl | hx
        · exact a1
        · exact b2 x hx
      · rw [b4, a4, a5, blockPieces_solid]
        simp only [solid_append, solid_cons, solid_unless2, List.append_assoc]
    · obtain ⟨l0, bs, b1, b2, b3, b4⟩ := ih a2 (fun x hx => ⟨c + 1, by rw [a3] at hx; cases hx; rfl, by omega⟩)
        (by rw [a5, solid_unless2]) h
      refine ⟨[], ⟨l, k, l0⟩ :: bs, by simp [b1], by simp, ?_, ?_⟩
      · intro i b hb
        cases i with
        | zero =>
          simp only [List.getElem?_cons_zero, Option.some.injEq] at hb
          subst hb
          exact ⟨a1, b2⟩
        | succ i =>
          have := b3 i b (by simpa using hb)
          rwa [show c + (i + 1) + 1 = c + 1 + i + 1 by omega, show c + (i + 1) + 2 = c + 1 + i + 2 by omega]
      · rw [b4, a4, a5]
        have := blockPieces_solid (w := unlessEmpty (l.drop k) ++ l0) (w' := l.drop k :: l0)
          (by rw [solid_append, solid_cons, solid_unless2]) bs
        simp [blockPieces, this, solid_append, hw, solid_unlessEmpty]

omit [UnicodeDB] in
theorem finish_all2 (gs : List (List Str)) : All2 RefOf (gs.filter fun g => !g.isEmpty) (gs.flatMap finish) := by
  induction gs with
  | nil => exact .nil
  | cons g gs ih =>
    cases g with
    | nil => simpa [finish] using ih
    | cons a g => simpa [finish] using All2.cons (refOf_prepare (by simp)) ih

theorem rebuild_blocks {mk : Marker} (hn : mk.numbered = true) (he : search mk.re [] = none) {sect refs : List Str}
    (h : rebuild sect (some mk) = .ok refs) :
    ∃ l0 bs, sect = l0 ++ bs.flatMap (fun b => b.head :: b.rest) ∧ (∀ l ∈ l0, ∀ k, ¬ MarkAt mk.re G.marknum l k 1) ∧
      NumberedFrom mk.re G.marknum 0 bs ∧
      All2 RefOf (((blockPieces l0 bs).map solidPieces).filter fun g => !g.isEmpty) refs := by
  obtain ⟨s, h1, h⟩ := bind_ok h
  cases h
  obtain ⟨l0, bs, a1, a2, a3, a4⟩ := loop_blocks hn he (c := 0) rfl (by simp) rfl h1
  refine ⟨l0, bs, a1, a2, a3, ?_⟩
  rw [a4]
  exact finish_all2 _

end Py
