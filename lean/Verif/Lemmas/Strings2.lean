import Verif.Lemmas.Strings

/-!
# Lemmas about empty references
-/

open Py Spec
open scoped List

namespace Py

variable [UnicodeDB]

/-- A class of digits and given characters other than white space. -/
def CSet.inked (s : CSet) : Bool :=
  !s.neg && !s.ic && s.items.all fun
    | .ch c => !isSpace c
    | .digit => true
    | _ => false

/-- Every match contains a character other than white space. -/
def Re.inked : Re → Bool
  | .eps => false
  | .fail => true
  | .set s => s.inked
  | .str w => w.any fun c => !isSpace c
  | .seq a b => a.inked || b.inked
  | .alt a b => a.inked && b.inked
  | .star _ _ => false
  | .group _ a => a.inked
  | .look _ _ => false
  | .behind _ _ => false
  | .bos => false
  | .eos => false
  | .wordb => false

theorem inked_set {s : CSet} (h : s.inked = true) {c : Char} (hc : s.mem c = true) : isSpace c = false := by
  simp only [CSet.inked, Bool.and_eq_true, Bool.not_eq_true', List.all_eq_true] at h
  obtain ⟨⟨h1, h2⟩, h3⟩ := h
  simp only [CSet.mem, h1, h2, Bool.false_eq_true, if_false, List.any_eq_true] at hc
  obtain ⟨i, hi, hc⟩ := hc
  have := h3 i hi
  cases i with
  | ch d => simp [CItem.mem] at hc; subst hc; simpa using this
  | digit => exact isDec_not_space hc
  | _ => simp at this

omit [UnicodeDB] in
theorem ink_mem {c : Char} {s : Str} (h : c ∈ s) (hc : isSpace c = false) : ink s ≠ [] := by
  intro e
  have : c ∈ ink s := by simp [ink, h, hc]
  rw [e] at this
  cases this

theorem inked_lang {r : Re} : ∀ {w : Str}, r.inked = true → Lang r w → ink w ≠ [] := by
  induction r with
  | eps => intro w h; cases h
  | fail => intro w _ h; cases h
  | set s =>
    intro w h hl
    obtain ⟨c, rfl, hc⟩ := hl
    exact ink_mem (by simp) (inked_set h hc)
  | str v =>
    intro w h hl
    cases hl
    simp only [Re.inked, List.any_eq_true, Bool.not_eq_true'] at h
    obtain ⟨c, h1, h2⟩ := h
    exact ink_mem h1 h2
  | seq a b iha ihb =>
    intro w h hl
    obtain ⟨u, v, rfl, h1, h2⟩ := hl
    simp only [Re.inked, Bool.or_eq_true] at h
    rw [ink_append]
    rcases h with h | h
    · exact fun e => iha h h1 (List.append_eq_nil_iff.1 e).1
    · exact fun e => ihb h h2 (List.append_eq_nil_iff.1 e).2
  | alt a b iha ihb =>
    intro w h hl
    simp only [Re.inked, Bool.and_eq_true] at h
    exact hl.elim (iha h.1) (ihb h.2)
  | star g a _ => intro w h; cases h
  | group g a ih => intro w h hl; exact ih h hl
  | look neg a _ => intro w h; cases h
  | behind neg cs => intro w h; cases h
  | bos => intro w h; cases h
  | eos => intro w h; cases h
  | wordb => intro w h; cases h

omit [UnicodeDB] in
theorem known_inked {pfx : Re} {r : Re} (h : r ∈ knownMarkers pfx) : r.inked = true := by
  simp only [knownMarkers, Rx.marker_patterns, List.mem_append, List.mem_cons, List.not_mem_nil, or_false] at h
  rcases h with (rfl | rfl | rfl | rfl | rfl | rfl | rfl | rfl | rfl | rfl | rfl | rfl | rfl | rfl) | rfl | rfl | rfl
  all_goals
    simp only [Rx.marker_pattern_0, Rx.marker_pattern_1, Rx.marker_pattern_2, Rx.marker_pattern_3, Rx.marker_pattern_4,
           Rx.marker_pattern_5, Rx.marker_pattern_6, Rx.marker_pattern_7, Rx.marker_pattern_8, Rx.marker_pattern_9,
           Rx.marker_pattern_10, Rx.marker_pattern_11, Rx.marker_pattern_12, Rx.marker_pattern_13,
           Rx.re_reference_line_bracket_markers, Rx.re_reference_line_dot_markers,
           Rx.re_reference_line_number_markers, Re.inked]
    first
      | decide
      | generalize pfx.inked = b; revert b; decide

omit [UnicodeDB] in
theorem first_take {l : Str} (h : NoSpaceFirst l) (k : Nat) : l.take k = [] ∨ ink (l.take k) ≠ [] := by
  cases l with
  | nil => simp
  | cons c l =>
    cases k with
    | zero => simp
    | succ k => exact .inr (ink_mem (c := c) (by simp) (h c rfl))

omit [UnicodeDB] in
theorem first_ink {l : Str} (h : NoSpaceFirst l) : l = [] ∨ ink l ≠ [] := by
  have := first_take h l.length
  rwa [List.take_length] at this

omit [UnicodeDB] in
theorem unless_ink {l : Str} (h : l = [] ∨ ink l ≠ []) : ∀ p ∈ unlessEmpty l, ink p ≠ [] := by
  intro p hp
  unfold unlessEmpty at hp
  rcases h with rfl | h
  · simp at hp
  · split at hp
    · cases hp
    · simp at hp; subst hp; exact h

omit [UnicodeDB] in
theorem finish_ne {w : List Str} (h : ∀ p ∈ w, ink p ≠ []) : ∀ r ∈ finish w, r ≠ [] := by
  intro r hr
  unfold finish at hr
  split at hr
  · cases hr
  · next hw =>
    simp at hr
    subst hr
    exact prepare_ne (by simpa using hw) h

/-- The text from a marker on is nothing or not blank. -/
def MarksInk (mk : Marker) : Prop :=
  ∀ l m, NoSpaceFirst l → search mk.re l = some m → (l.drop m.start = [] ∨ ink (l.drop m.start) ≠ [])

theorem known_marksInk {pfx r : Re} (h : r ∈ knownMarkers pfx) : MarksInk (Marker.of r) := by
  intro l m _ hm
  obtain ⟨a, b, rfl, h2, -⟩ := search_some (known_minLen h) hm
  right
  have h3 := (matchHere_ok h2).1
  have e : m.start = a.length := by simpa using h3.start
  rw [e, List.append_assoc, List.drop_left, ink_append]
  exact fun e => inked_lang (known_inked h) h3.lang (List.append_eq_nil_iff.1 e).1

theorem bos_marksInk {r : Re} {b : Bool} : MarksInk ⟨.bos ⬝ r, b⟩ := by
  intro l m hl hm
  rw [search_bos] at hm
  rw [match_zero hm, List.drop_zero]
  exact first_ink hl

theorem step_inks {mk : Marker} (hk : MarksInk mk) {ind : Bool} {s s' : Reb} {l : Str} (hl : NoSpaceFirst l)
    (h : rebuildStep mk ind s l = .ok s') (h1 : ∀ r ∈ s.refs, r ≠ []) (h2 : ∀ p ∈ s.work, ink p ≠ [])
    (h3 : search mk.re [] = none ∨ ind = false ∧ mk.numbered = false) :
    (∀ r ∈ s'.refs, r ≠ []) ∧ ∀ p ∈ s'.work, ink p ≠ [] := by
  unfold rebuildStep at h
  split at h
  · cases h
    refine ⟨h1, fun p hp => ?_⟩
    simp only [List.mem_append] at hp
    exact hp.elim (h2 p) (unless_ink (first_ink hl) p)
  · next m hm =>
    obtain ⟨num, hn, h⟩ := bind_ok h
    obtain ⟨new, hs, h⟩ := bind_ok h
    cases h
    split
    · refine ⟨fun r hr => ?_, unless_ink (hk l m hl hm)⟩
      simp only [newRef, List.mem_append] at hr
      refine hr.elim (h1 r) (finish_ne (fun p hp => ?_) r)
      simp only [List.mem_append] at hp
      exact hp.elim (h2 p) (unless_ink (first_take hl _) p)
    · next hc =>
      refine ⟨h1, fun p hp => ?_⟩
      simp only [List.mem_append, List.mem_singleton] at hp
      refine hp.elim (h2 p) fun e => ?_
      subst e
      rcases first_ink hl with rfl | hi
      · rcases h3 with h3 | ⟨rfl, h3⟩
        · rw [h3] at hm; cases hm
        · unfold marknum at hn
          rw [h3] at hn
          cases hn
          cases hs
          simp at hc
      · exact hi

theorem loop_inks {mk : Marker} (hk : MarksInk mk) {ind : Bool} (h3 : search mk.re [] = none ∨ ind = false ∧ mk.numbered = false) :
    ∀ {ls : List Str} {s s' : Reb}, (∀ l ∈ ls, NoSpaceFirst l) → rebuildLoop mk ind s ls = .ok s' → (∀ r ∈ s.refs, r ≠ []) →
    (∀ p ∈ s.work, ink p ≠ []) → (∀ r ∈ s'.refs, r ≠ []) ∧ ∀ p ∈ s'.work, ink p ≠ []
  | [], s, s', _, h, h1, h2 => by cases h; exact ⟨h1, h2⟩
  | l :: ls, s, s', hl, h, h1, h2 => by
    obtain ⟨t, ht, h⟩ := bind_ok h
    obtain ⟨k1, k2⟩ := step_inks hk (hl l (by simp)) ht h1 h2 h3
    exact loop_inks hk h3 (fun l hl' => hl l (by simp [hl'])) h k1 k2

theorem rebuild_inks {sect : List Str} (hl : ∀ l ∈ sect, NoSpaceFirst l) {mk : Option Marker}
    (hk : ∀ k, mk = some k → ∃ pfx r, r ∈ knownMarkers pfx ∧ k = Marker.of r) {refs : List Str} (h : rebuild sect mk = .ok refs) :
    ∀ r ∈ refs, r ≠ [] := by
  obtain ⟨s, h1, h2⟩ := bind_ok h
  cases h2
  have key : MarksInk (chooseMarker sect mk).1 ∧ (search (chooseMarker sect mk).1.re [] = none ∨
      (chooseMarker sect mk).2 = false ∧ (chooseMarker sect mk).1.numbered = false) := by
    cases mk with
    | some k =>
      obtain ⟨pfx, r, hr, rfl⟩ := hk k rfl
      exact ⟨known_marksInk hr, .inl (known_empty hr)⟩
    | none =>
      simp only [chooseMarker]
      split
      · exact ⟨bos_marksInk, .inr ⟨rfl, rfl⟩⟩
      · refine ⟨bos_marksInk, .inl ?_⟩
        unfold indentMarker
        rw [search_bos]
        simp [reMatch, matchHere, runK]
  obtain ⟨k1, k2⟩ := loop_inks key.1 key.2 hl h1 (by simp) (by simp)
  intro r hr
  simp only [List.mem_append] at hr
  exact hr.elim (k1 r) (finish_ne k2 r)

end Py
