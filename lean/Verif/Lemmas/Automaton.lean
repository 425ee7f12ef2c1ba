import Verif.Lemmas.Calm

/-!
# Helper lemmas: what an automaton knows after a match

A deterministic automaton reads the text of a match. `stateAfter` computes, from the expression alone, the states in which it can be afterwards.
-/

namespace Py
open Spec
open scoped List

variable [UnicodeDB]

section
variable {Q : Type} [DecidableEq Q] (A : List Char) (δ : Q → Char → Q) (every : List Q)

omit [UnicodeDB] [DecidableEq Q] in
/-- A function, several times. -/
def times (f : List Q → List Q) : Nat → List Q → List Q
  | 0, S => S
  | n + 1, S => times f n (f S)

omit [UnicodeDB] in
/-- The states after a text that an expression matches. -/
def stateAfter : Re → List Q → List Q
  | .eps, S => S
  | .fail, _ => []
  | .set k, S => ((A.filter fun d => @CSet.mem asciiDB k d).flatMap fun d => S.map fun q => δ q d).eraseDups
  | .str w, S => S.map fun q => w.foldl δ q
  | .seq a b, S => stateAfter b (stateAfter a S)
  | .alt a b, S => (stateAfter a S ++ stateAfter b S).eraseDups
  | .star _ a, S =>
    let T := times (fun T => (T ++ stateAfter a T).eraseDups) 6 S
    if S.all T.contains && (stateAfter a T).all T.contains then T else every
  | .group _ a, S => stateAfter a S
  | .look _ _, S => S
  | .behind _ _, S => S
  | .bos, S => S
  | .eos, S => S
  | .wordb, S => S

variable {A δ every}

theorem stateAfter_sound (hA : ∀ c ∈ A, isAscii c = true) (he : ∀ q, q ∈ every) :
    ∀ {r : Re} {w : Str} {S : List Q} {q : Q}, (∀ d ∈ w, d ∈ A) → Lang r w → q ∈ S → w.foldl δ q ∈ stateAfter A δ every r S
  | .eps, w, S, q, _, h, hq => by rw [show w = [] from h]; exact hq
  | .fail, w, S, q, _, h, hq => h.elim
  | .set k, w, S, q, hw, h, hq => by
    obtain ⟨d, rfl, hd⟩ := h
    rw [mem_ascii (hA d (hw d (by simp)))] at hd
    rw [stateAfter, List.mem_eraseDups, List.mem_flatMap]
    exact ⟨d, List.mem_filter.2 ⟨hw d (by simp), hd⟩, List.mem_map.2 ⟨q, hq, rfl⟩⟩
  | .str v, w, S, q, _, h, hq => by
    rw [show w = v from h]
    exact List.mem_map.2 ⟨q, hq, rfl⟩
  | .seq a b, w, S, q, hw, h, hq => by
    obtain ⟨u, v, rfl, h1, h2⟩ := h
    rw [stateAfter, List.foldl_append]
    exact stateAfter_sound hA he (fun c h => hw c (List.mem_append_right _ h)) h2 (stateAfter_sound hA he (fun c h => hw c (List.mem_append_left _ h)) h1 hq)
  | .alt a b, w, S, q, hw, h, hq => by
    rw [stateAfter, List.mem_eraseDups, List.mem_append]
    rcases h with h | h
    · exact .inl (stateAfter_sound hA he hw h hq)
    · exact .inr (stateAfter_sound hA he hw h hq)
  | .star g a, w, S, q, hw, h, hq => by
    obtain ⟨ws, rfl, h⟩ := h
    rw [stateAfter]
    generalize times (fun T => (T ++ stateAfter A δ every a T).eraseDups) 6 S = T
    split
    · rename_i hc
      rw [Bool.and_eq_true, List.all_eq_true, List.all_eq_true] at hc
      replace hq : q ∈ T := by simpa using hc.1 q hq
      have hT : ∀ x, x ∈ stateAfter A δ every a T → x ∈ T := fun x hx => by simpa using hc.2 x hx
      clear hc
      induction ws generalizing q with
      | nil => exact hq
      | cons v ws ih =>
        rw [List.flatten_cons, List.foldl_append]
        refine ih (q := v.foldl δ q) (fun x hx => h x (by simp [hx])) (fun d hd => hw d (by rw [List.flatten_cons]; exact List.mem_append_right _ hd)) ?_
        · exact hT _ (stateAfter_sound hA he (fun d hd => hw d (by rw [List.flatten_cons]; exact List.mem_append_left _ hd)) (h v (by simp)).2 hq)
    · exact he _
  | .group _ a, w, S, q, hw, h, hq => stateAfter_sound (r := a) hA he hw h hq
  | .look _ _, w, S, q, _, h, hq => by rw [show w = [] from h]; exact hq
  | .behind _ _, w, S, q, _, h, hq => by rw [show w = [] from h]; exact hq
  | .bos, w, S, q, _, h, hq => by rw [show w = [] from h]; exact hq
  | .eos, w, S, q, _, h, hq => by rw [show w = [] from h]; exact hq
  | .wordb, w, S, q, _, h, hq => by rw [show w = [] from h]; exact hq

/-- An expression finds nothing in a text whose parts do not take the automaton where a match takes it. -/
theorem stateAfter_finditer (hA : ∀ c ∈ A, isAscii c = true) (he : ∀ q, q ∈ every) {s : Str} (hs : ∀ d ∈ s, d ∈ A) {q f : Q} {r : Re}
    (hr : ((stateAfter A δ every r [q]).all fun x => x == f) = true) (h : ∀ x, x <:+: s → x.foldl δ q ≠ f) : finditer r s = [] := by
  rw [List.eq_nil_iff_forall_not_mem]
  intro m hm
  obtain ⟨p, t, e, ok⟩ := finditer_ok hm
  have hi : m.txt <:+: s := ⟨p, t, e.symm⟩
  have h1 := stateAfter_sound (δ := δ) (S := [q]) (q := q) hA he (fun c hc => hs c (hi.subset hc)) ok.lang (by simp)
  exact h _ hi (by simpa using List.all_eq_true.1 hr _ h1)

end

/-! ### The head of a URL that is not secure -/

/-- What is known of the end of the text that was read: nothing (or an `s`), a blank, another character than `s`, a colon behind another character than `s`,
that it has the head of a URL. -/
inductive UrlHead where
  | unknown | blank | other | colon | found
deriving DecidableEq

omit [UnicodeDB] in
def UrlHead.next : UrlHead → Char → UrlHead
  | .found, _ => .found
  | .unknown, c => if c = ' ' then .blank else if c = ':' ∨ c = '/' ∨ c = 's' then .unknown else .other
  | .blank, c => if c = ' ' then .blank else if c = ':' then .colon else if c = '/' then .found else if c = 's' then .unknown else .other
  | .other, c => if c = ' ' then .blank else if c = ':' then .colon else if c = 's' then .unknown else .other
  | .colon, c => if c = ' ' then .blank else if c = ':' then .colon else if c = '/' then .found else if c = 's' then .unknown else .other

omit [UnicodeDB] in
/-- What the states mean. -/
def UrlHead.holds (w : Str) : UrlHead → Prop
  | .unknown => True
  | .blank => ∃ v, w = v ++ [' ']
  | .other => ∃ v c, w = v ++ [c] ∧ c ≠ 's'
  | .colon => ∃ v c, w = v ++ [c, ':'] ∧ c ≠ 's'
  | .found => py! " /" <:+: w ∨ ∃ c, c ≠ 's' ∧ [c, ':', '/'] <:+: w

omit [UnicodeDB] in
theorem urlHead_step {w : Str} {q : UrlHead} (c : Char) (h : q.holds w) : (q.next c).holds (w ++ [c]) := by
  cases q with
  | found =>
    rcases h with h | ⟨d, h1, h2⟩
    · exact .inl (h.trans (List.prefix_append _ _).isInfix)
    · exact .inr ⟨d, h1, h2.trans (List.prefix_append _ _).isInfix⟩
  | unknown =>
    unfold UrlHead.next
    by_cases h1 : c = ' '
    · simp [h1, UrlHead.holds]
    · by_cases h2 : c = ':' ∨ c = '/' ∨ c = 's'
      · simp [h1, h2, UrlHead.holds]
      · simp only [h1, h2, if_false]
        exact ⟨w, c, rfl, fun e => h2 (.inr (.inr e))⟩
  | blank =>
    obtain ⟨v, rfl⟩ := h
    unfold UrlHead.next
    by_cases h1 : c = ' '
    · simp only [h1]
      exact ⟨_, rfl⟩
    by_cases h2 : c = ':'
    · simp only [h2]
      exact ⟨v, ' ', by simp, by decide⟩
    by_cases h3 : c = '/'
    · simp only [h3]
      exact .inl ⟨v, [], by simp⟩
    by_cases h4 : c = 's'
    · simp only [h4]
      trivial
    simp only [h1, h2, h3, h4, if_false]
    exact ⟨_, c, rfl, h4⟩
  | other =>
    obtain ⟨v, d, rfl, hd⟩ := h
    unfold UrlHead.next
    by_cases h1 : c = ' '
    · simp only [h1]
      exact ⟨_, rfl⟩
    by_cases h2 : c = ':'
    · simp only [h2]
      exact ⟨v, d, by simp, hd⟩
    by_cases h4 : c = 's'
    · simp only [h4]
      trivial
    simp only [h1, h2, h4, if_false]
    exact ⟨_, c, rfl, h4⟩
  | colon =>
    obtain ⟨v, d, rfl, hd⟩ := h
    unfold UrlHead.next
    by_cases h1 : c = ' '
    · simp only [h1]
      exact ⟨_, rfl⟩
    by_cases h2 : c = ':'
    · simp only [h2]
      exact ⟨v ++ [d], ':', by simp, by decide⟩
    by_cases h3 : c = '/'
    · simp only [h3]
      exact .inr ⟨d, hd, v, [], by simp⟩
    by_cases h4 : c = 's'
    · simp only [h4]
      trivial
    simp only [h1, h2, h3, h4, if_false]
    exact ⟨_, c, rfl, h4⟩

omit [UnicodeDB] in
theorem urlHead_holds (w : Str) : (w.foldl UrlHead.next .unknown).holds w := by
  have key : ∀ (w v : Str) (q : UrlHead), q.holds v → (w.foldl UrlHead.next q).holds (v ++ w) := by
    intro w
    induction w with
    | nil => intro v q h; simpa using h
    | cons c w ih =>
      intro v q h
      have := ih (v ++ [c]) (q.next c) (urlHead_step c h)
      simpa using this
  simpa using key w [] .unknown trivial

/-- Nothing is repaired in a text without a slash behind a blank and without `:/` behind a character other than `s`. -/
theorem secure_repair {A : List Char} (hA : ∀ c ∈ A, isAscii c = true) {s : Str} (hs : ∀ d ∈ s, d ∈ A) (h1 : ¬ py! " /" <:+: s)
    (h2 : ∀ c, [c, ':', '/'] <:+: s → c = 's')
    (hr : (Rx.url_repair_patterns.all fun r => (stateAfter A UrlHead.next [.unknown, .blank, .other, .colon, .found] r [.unknown]).all fun x => x == .found) = true) :
    repairUrls s = s := by
  unfold repairUrls
  generalize Rx.url_repair_patterns = rs at hr
  induction rs with
  | nil => rfl
  | cons r rs ih =>
    rw [List.all_cons, Bool.and_eq_true] at hr
    rw [List.foldl_cons, sub_of_no_match]
    · exact ih hr.2
    · refine stateAfter_finditer hA (fun q => by cases q <;> simp) hs hr.1 ?_
      intro x hx e
      have := urlHead_holds x
      rw [e] at this
      rcases this with h | ⟨c, hc, h⟩
      · exact h1 (h.trans hx)
      · exact hc (h2 c (h.trans hx))

end Py
