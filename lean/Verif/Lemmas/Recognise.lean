import Verif.Lemmas.Numeration
import Verif.Lemmas.Post

/-!
# Helper lemmas: exhibiting a match of a pattern
-/

namespace Py
open Spec

/-- The parts of a sequence. -/
def Re.flat : Re → List Re
  | .seq a b => a.flat ++ b.flat
  | .eps => []
  | r => [r]

/-- The parts match consecutive pieces. -/
def SemL [UnicodeDB] : List Re → Str → Str → Str → Prop
  | [], _, w, _ => w = []
  | r :: rs, pre, w, post => ∃ u v, w = u ++ v ∧ Sem r pre u (v ++ post) ∧ SemL rs (u.reverse ++ pre) v post

theorem semL_append [UnicodeDB] (xs ys : List Re) (pre w post : Str) :
    SemL (xs ++ ys) pre w post ↔ ∃ u v, w = u ++ v ∧ SemL xs pre u (v ++ post) ∧ SemL ys (u.reverse ++ pre) v post := by
  induction xs generalizing pre w with
  | nil =>
    simp only [List.nil_append, SemL]
    constructor
    · intro h; exact ⟨[], w, rfl, rfl, by simpa using h⟩
    · rintro ⟨u, v, rfl, rfl, h⟩; simpa using h
  | cons x xs ih =>
    simp only [List.cons_append, SemL]
    constructor
    · rintro ⟨u, v, rfl, h1, h2⟩
      obtain ⟨u', v', rfl, h3, h4⟩ := (ih _ _).1 h2
      exact ⟨u ++ u', v', by simp, ⟨u, u', rfl, by simpa using h1, h3⟩, by simpa using h4⟩
    · rintro ⟨_, v, rfl, ⟨u, u', rfl, h1, h2⟩, h3⟩
      exact ⟨u, u' ++ v, by simp, by simpa using h1, (ih _ _).2 ⟨u', v, rfl, h2, by simpa using h3⟩⟩

theorem semL_one [UnicodeDB] (r : Re) (pre w post : Str) : SemL [r] pre w post ↔ Sem r pre w post := by
  simp only [SemL]
  constructor
  · rintro ⟨u, v, rfl, h, rfl⟩; simpa using h
  · intro h; exact ⟨w, [], by simp, by simpa using h, rfl⟩

theorem sem_flat [UnicodeDB] (r : Re) (pre w post : Str) : SemL r.flat pre w post ↔ Sem r pre w post := by
  induction r generalizing pre w post with
  | seq a b iha ihb => simp only [Re.flat, semL_append, Sem, iha, ihb]
  | eps => rfl
  | _ => exact semL_one _ _ _ _

theorem semL_skip [UnicodeDB] {r : Re} {rs : List Re} {pre w post : Str} (h : Sem r pre [] (w ++ post))
    (h' : SemL rs pre w post) : SemL (r :: rs) pre w post := ⟨[], w, rfl, h, h'⟩

theorem semL_take [UnicodeDB] {r : Re} {rs : List Re} {pre u v post : Str} (h : Sem r pre u (v ++ post))
    (h' : SemL rs (u.reverse ++ pre) v post) : SemL (r :: rs) pre (u ++ v) post := ⟨u, v, rfl, h, h'⟩

theorem sem_opt_skip [UnicodeDB] {a : Re} {pre post : Str} : Sem (.alt a .eps) pre [] post := .inr rfl
theorem sem_opt_take [UnicodeDB] {a : Re} {pre w post : Str} (h : Sem a pre w post) : Sem (.alt a .eps) pre w post := .inl h
theorem sem_star_skip [UnicodeDB] {g : Bool} {a : Re} {pre post : Str} : Sem (.star g a) pre [] post := ⟨[], rfl, trivial⟩

theorem sem_plus_digit [UnicodeDB] {pre w post : Str} (h : Decimals w) : Sem (Re.plus Re.digit) pre w post := by
  obtain ⟨hne, hd⟩ := h
  cases w with
  | nil => exact absurd rfl hne
  | cons c w =>
    refine ⟨[c], w, rfl, ⟨c, rfl, ?_⟩, ?_⟩
    · simpa [CSet.mem, CItem.mem] using hd c (by simp)
    · exact sem_star_set.2 fun d hm => by simpa [CSet.mem, CItem.mem] using hd d (by simp [hm])

theorem isDec_isWord [UnicodeDB] {c : Char} (h : isDec c = true) : isWord c = true := by
  unfold isDec decVal at h
  unfold isWord
  split at h
  · rename_i ha
    rw [if_pos ha]
    split at h
    · rename_i hd; simp [hd]
    · cases h
  · rename_i ha
    rw [if_neg ha]
    have h1 := UnicodeDB.dec_digit c h
    simp [UnicodeDB.digit_word c h1, UnicodeDB.digit_nspace c h1]

/-- A single blank is a separator. -/
theorem sem_sep [UnicodeDB] {k : CSet} {pre post : Str} (hk : k.mem ' ' = true) :
    Sem ((.star true Re.space) ⬝ (.set k) ⬝ (.star true Re.space)) pre [' '] post :=
  ⟨[], [' '], rfl, sem_star_skip, [' '], [], rfl, ⟨' ', rfl, hk⟩, sem_star_skip⟩

/-- The head is a digit. -/
theorem decimals_head [UnicodeDB] {v : Str} (h : Decimals v) : ∃ c w, v = c :: w ∧ isDec c = true := by
  cases v with
  | nil => exact absurd rfl h.1
  | cons c w => exact ⟨c, w, rfl, h.2 c (by simp)⟩

theorem isYear_decimals [UnicodeDB] {y : Str} (h : IsYear y) : Decimals y := by
  obtain ⟨c, a, b, rfl, hc, ha, hb⟩ := h
  refine ⟨by simp, ?_⟩
  intro x hx
  simp only [List.mem_append, List.mem_cons, List.not_mem_nil, or_false] at hx
  rcases hx with hx | rfl | rfl
  · rcases hc with rfl | rfl <;> (simp at hx; rcases hx with rfl | rfl <;> rfl)
  · exact ha
  · exact hb

theorem sem_year_group [UnicodeDB] {g : Nat} {pre y post : Str} (h : IsYear y) : Sem (.group g yearBody) pre y post := by
  obtain ⟨c, a, b, rfl, hc, ha, hb⟩ := h
  change Sem yearBody pre _ post
  refine ⟨[], c ++ [a, b], rfl, sem_opt_skip, c, [a, b], rfl, ?_, [a], [b], rfl, ⟨a, rfl, ?_⟩, ⟨b, rfl, ?_⟩⟩
  · rcases hc with rfl | rfl
    · exact .inl rfl
    · exact .inr rfl
  · simpa [CSet.mem, CItem.mem] using ha
  · simpa [CSet.mem, CItem.mem] using hb

/-- No digit comes next. -/
theorem sem_look_digit [UnicodeDB] {pre post : Str} (h : NoDigitFirst post) :
    Sem (.look true (Re.digit)) pre [] post := by
  refine ⟨rfl, by simp, ?_⟩
  rintro ⟨u, v, rfl, c, rfl, hc⟩
  have := h c rfl
  simp [CSet.mem, CItem.mem, this] at hc

/-- No digit comes before. -/
theorem sem_behind_digit [UnicodeDB] {pre post : Str} (h : NoDigitFirst pre) :
    Sem (.behind true [⟨false, false, [.digit]⟩]) pre [] post := by
  refine ⟨rfl, by simp, ?_⟩
  intro hb
  cases pre with
  | nil => simp [behindOk] at hb
  | cons c pre =>
    have := h c rfl
    simp [behindOk, CSet.mem, CItem.mem, this] at hb

theorem sem_behind_volume [UnicodeDB] {pre post : Str} (h : NoDigitFirst pre) (h' : pre.head? ≠ some '/') :
    Sem (.behind true [⟨false, false, [.ch '/', .digit]⟩]) pre [] post := by
  refine ⟨rfl, by simp, ?_⟩
  intro hb
  cases pre with
  | nil => simp [behindOk] at hb
  | cons c pre =>
    have h1 := h c rfl
    have h2 : c ≠ '/' := by simpa using h'
    simp [behindOk, CSet.mem, CItem.mem, h1] at hb
    exact absurd hb h2

theorem sem_wordb [UnicodeDB] {pre v post : Str} (h : Decimals v) (hp : headWord pre = false) : Sem .wordb pre [] (v ++ post) := by
  obtain ⟨c, w, rfl, hc⟩ := decimals_head h
  refine ⟨rfl, ?_⟩
  rw [hp]
  simp [headWord, isDec_isWord hc]

theorem mem_digit_ascii [UnicodeDB] {c : Char} (h : isAscii c = true) (h' : isAsciiDigit c = false) : isDec c = false := by
  simp [isDec, decVal, h, h']

theorem space_not_dec [UnicodeDB] {c : Char} (h : isSpace c = true) : isDec c = false := by
  cases hd : isDec c with
  | false => rfl
  | true => rw [isDec_not_space hd] at h; cases h

theorem space_not_word [UnicodeDB] {c : Char} (h : isSpace c = true) : isWord c = false := by
  unfold isWord
  split
  · rename_i ha
    simp only [isAscii, decide_eq_true_eq] at ha
    have hs : (9 ≤ c.toNat ∧ c.toNat ≤ 13) ∨ (28 ≤ c.toNat ∧ c.toNat ≤ 32) := by
      simp only [isSpace, Bool.or_eq_true, Bool.and_eq_true, decide_eq_true_eq, beq_iff_eq] at h
      omega
    have hu : c ≠ '_' := by
      rintro rfl
      revert hs; decide
    simp only [isAsciiDigit, isAsciiUpper, isAsciiLower, Bool.or_eq_false_iff, Bool.and_eq_false_iff, decide_eq_false_iff_not,
      beq_eq_false_iff_ne]
    exact ⟨⟨⟨by omega, by omega⟩, by omega⟩, hu⟩
  · simp [h]

theorem spaces_rev [UnicodeDB] {s : Str} (h : Spaces s) :
    headWord s.reverse = false ∧ NoDigitFirst s.reverse ∧ s.reverse.head? ≠ some '/' := by
  cases hs : s.reverse with
  | nil => exact ⟨rfl, by intro c h; simp at h, by simp⟩
  | cons c t =>
    have hc : isSpace c = true := h c (by rw [← List.mem_reverse, hs]; simp)
    refine ⟨space_not_word hc, ?_, ?_⟩
    · intro d hd; simp at hd; subst hd; exact space_not_dec hc
    · simp; rintro rfl; revert hc; decide

/-- No digit follows a given ASCII character that is not one. -/
theorem noDigitFirst_ascii [UnicodeDB] {c : Char} (s : Str) (h : isAscii c = true) (h' : isAsciiDigit c = false) :
    NoDigitFirst (c :: s) := by
  intro d hd; simp at hd; subst hd; exact mem_digit_ascii h h'

/-- A page without ornaments. -/
theorem sem_page [UnicodeDB] {j a b c d l w e x : Re} {g : Nat} {pre p post : Str} (hp : Decimals p) :
    Sem (.alt j (Re.opt a ⬝ Re.opt b ⬝ Re.opt c ⬝ Re.opt d ⬝
      .group g (Re.opt l ⬝ Re.opt w ⬝ Re.plus Re.digit ⬝ Re.opt e) ⬝ Re.opt x)) pre p post := by
  refine .inr ⟨[], p, rfl, sem_opt_skip, [], p, rfl, sem_opt_skip, [], p, rfl, sem_opt_skip, [], p, rfl, sem_opt_skip, p, [],
    by simp, ?_, sem_opt_skip⟩
  exact ⟨[], p, rfl, sem_opt_skip, [], p, rfl, sem_opt_skip, p, [], by simp, sem_plus_digit hp, sem_opt_skip⟩

/-- Volume, year in brackets, page. -/
theorem form_vol_yr_page [UnicodeDB] (s v y p rest : Str) (hs : Spaces s) (hv : Decimals v) (hy : IsYear y) (hp : Decimals p) :
    Sem Rx.re_numeration_vol_yr_page [] (s ++ (v ++ ([' '] ++ (['('] ++ (y ++ ([')'] ++ ([' '] ++ p))))))) rest := by
  rw [← sem_flat]
  obtain ⟨k1, k2, k3⟩ := spaces_rev hs
  refine semL_take (sem_spaces.2 hs) <| semL_skip sem_opt_skip <| semL_skip sem_star_skip <|
    semL_skip (by rw [List.append_assoc]; exact sem_wordb hv (by simpa using k1)) <| semL_skip sem_opt_skip <| semL_skip sem_star_skip <|
    semL_skip (sem_behind_volume (by simpa using k2) (by simpa using k3)) <|
    semL_take (.inl ⟨[], v, rfl, sem_opt_skip, .inl (sem_plus_digit hv)⟩) <|
    semL_skip sem_opt_skip <| semL_take (.inl (sem_sep (by rfl))) <|
    semL_take (sem_opt_take ⟨_, rfl, by rfl⟩) <| semL_skip sem_opt_skip <| semL_skip sem_opt_skip <|
    semL_skip (sem_behind_digit (noDigitFirst_ascii _ rfl rfl)) <|
    semL_take (sem_year_group hy) <| semL_skip sem_opt_skip <|
    semL_skip (sem_look_digit (noDigitFirst_ascii _ rfl rfl)) <|
    semL_take (sem_opt_take ⟨_, rfl, by rfl⟩) <| semL_take (.inl (sem_sep (by rfl))) <|
    (semL_one _ _ _ _).2 (sem_page hp)

/-- Volume, page, year in brackets. -/
theorem form_vol_page_yr [UnicodeDB] (s v y p rest : Str) (hs : Spaces s) (hv : Decimals v) (hy : IsYear y) (hp : Decimals p) :
    Sem Rx.re_numeration_vol_page_yr [] (s ++ (v ++ ([' '] ++ (p ++ ([' '] ++ (['('] ++ (y ++ [')']))))))) rest := by
  rw [← sem_flat]
  obtain ⟨k1, k2, k3⟩ := spaces_rev hs
  refine semL_take (sem_spaces.2 hs) <| semL_skip sem_opt_skip <| semL_skip sem_star_skip <|
    semL_skip (by rw [List.append_assoc]; exact sem_wordb hv (by simpa using k1)) <| semL_skip sem_opt_skip <| semL_skip sem_star_skip <|
    semL_skip (sem_behind_volume (by simpa using k2) (by simpa using k3)) <|
    semL_take (.inl ⟨[], v, rfl, sem_opt_skip, .inl (sem_plus_digit hv)⟩) <|
    semL_skip sem_opt_skip <| semL_skip sem_opt_skip <| semL_skip sem_star_skip <| semL_take ⟨_, rfl, by rfl⟩ <|
    semL_skip sem_star_skip <| semL_take (sem_page hp) <| semL_take (.inl (sem_sep (by rfl))) <|
    semL_take (sem_opt_take ⟨_, rfl, by rfl⟩) <| semL_skip sem_opt_skip <| semL_skip sem_opt_skip <|
    semL_skip (sem_behind_digit (noDigitFirst_ascii _ rfl rfl)) <|
    semL_take (sem_year_group hy) <| semL_skip sem_opt_skip <|
    semL_skip (sem_look_digit (noDigitFirst_ascii _ rfl rfl)) <|
    (semL_one _ _ _ _).2 (sem_opt_take ⟨_, rfl, by rfl⟩)

/-- Year, volume, page. -/
theorem form_yr_vol_page [UnicodeDB] (s v y p rest : Str) (hs : Spaces s) (hv : Decimals v) (hy : IsYear y) (hp : Decimals p) :
    Sem Rx.re_numeration_yr_vol_page [] (s ++ (y ++ ([' '] ++ (v ++ ([' '] ++ p))))) rest := by
  rw [← sem_flat]
  obtain ⟨k1, k2, k3⟩ := spaces_rev hs
  refine semL_take (sem_spaces.2 hs) <| semL_skip sem_opt_skip <| semL_skip sem_star_skip <|
    semL_skip sem_opt_skip <| semL_skip sem_opt_skip <| semL_skip sem_opt_skip <|
    semL_skip (sem_behind_digit (by simpa using k2)) <|
    semL_take (sem_year_group hy) <| semL_skip sem_opt_skip <|
    semL_skip (sem_look_digit (noDigitFirst_ascii _ rfl rfl)) <| semL_skip sem_opt_skip <|
    semL_take (.inl (sem_sep (by rfl))) <|
    semL_skip (by rw [List.append_assoc]; exact sem_wordb hv (space_not_word rfl)) <| semL_skip sem_opt_skip <| semL_skip sem_star_skip <|
    semL_skip (sem_behind_volume (noDigitFirst_ascii _ rfl rfl) (by simp)) <|
    semL_take (.inl ⟨[], v, rfl, sem_opt_skip, .inl (sem_plus_digit hv)⟩) <|
    semL_skip sem_opt_skip <| semL_skip sem_star_skip <| semL_take ⟨_, rfl, by rfl⟩ <|
    semL_skip sem_star_skip <| (semL_one _ _ _ _).2 (sem_page hp)

theorem recognised [UnicodeDB] {r : Re} {w rest : Str} (hr : r ∈ numerationPatterns) (h : Sem r [] w rest) :
    ∃ m, firstMatch numerationPatterns (w ++ rest) = some m := by
  obtain ⟨m, hm⟩ := (matchHere_isSome r [] (w ++ rest)).2 ⟨w, rest, rfl, h⟩
  cases hf : firstMatch numerationPatterns (w ++ rest) with
  | some m => exact ⟨m, rfl⟩
  | none =>
    have := List.findSome?_eq_none_iff.1 hf r hr
    rw [reMatch, hm] at this
    cases this

end Py
