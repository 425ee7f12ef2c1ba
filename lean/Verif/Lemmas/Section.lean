import Verif.Lemmas.Numbered3
import Verif.Lemmas.Find
import Verif.Lemmas.Boundary
import Verif.Spec.Section

/-!
# Lemmas about documents with a numbered list of references
-/

open Py Spec
open scoped List

namespace Py

variable [UnicodeDB]

/-! ### The marker of the section -/

/-- The pattern of numbers in square brackets at the beginning of a line. -/
def lineNumber : Re := Rx.marker_pattern_0 .eps

theorem lineNumber_here {d t pre : Str} (hd : Decimals d) (adv : Bool) :
    ∃ m, matchHere lineNumber adv pre ('[' :: d ++ ']' :: t) = some m ∧ m.start = pre.length ∧
      m.txt = '[' :: d ++ [']'] ∧ m.group G.marknum = some d := by
  have hspace : ∀ {c : Char}, CSet.mem ⟨false, false, [.space]⟩ c = isSpace c := by simp [CSet.mem, CItem.mem]
  have hdigit : ∀ {c : Char}, CSet.mem ⟨false, false, [.digit]⟩ c = isDec c := by simp [CSet.mem, CItem.mem]
  have hns : ∀ c, (d ++ ']' :: t).head? = some c → CSet.mem ⟨false, false, [.space]⟩ c = false := by
    intro c hc
    obtain ⟨x, w, rfl, hx⟩ := decimals_head hd
    cases hc
    rw [hspace]
    exact isDec_not_space hx
  have hch : ∀ c, CSet.mem ⟨false, false, [.ch c]⟩ c = true := by simp [CSet.mem, CItem.mem]
  unfold matchHere lineNumber Rx.marker_pattern_0
  rw [runK_seq_eq]
  simp only [Re.ch, Re.space, Re.digit]
  refine runK_star_all (w := []) (rest := '[' :: d ++ ']' :: t) (by simp) (fun c hc => by cases hc; rw [hspace]; rfl) ?_
  rw [runK_seq_eq]
  simp only [runK.eq_1]
  rw [runK_group_eq, runK_seq_eq]
  simp only [runK.eq_3, List.cons_append, hch, if_true]
  rw [runK_seq_eq]
  refine runK_star_all (w := []) (by simp) hns ?_
  rw [runK_seq_eq, runK_group_eq]
  refine runK_plus_all (w := d) (rest := ']' :: t) hd.1 (fun c hc => by rw [hdigit]; exact hd.2 c hc) ?_ ?_
  · intro c hc; cases hc; rw [hdigit]; rfl
  rw [runK_seq_eq]
  refine runK_star_all (w := []) (rest := ']' :: t) (by simp) ?_ ?_
  · intro c hc; cases hc; rw [hspace]; rfl
  simp only [runK.eq_3, hch, if_true]
  rw [if_neg (by simp; omega)]
  refine ⟨_, rfl, rfl, ?_, ?_⟩
  · have e1 : List.length d + (List.length pre + 1) + 1 - List.length pre = (']' :: (List.reverse d ++ ['['])).length := by simp; omega
    have e2 : (']' :: (List.reverse d ++ '[' :: pre)) = (']' :: (List.reverse d ++ ['['])) ++ pre := by simp
    simp [mkMatch]
    rw [e1, e2, List.take_left]
  · simp [mkMatch, Match.group, G.marknum, G.mark]

theorem lineNumber_lang {w : Str} (h : Lang lineNumber w) :
    ∃ s a n b, Spaces s ∧ Spaces a ∧ Decimals n ∧ Spaces b ∧ w = s ++ ('[' :: a ++ n ++ b ++ [']']) := by
  have hch : ∀ {c d : Char}, CSet.mem ⟨false, false, [.ch c]⟩ d = true → d = c := by intro c d; simp [CSet.mem, CItem.mem]
  have hsp : ∀ {w : Str}, Lang (.star true Re.space) w → Spaces w := by
    intro w h
    refine lang_over (P := fun c => isSpace c = true) _ ?_ w h
    simp [Re.space, Re.over, CSet.mem, CItem.mem]
  obtain ⟨s, v, rfl, h0, u0, v0, rfl, he, u1, v1, rfl, h1, u2, v2, rfl, h2, u3, v3, rfl, h3, u4, v4, rfl, h4, h5⟩ := h
  have he : u0 = [] := he
  subst he
  obtain ⟨c, rfl, hc⟩ := h1
  obtain ⟨d, rfl, hd⟩ := h5
  refine ⟨s, u2, u3, u4, hsp h0, hsp h2, lang_plus_digit h3, hsp h4, ?_⟩
  rw [hch hc, hch hd]
  simp

theorem lineNumber_brackets : Brackets lineNumber := by
  refine ⟨rfl, fun n t => ?_, fun l h => ?_⟩
  · obtain ⟨m, h1, h2, h3, h4⟩ := lineNumber_here (t := t) (pre := []) (decimal_decimals n) false
    refine ⟨m, search_start (by rw [h3]; simp) ?_, h2, h4⟩
    simpa [bracketed] using h1
  · cases hs : search lineNumber l with
    | none => rfl
    | some m =>
      obtain ⟨ps, qs, hsc⟩ := mem_finditer (search_mem hs)
      have ok := scan_hit_ok hsc
      obtain ⟨s, a, n, b, -, ha, hn, hb, e⟩ := lineNumber_lang ok.lang
      have e2 := scan_orig lineNumber l
      rw [hsc] at e2
      refine absurd ?_ (h a n b ha hn hb)
      simp only [List.flatMap_append, List.flatMap_cons, Piece.orig] at e2
      rw [← e2, e]
      exact ⟨List.flatMap Piece.orig ps ++ s, List.flatMap Piece.orig qs, by simp⟩

theorem lineNumber_strip (n : Nat) (t : Str) :
    ∃ m, reMatch lineNumber (strip (bracketed n ++ t)) = some m ∧ m.txt = bracketed n ∧ m.group G.marknum = some (decimal n) := by
  obtain ⟨t', ht⟩ := strip_bracketed n t
  obtain ⟨m, h1, h2, h3, h4⟩ := lineNumber_here (t := t') (pre := []) (decimal_decimals n) false
  refine ⟨m, ?_, h3, h4⟩
  rw [ht]
  simpa [bracketed, reMatch] using h1

theorem lineNumber_free {l : Str} (h : NoBracketNumber l) : reMatch lineNumber (strip l) = none := by
  cases hm : reMatch lineNumber (strip l) with
  | none => rfl
  | some m =>
    have ok := reMatch_ok hm
    obtain ⟨s, a, n, b, -, ha, hn, hb, e⟩ := lineNumber_lang ok.lang
    obtain ⟨rest, h1, -⟩ := matchHere_sem hm
    obtain ⟨x, y, h2, -⟩ := trimmed_strip l
    refine absurd ?_ (h a n b ha hn hb)
    rw [h2, h1, e]
    exact ⟨x ++ s, rest ++ y, by simp⟩

/-! ### Lines without marks -/

/-- A character that a mark of a reference can begin with or contains. -/
def markChar (c : Char) : Bool := isDec c || c == '[' || c == '{' || c == '<' || c == '(' || c == '*'

/-- Every match contains a digit or an opening bracket or a star. -/
def Re.needsMark : Re → Bool
  | .set ⟨false, false, [.digit]⟩ => true
  | .set ⟨false, false, [.ch c]⟩ => c == '[' || c == '{' || c == '<' || c == '(' || c == '*'
  | .seq a b => a.needsMark || b.needsMark
  | .group _ a => a.needsMark
  | _ => false

theorem needsMark_lang (r : Re) : r.needsMark = true → ∀ w, Lang r w → ∃ c ∈ w, markChar c = true := by
  induction r with
  | set k =>
    intro h w hw
    unfold Re.needsMark at h
    split at h
    all_goals try contradiction
    · next hk =>
      cases hk
      obtain ⟨c, rfl, hc⟩ := hw
      have : isDec c = true := by simpa [CSet.mem, CItem.mem] using hc
      exact ⟨c, by simp, by simp [markChar, this]⟩
    · next c hk =>
      cases hk
      obtain ⟨x, rfl, hx⟩ := hw
      have : x = c := by simpa [CSet.mem, CItem.mem] using hx
      subst this
      refine ⟨x, by simp, ?_⟩
      simp only [markChar, Bool.or_eq_true] at h ⊢
      simp only [or_assoc] at h ⊢
      exact .inr h
  | seq a b iha ihb =>
    rintro h w ⟨u, v, rfl, h1, h2⟩
    simp only [Re.needsMark, Bool.or_eq_true] at h
    rcases h with h | h
    · obtain ⟨c, hc, hm⟩ := iha h u h1
      exact ⟨c, by simp [hc], hm⟩
    · obtain ⟨c, hc, hm⟩ := ihb h v h2
      exact ⟨c, by simp [hc], hm⟩
  | group g a ih => exact ih
  | _ => intro h; cases h

omit [UnicodeDB] in
theorem markers_need (pfx : Re) : ∀ r ∈ Rx.marker_patterns pfx, r.needsMark = true := by
  intro r hr
  simp only [Rx.marker_patterns, List.mem_cons, List.not_mem_nil, or_false] at hr
  rcases hr with rfl | rfl | rfl | rfl | rfl | rfl | rfl | rfl | rfl | rfl | rfl | rfl | rfl | rfl
  all_goals
    simp only [Rx.marker_pattern_0, Rx.marker_pattern_1, Rx.marker_pattern_2, Rx.marker_pattern_3, Rx.marker_pattern_4, Rx.marker_pattern_5,
      Rx.marker_pattern_6, Rx.marker_pattern_7, Rx.marker_pattern_8, Rx.marker_pattern_9, Rx.marker_pattern_10, Rx.marker_pattern_11,
      Rx.marker_pattern_12, Rx.marker_pattern_13, Re.needsMark, Re.ch, Re.space, Re.digit, Re.plus, Re.word, Re.opt, Re.upTo]
    simp

theorem matchList_none {l : Str} {rs : List Re} (h : ∀ r ∈ rs, reMatch r l = none) : matchList l rs = none := by
  induction rs with
  | nil => rfl
  | cons r rs ih =>
    unfold matchList
    rw [h r (by simp)]
    exact ih fun r hr => h r (by simp [hr])

theorem noMarks {l : Str} (h : ∀ c ∈ l, markChar c = false) (pfx : Re) : matchList l (Rx.marker_patterns pfx) = none := by
  refine matchList_none fun r hr => ?_
  cases hm : reMatch r l with
  | none => rfl
  | some m =>
    obtain ⟨rest, h1, h2⟩ := matchHere_sem hm
    obtain ⟨c, hc, hk⟩ := needsMark_lang r (markers_need pfx r hr) _ (sem_lang _ _ _ _ h2)
    have := h c (by rw [h1]; simp [hc])
    rw [hk] at this
    cases this

end Py
