import Verif.Lemmas.Document
import Verif.Lemmas.Forward
import Verif.Spec.PdfText

/-!
# Lemmas about the text of a PDF file
-/

open Py Spec
open scoped List

namespace Py

/-! ### Bytes and characters -/

theorem newline_byte {c : Char} (h : c ≠ '\n') : (10 : UInt8) ∉ String.utf8EncodeChar c := by
  have hv : c.val.toNat ≠ 10 := by
    intro e
    apply h
    apply Char.ext
    apply UInt32.toNat_inj.1
    rw [e]; rfl
  have key : ∀ n : Nat, (10 : UInt8) = UInt8.ofNat n → n % 256 = 10 := by
    intro n e
    have := congrArg UInt8.toNat e
    simpa using this.symm
  unfold String.utf8EncodeChar
  intro hm
  simp only at hm
  split at hm
  · have := key c.val.toNat (List.mem_singleton.1 hm)
    omega
  · split at hm
    · simp only [List.mem_cons, List.not_mem_nil, or_false] at hm
      rcases hm with e | e <;> have := key _ e <;> omega
    · split at hm
      · simp only [List.mem_cons, List.not_mem_nil, or_false] at hm
        rcases hm with e | e | e <;> have := key _ e <;> omega
      · simp only [List.mem_cons, List.not_mem_nil, or_false] at hm
        rcases hm with e | e | e | e <;> have := key _ e <;> omega

theorem decode_encode (t : Str) : decodeUtf8 (utf8 t) = .ok t := by
  have e : (ByteArray.mk (utf8 t).toArray) = t.utf8Encode := by
    rw [List.utf8Encode]
    apply ByteArray.ext
    rw [List.data_toByteArray]
    rfl
  unfold decodeUtf8
  rw [e, List.utf8Decode?_utf8Encode]

theorem byteLines_line {l s : Bytes} (h : 10 ∉ l) : byteLines (l ++ 10 :: s) = (l ++ [10]) :: byteLines s := by
  induction l with
  | nil => simp [byteLines]
  | cons c l ih =>
    simp only [List.mem_cons, not_or] at h
    rw [List.cons_append, byteLines, if_neg fun e => h.1 e.symm, ih h.2]
    rfl

theorem byteLines_last {l : Bytes} (h : 10 ∉ l) (hn : l ≠ []) : byteLines l = [l] := by
  induction l with
  | nil => exact absurd rfl hn
  | cons c l ih =>
    simp only [List.mem_cons, not_or] at h
    rw [byteLines, if_neg fun e => h.1 e.symm]
    cases l with
    | nil => rfl
    | cons d l => rw [ih h.2 (by simp)]

theorem utf8_line {l : Str} (h : '\n' ∉ l) : 10 ∉ utf8 l := by
  intro hm
  obtain ⟨c, hc, hb⟩ := List.mem_flatMap.1 hm
  exact newline_byte (fun e => h (e ▸ hc)) hb

theorem utf8_append (a b : Str) : utf8 (a ++ b) = utf8 a ++ utf8 b := List.flatMap_append

theorem utf8_nil {a : Str} (h : utf8 a = []) : a = [] := by
  cases a with
  | nil => rfl
  | cons c a =>
    have : String.utf8EncodeChar c = [] := (List.append_eq_nil_iff.1 h).1
    exact absurd this String.utf8EncodeChar_ne_nil

/-- A text is its first line, or its first line with an end and the rest. -/
theorem line_cases (t : Str) : '\n' ∉ t ∨ ∃ l s, '\n' ∉ l ∧ t = l ++ '\n' :: s := by
  by_cases h : '\n' ∈ t
  · obtain ⟨l, s, e, hl⟩ := List.eq_append_cons_of_mem h
    exact .inr ⟨l, s, hl, e⟩
  · exact .inl h

theorem readLines_last {l : Str} (h : '\n' ∉ l) (hn : l ≠ []) : readLines l = [l] := by
  induction l with
  | nil => exact absurd rfl hn
  | cons c l ih =>
    simp only [List.mem_cons, not_or] at h
    rw [readLines, if_neg fun e => h.1 e.symm]
    cases l with
    | nil => rfl
    | cons d l => rw [ih h.2 (by simp)]

theorem byteLines_utf8 : ∀ (n : Nat) (t : Str), t.length ≤ n → byteLines (utf8 t) = (readLines t).map utf8
  | n, t, hn => by
    rcases line_cases t with h | ⟨l, s, hl, rfl⟩
    · by_cases h0 : t = []
      · subst h0; rfl
      · rw [byteLines_last (utf8_line h) (fun e => h0 (utf8_nil e)), readLines_last h h0]; rfl
    · cases n with
      | zero => simp at hn
      | succ n =>
        have e : utf8 (l ++ '\n' :: s) = utf8 l ++ 10 :: utf8 s := by rw [utf8_append]; rfl
        rw [e, byteLines_line (utf8_line hl), readLines_line hl, List.map_cons, byteLines_utf8 n s (by simp at hn; omega), ended, utf8_append]
        rfl

variable [UnicodeDB]

theorem pdfLines_utf8 (t : Str) : pdfLines (utf8 t) = .ok ((readLines t).flatMap pdfLine) := by
  unfold pdfLines
  rw [byteLines_utf8 _ t (Nat.le_refl _)]
  have : ∀ ls : List Str, (ls.map utf8).mapM (fun b => do let l ← decodeUtf8 b; return pdfLine l : Bytes → Py (List Str)) = .ok (ls.map pdfLine) := by
    intro ls
    induction ls with
    | nil => rfl
    | cons l ls ih =>
      rw [List.map_cons, List.mapM_cons, ih, decode_encode]
      rfl
  rw [this]
  rfl

/-! ### Page breaks in lines -/

theorem anySet_mem (c : Char) : (⟨true, false, [.ch '\n']⟩ : CSet).mem c = true ↔ c ≠ '\n' := by
  simp [CSet.mem, CItem.mem]

/-- The part of the pattern from the page break on. -/
def fromBreak : Re := Re.ch '\u000c' ⬝ (.group 1 (Re.plus Re.any)) ⬝ .eos

theorem fromBreak_sem {pre w rest : Str} : Sem fromBreak pre w rest ↔ ∃ t, w = '\u000c' :: t ∧ t ≠ [] ∧ '\n' ∉ t ∧ (rest = [] ∨ rest = ['\n']) := by
  constructor
  · rintro ⟨u, v, rfl, hu, a, b, rfl, ha, rfl, he⟩
    rw [sem_ch] at hu
    subst hu
    have ha := sem_plus_set.1 ha
    exact ⟨a, by simp, ha.1, fun h => (anySet_mem _).1 (ha.2 _ h) rfl, he⟩
  · rintro ⟨t, rfl, h1, h2, h3⟩
    refine ⟨['\u000c'], t, rfl, sem_ch.2 rfl, t, [], by simp, ?_, rfl, h3⟩
    exact sem_plus_set.2 ⟨h1, fun c hc => (anySet_mem c).2 fun e => h2 (e ▸ hc)⟩

/-- Where a line has its page break in front of its text. -/
theorem breakInLine_some {l : Str} {m : Match} (h : reMatch breakInLine l = some m) :
    ∃ t, m.group 1 = some t ∧ BreakAndText l t ∧ ∀ t', ¬ BreakAndText t t' := by
  obtain ⟨x, hx, hp, hq, hg⟩ := matchHere_first (show matchHere breakInLine false [] l = some m from h)
  obtain ⟨u1, w1, s1, hx⟩ := first_seq hx
  obtain ⟨h1, -⟩ := s1.sem
  subst h1
  obtain ⟨u2, w2, s2, hx, hmax⟩ := first_star_seq (b := fromBreak) hx
  obtain ⟨u3, w3, s3, hx⟩ := first_seq hx
  obtain ⟨u4, t, s4, hc, hx⟩ := first_group_seq hx
  obtain ⟨w5, s5⟩ := hx.step
  obtain ⟨h5, he⟩ := s5.sem
  subst h5
  have h3 := sem_ch.1 s3.sem
  subst h3
  have h4 := sem_plus_set.1 s4.sem
  have h2 := sem_spaces.1 s2.sem
  have e1 := s1.post
  have e5 := s5.post
  have hn : '\n' ∉ t := fun h => (anySet_mem _).1 (h4.2 _ h) rfl
  have e2 : u2.post = '\u000c' :: t ++ x.post := by
    rw [s3.post, s4.post, e5]
    simp
  refine ⟨t, ?_, ⟨h4.1, hn, w2, x.post, ?_, h2, he⟩, ?_⟩
  · rw [hg, s5.cap 1 (by simp [Re.groups]), hc]
  · rw [show l = u1.post from e1, s2.post, e2]
    simp
  · rintro t' ⟨g1, g2, w, e, rfl, g3, g4⟩
    have : e = [] := by
      rcases g4 with rfl | rfl
      · rfl
      · exact absurd (by simp) hn
    subst this
    refine run_nil (hmax ('\u000c' :: w) ('\u000c' :: t' ++ x.post) (by rw [e2]; simp) (by simp) ?_) ?_
    · intro c hc
      rw [spaceSet_mem]
      rcases List.mem_cons.1 hc with rfl | hc
      · rfl
      · exact g3 c hc
    · exact ⟨'\u000c' :: t', x.post, rfl, fromBreak_sem.2 ⟨t', rfl, g1, g2, he⟩⟩

theorem breakInLine_none {l : Str} (h : reMatch breakInLine l = none) (t : Str) : ¬ BreakAndText l t := by
  rintro ⟨h1, h2, w, e, rfl, h3, h4⟩
  refine (matchHere_none _ _ _).1 (show matchHere breakInLine false [] _ = none from h) ?_
  refine ⟨w ++ '\u000c' :: t, e, rfl, [], _, rfl, ⟨rfl, rfl⟩, w, _, rfl, sem_spaces.2 h3, ?_⟩
  exact fromBreak_sem.2 ⟨t, rfl, h1, h2, h4⟩

theorem pdfLine_cases (l : Str) : (pdfLine l = [l] ∧ ∀ t, ¬ BreakAndText l t) ∨
    ∃ t, pdfLine l = [['\u000c'], t] ∧ BreakAndText l t ∧ ∀ t', ¬ BreakAndText t t' := by
  unfold pdfLine
  cases h : reMatch breakInLine l with
  | none => exact .inl ⟨rfl, breakInLine_none h⟩
  | some m =>
    obtain ⟨t, h1, h2, h3⟩ := breakInLine_some h
    exact .inr ⟨t, by simp [h1], h2, h3⟩

/-- A line that begins with its only page break. -/
theorem pdfLine_break {t e : Str} (hn : t ≠ []) (h1 : '\n' ∉ t) (h2 : '\u000c' ∉ t) (he : e = [] ∨ e = ['\n']) :
    pdfLine ('\u000c' :: t ++ e) = [['\u000c'], t] := by
  have hb : BreakAndText ('\u000c' :: t ++ e) t := ⟨hn, h1, [], e, rfl, by simp, he⟩
  rcases pdfLine_cases ('\u000c' :: t ++ e) with ⟨-, h⟩ | ⟨t', h, ⟨g1, g2, w, e', g3, g4, g5⟩, -⟩
  · exact absurd hb (h t)
  · rw [h]
    have hw : w = [] := by
      cases w with
      | nil => rfl
      | cons c w =>
        simp only [List.cons_append, List.cons.injEq] at g3
        have : '\u000c' ∈ t ++ e := by rw [g3.2]; simp
        rcases List.mem_append.1 this with h | h
        · exact absurd h h2
        · rcases he with rfl | rfl
          · cases h
          · simp at h
    subst hw
    simp only [List.cons_append, List.nil_append, List.cons.injEq, true_and] at g3
    have : t = t' := by
      rcases he with rfl | rfl <;> rcases g5 with rfl | rfl
      · simpa using g3
      · simp only [List.append_nil] at g3
        exact absurd (by rw [g3]; simp) h1
      · simp only [List.append_nil] at g3
        exact absurd (by rw [← g3]; simp) g2
      · exact (List.append_inj' g3 rfl).1
    rw [this]

/-- A line without page break. -/
theorem pdfLine_plain {l : Str} (h : '\u000c' ∉ l) : pdfLine l = [l] := by
  rcases pdfLine_cases l with ⟨h, -⟩ | ⟨t, -, ⟨-, -, w, e, rfl, -⟩, -⟩
  · exact h
  · exact absurd (by simp) h

/-- A line that is a page break. -/
theorem pdfLine_only {e : Str} (he : e = [] ∨ e = ['\n']) : pdfLine ('\u000c' :: e) = ['\u000c' :: e] := by
  rcases pdfLine_cases ('\u000c' :: e) with ⟨h, -⟩ | ⟨t, -, ⟨h1, h2, w, e', h3, -⟩, -⟩
  · exact h
  · exfalso
    have hw : w = [] := by
      cases w with
      | nil => rfl
      | cons c w =>
        simp only [List.cons_append, List.cons.injEq] at h3
        have : '\u000c' ∈ e := by rw [h3.2]; simp
        rcases he with rfl | rfl
        · cases this
        · simp at this
    subst hw
    simp only [List.cons_append, List.nil_append, List.cons.injEq, true_and] at h3
    cases t with
    | nil => exact h1 rfl
    | cons c t =>
      rcases he with rfl | rfl
      · cases h3
      · simp only [List.cons_append, List.cons.injEq] at h3
        exact h2 (by rw [← h3.1]; simp)

omit [UnicodeDB] in
theorem readLines_flatten (t : Str) : (readLines t).flatten = t := by
  induction t with
  | nil => rfl
  | cons c t ih =>
    rw [readLines]
    split
    · rw [List.flatten_cons, ih]; rfl
    · cases hr : readLines t with
      | nil => rw [hr] at ih; simp at ih; subst ih; rfl
      | cons l ls => rw [hr] at ih; simp only [List.flatten_cons] at ih ⊢; rw [← ih]; rfl

theorem solid_line (l : Str) : solidText (pdfLine l).flatten = solidText l := by
  rcases pdfLine_cases l with ⟨h, -⟩ | ⟨t, h, ⟨-, -, w, e, rfl, hw, he⟩, -⟩
  · rw [h]; simp
  · rw [h]
    have hw : solidText w = [] := by
      unfold solidText
      rw [List.filter_eq_nil_iff]
      intro c hc
      simp [hw c hc]
    have he : solidText e = [] := by rcases he with rfl | rfl <;> rfl
    have hf : isSpace '\u000c' = true := rfl
    unfold solidText at *
    simp [List.filter_append, hw, he, List.filter_cons, hf]

/-! ### Pages -/

/-- What follows the first page. -/
def breaksText : List (List Str) → Str
  | [] => ['\u000c']
  | p :: ps => '\u000c' :: (fileText ['\n'] p ++ breaksText ps)

omit [UnicodeDB] in
theorem pagesText_breaks (p : List Str) (ps : List (List Str)) : pagesText (p :: ps) = fileText ['\n'] p ++ breaksText ps := by
  induction ps generalizing p with
  | nil => simp [pagesText, breaksText]
  | cons q qs ih =>
    have e : pagesText (p :: q :: qs) = fileText ['\n'] p ++ '\u000c' :: pagesText (q :: qs) := by simp [pagesText]
    rw [e, ih, breaksText]

omit [UnicodeDB] in
theorem readLines_more {ls : List Str} (h : ∀ l ∈ ls, OneLine l) (s : Str) : readLines (fileText ['\n'] ls ++ s) = ls.map ended ++ readLines s := by
  induction ls with
  | nil => rfl
  | cons l ls ih =>
    have e : fileText ['\n'] (l :: ls) ++ s = l ++ '\n' :: (fileText ['\n'] ls ++ s) := by simp [fileText]
    rw [e, readLines_line (h l (by simp)).1, ih fun x hx => h x (by simp [hx])]
    rfl

theorem pdf_ended {ls : List Str} (h : ∀ l ∈ ls, OneLine l ∧ '\u000c' ∉ l) : (ls.map ended).flatMap pdfLine = ls.map ended := by
  induction ls with
  | nil => rfl
  | cons l ls ih =>
    rw [List.map_cons, List.flatMap_cons, ih fun x hx => h x (by simp [hx]), pdfLine_plain]
    · rfl
    · intro hm
      rcases List.mem_append.1 hm with hm | hm
      · exact (h l (by simp)).2 hm
      · simp at hm

theorem pdf_breaks {ps : List (List Str)} (h : ∀ p ∈ ps, TextPage p) :
    (readLines (breaksText ps)).flatMap pdfLine = (ps.flatMap fun q => ['\u000c'] :: belowBreak q) ++ [['\u000c']] := by
  induction ps with
  | nil =>
    have : pdfLine ['\u000c'] = [['\u000c']] := pdfLine_only (.inl rfl)
    simp [breaksText, readLines, this]
  | cons p ps ih =>
    obtain ⟨⟨l, ls, rfl, hl⟩, hp⟩ := h p (by simp)
    have h1 := hp l (by simp)
    have e : breaksText ((l :: ls) :: ps) = ('\u000c' :: l) ++ '\n' :: (fileText ['\n'] ls ++ breaksText ps) := by
      simp [breaksText, fileText]
    have hn : '\n' ∉ '\u000c' :: l := by
      simp only [List.mem_cons, not_or]
      exact ⟨by decide, h1.1.1⟩
    rw [e, readLines_line hn, readLines_more fun x hx => (hp x (by simp [hx])).1, List.flatMap_cons, List.flatMap_append,
      pdf_ended fun x hx => hp x (by simp [hx]), ih fun q hq => h q (by simp [hq])]
    have : pdfLine (ended ('\u000c' :: l)) = [['\u000c'], l] := pdfLine_break hl h1.1.1 h1.2 (.inr rfl)
    rw [this]
    simp [belowBreak, ended]

theorem pdf_pages {p : List Str} {ps : List (List Str)} (hp : ∀ l ∈ p, OneLine l ∧ '\u000c' ∉ l) (h : ∀ p ∈ ps, TextPage p) :
    pdfLines (utf8 (pagesText (p :: ps))) = .ok (p.map ended ++ (ps.flatMap fun q => ['\u000c'] :: belowBreak q) ++ [['\u000c']]) := by
  rw [pdfLines_utf8, pagesText_breaks, readLines_more fun l hl => (hp l hl).1, List.flatMap_append, pdf_ended hp, pdf_breaks h, List.append_assoc]

end Py
