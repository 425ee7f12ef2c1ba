import Verif.Lemmas.Section2

/-!
# Lemmas about documents with a numbered list of references: the end
-/

open Py Spec
open scoped List

namespace Py

variable [UnicodeDB]

/-! ### The count of references -/

theorem matchList_one {l : Str} (r : Re) : matchList l [r] = (reMatch r l).map fun m => (r, m) := by
  unfold matchList
  cases reMatch r l <;> rfl

theorem pyInt_decimal {n : Nat} (h : (decimal n).length ≤ 4300) : pyInt (decimal n) = .ok n := by
  rw [pyInt_dec (decimal_decimals _) h, decimal_value]

theorem countRefs_free {l : Str} (h : NoBracketNumber l) (c : Nat) : countRefs [lineNumber] l c = .ok c := by
  unfold countRefs
  rw [matchList_one, lineNumber_free h]
  rfl

theorem countRefs_number {n : Nat} {t : Str} (h : (bracketed n ++ t).length ≤ 4300) (c : Nat) :
    countRefs [lineNumber] (bracketed n ++ t) c = .ok n := by
  obtain ⟨m, h1, h2, h3⟩ := lineNumber_strip n t
  unfold countRefs
  rw [matchList_one, h1]
  simp only [Option.map_some, matchNumber, lineNumber_brackets.numbered, if_true, h3]
  rw [pyInt_decimal (by simp [bracketed] at h; omega)]

theorem isNextRef_free {l : Str} (h : NoBracketNumber l) (c : Nat) : isNextRef [lineNumber] c l = .ok false := by
  unfold isNextRef
  rw [matchList_one, lineNumber_free h]
  rfl

theorem isNextRef_number {n : Nat} {t : Str} (h : (bracketed (n + 1) ++ t).length ≤ 4300) :
    isNextRef [lineNumber] n (bracketed (n + 1) ++ t) = .ok true := by
  obtain ⟨m, h1, h2, h3⟩ := lineNumber_strip (n + 1) t
  have hd : isdigit m.txt = false := by
    rw [h2]
    have : isDigitC '[' = false := rfl
    simp [isdigit, bracketed, this]
  unfold isNextRef
  rw [matchList_one, h1]
  simp only [Option.map_some, hd, Bool.false_eq_true, if_false, matchNumber, lineNumber_brackets.numbered, if_true, h3]
  rw [pyInt_decimal (by simp [bracketed] at h; omega)]
  simp

theorem nextRefIn_free {ls : List Str} (h : ∀ l ∈ ls, NoBracketNumber l) (c : Nat) : nextRefIn [lineNumber] c ls = .ok false := by
  induction ls with
  | nil => rfl
  | cons l ls ih =>
    rw [nextRefIn, isNextRef_free (h l (by simp)), okBind]
    exact ih fun l hl => h l (by simp [hl])

theorem nextRefIn_number {ls rest : List Str} {t : Str} {n : Nat} (h : ∀ l ∈ ls, NoBracketNumber l)
    (hl : (bracketed (n + 1) ++ t).length ≤ 4300) : nextRefIn [lineNumber] n (ls ++ (bracketed (n + 1) ++ t) :: rest) = .ok true := by
  induction ls with
  | nil =>
    rw [List.nil_append, nextRefIn, isNextRef_number hl, okBind]
    rfl
  | cons l ls ih =>
    rw [List.cons_append, nextRefIn, isNextRef_free (h l (by simp)), okBind]
    exact ih fun l hl => h l (by simp [hl])

/-! ### Titles behind the section -/

theorem titleEnds_next {ls rest : List Str} {l t : Str} {n : Nat} (h : ∀ l ∈ ls, NoBracketNumber l) (hn : ls.length < 199)
    (hl : (bracketed (n + 1) ++ t).length ≤ 4300) : titleEnds [lineNumber] n l (ls ++ (bracketed (n + 1) ++ t) :: rest) = .ok false := by
  unfold titleEnds
  split
  · have e : (ls ++ (bracketed (n + 1) ++ t) :: rest).take 199 = ls ++ (bracketed (n + 1) ++ t) :: rest.take (199 - ls.length - 1) := by
      rw [List.take_append, List.take_of_length_le (by omega)]
      obtain ⟨k, hk⟩ : ∃ k, 199 - ls.length = k + 1 := ⟨199 - ls.length - 1, by omega⟩
      rw [hk]
      simp
    rw [e, nextRefIn_number h hl, okBind]
    rfl
  · rfl

omit [UnicodeDB] in
theorem closing_early : Rx.post_title_patterns.all (Re.early closingWords 3) = true := by decide +kernel

theorem titleEnds_plain {l : Str} (h : ∀ t ∈ closingWords, opensWith t l 3 = false) (pats : List Re) (n : Nat) (ls : List Str) :
    titleEnds pats n l ls = .ok false := by
  unfold titleEnds
  rw [matchList_none]
  · rfl
  · intro r hr
    cases hm : reMatch r (strip l) with
    | none => rfl
    | some m =>
      obtain ⟨rest, h1, h2⟩ := matchHere_sem hm
      obtain ⟨t, ht, hc⟩ := early_lang _ _ _ (List.all_eq_true.1 closing_early r hr) _ (sem_lang _ _ _ _ h2) rest
      rw [← h1] at hc
      have := opensWith_strip hc
      rw [h t ht] at this
      cases this

theorem matchList_isSome {l : Str} {rs : List Re} (h : ∃ r ∈ rs, ∃ m, reMatch r l = some m) : (matchList l rs).isSome = true := by
  obtain ⟨r, hr, m, hm⟩ := h
  induction rs with
  | nil => cases hr
  | cons a rs ih =>
    unfold matchList
    split
    · rfl
    · next hn =>
      rcases List.mem_cons.1 hr with rfl | hr
      · rw [hm] at hn; cases hn
      · exact ih hr

theorem free_of_noMark {l : Str} (h : ∀ c ∈ l, markChar c = false) : NoBracketNumber l := by
  intro a n b _ _ _ hi
  have := h '[' (hi.subset (by simp))
  simp [markChar] at this

theorem titleEnds_closing {l : Str} {rest : List Str} (h : Closing l) (hr : ∀ x ∈ rest, NoBracketNumber x) (n : Nat) :
    titleEnds [lineNumber] n l rest = .ok true := by
  unfold titleEnds
  rw [if_pos (matchList_isSome (closing_match h)), nextRefIn_free fun x hx => hr x (List.mem_of_mem_take hx), okBind]
  rfl

theorem digitLine_not {l : Str} (h : ¬ AxisLine l) : digitLine l = false := by
  cases hd : digitLine l with
  | false => rfl
  | true => exact absurd (digitLine_axis hd) h

theorem axis_not {l : Str} {c : Char} (hc : c ∈ l) (h : isSpace c = false ∧ isDigitC c = false ∧ c ∉ ['.', '-', '+', '×', '−']) : ¬ AxisLine l := by
  rintro ⟨h1, -⟩
  obtain ⟨a, b, d⟩ := h
  rcases h1 c hc with h | h | h
  · rw [a] at h; cases h
  · rw [b] at h; cases h
  · exact d h

theorem endLoop_closing {after : List Str} (h : ∀ l rest, after = l :: rest → Closing l ∧ ∀ x ∈ rest, NoBracketNumber x) (c : Nat) :
    endLoop [lineNumber] c after = .ok 0 := by
  cases after with
  | nil => rfl
  | cons l rest =>
    obtain ⟨h1, h2⟩ := h l rest rfl
    rw [endLoop, countRefs_free (free_of_noMark (noMark_line (List.mem_append_right _ h1))), okBind, titleEnds_closing h1 h2, okBind]
    rfl

/-! ### The end of the section -/

theorem endLoop_line {l : Str} {ls : List Str} {c c' k : Nat} (h1 : countRefs [lineNumber] l c = .ok c')
    (h2 : titleEnds [lineNumber] c' l ls = .ok false) (h3 : digitLine l = false) (h4 : endLoop [lineNumber] c' ls = .ok k) :
    endLoop [lineNumber] c (l :: ls) = .ok (k + 1) := by
  rw [endLoop, h1, okBind, h2, okBind, h3]
  simp only [Bool.false_and, Bool.false_eq_true, if_false, h4, okBind]
  rfl

theorem endLoop_more {R : List Str} {c k : Nat} (hR : endLoop [lineNumber] c R = .ok k) : ∀ {ms : List Str}, (∀ l ∈ ms, NoBracketNumber l) →
    (∀ l ∈ ms, ¬ AxisLine l) → (∀ a l b, ms = a ++ l :: b → titleEnds [lineNumber] c l (b ++ R) = .ok false) →
    endLoop [lineNumber] c (ms ++ R) = .ok (k + ms.length)
  | [], _, _, _ => hR
  | l :: ms, h1, h2, h3 => by
    have ih := endLoop_more hR (ms := ms) (fun l hl => h1 l (by simp [hl])) (fun l hl => h2 l (by simp [hl]))
      (fun a l' b e => h3 (l :: a) l' b (by simp [e]))
    exact endLoop_line (countRefs_free (h1 l (by simp)) c) (h3 [] l ms rfl) (digitLine_not (h2 l (by simp))) ih

theorem endLoop_entries {after : List Str} (ha : ∀ c, endLoop [lineNumber] c after = .ok 0) : ∀ {es : List Entry} {n : Nat},
    (∀ l ∈ (numbered (n + 1) es).flatMap entryLines, l.length ≤ 4300) → (∀ b ∈ es, ∀ l ∈ b.more, NoBracketNumber l) →
    (∀ b ∈ es.dropLast, b.more.length < 199) → (∀ b ∈ es, ∀ l ∈ b.more, ¬ AxisLine l) →
    (∀ b, es.getLast? = some b → ∀ l ∈ entryLines (n + es.length, b), ∀ t ∈ closingWords, opensWith t l 3 = false) →
    endLoop [lineNumber] n ((numbered (n + 1) es).flatMap entryLines ++ after) = .ok ((numbered (n + 1) es).flatMap entryLines).length
  | [], n, _, _, _, _, _ => ha n
  | e :: es, n, hs, hf, hn, hw, hl => by
    have hsub : ∀ l ∈ (numbered (n + 2) es).flatMap entryLines, l.length ≤ 4300 := fun l h => hs l (by simp only [numbered, List.flatMap_cons, List.mem_append]; exact .inr h)
    have ih := endLoop_entries ha (es := es) (n := n + 1) hsub (fun b hb => hf b (by simp [hb]))
      (fun b hb => hn b (by cases es with
        | nil => cases hb
        | cons x es => rw [List.dropLast_cons_cons]; exact List.mem_cons_of_mem _ hb))
      (fun b hb => hw b (by simp [hb])) (by
        intro b hb
        cases es with
        | nil => cases hb
        | cons x es =>
          have := hl b (by simpa [List.getLast?_cons_cons] using hb)
          simpa [Nat.add_assoc, Nat.add_comm, Nat.add_left_comm] using this)
    -- every line of the reference
    have key : ∀ l ∈ entryLines (n + 1, e), ∀ b, b <:+ e.more →
        titleEnds [lineNumber] (n + 1) l (b ++ ((numbered (n + 2) es).flatMap entryLines ++ after)) = .ok false := by
      intro l hlm b hb
      cases es with
      | nil => exact titleEnds_plain (hl e (by simp) l (by simpa using hlm)) _ _ _
      | cons x es =>
        have hx : (bracketed (n + 2) ++ x.text) ∈ (numbered (n + 2) (x :: es)).flatMap entryLines := by simp [numbered, entryLines]
        simp only [numbered, List.flatMap_cons, entryLines, List.cons_append]
        refine titleEnds_next (fun l hl => hf e (by simp) l (hb.subset hl)) ?_ (hsub _ hx)
        have := hn e (by simp)
        have := hb.length_le
        omega
    have hm := endLoop_more ih (ms := e.more) (hf e (by simp)) (hw e (by simp)) (by
      intro a l b he
      exact key l (by simp [entryLines, he]) b ⟨a ++ [l], by simp [he]⟩)
    have h1 := endLoop_line (c := n) (countRefs_number (hs (bracketed (n + 1) ++ e.text) (by simp [numbered, entryLines])) n) (key (bracketed (n + 1) ++ e.text) (by simp [entryLines]) e.more (List.suffix_refl _))
      (digitLine_not (axis_not (c := '[') (by simp [bracketed]) ⟨rfl, rfl, by decide⟩)) hm
    have e1 : (numbered (n + 1) (e :: es)).flatMap entryLines ++ after =
        (bracketed (n + 1) ++ e.text) :: (e.more ++ ((numbered (n + 2) es).flatMap entryLines ++ after)) := by simp [numbered, entryLines]
    rw [e1, h1]
    simp [numbered, entryLines]
    omega

/-! ### The references of the document -/

omit [UnicodeDB] in
theorem listLines_cons (a : Entry) (es : List Entry) :
    listLines (a :: es) = (bracketed 1 ++ a.text) :: (a.more ++ (numbered 2 es).flatMap entryLines) := rfl

theorem rebuild_gap {ls : List Str} : ∀ g, rebuild (List.replicate g [] ++ ls) (some (Marker.of lineNumber)) = rebuild ls (some (Marker.of lineNumber))
  | 0 => rfl
  | g + 1 => by
    refine Eq.trans ?_ (rebuild_gap g)
    have hn : search (Marker.of lineNumber).re [] = none := lineNumber_brackets.free [] (by
      intro a n b _ _ _ h
      have := h.length_le
      simp at this)
    unfold rebuild
    rw [List.replicate_succ, List.cons_append]
    simp only [chooseMarker, rebuildLoop, rebuildStep, hn, unlessEmpty, List.isEmpty_nil, if_true, List.append_nil, okBind]

theorem empty_free : NoBracketNumber [] := by
  intro a n b _ _ _ h
  have := h.length_le
  simp at this

/-- The references of a plain document are those of its list. -/
theorem plainDocument_lines {body : List Str} {heading : Str} {g : Nat} {es : List Entry} {after : List Str} (h : PlainDocument body heading g es after) :
    extractFulltext (documentLines body heading g es after) = .ok ((numbered 1 es).map fun p => prepareRef (solidPieces (entryLines p)), 0) := by
  have hh' : (strip heading).map Char.toLower ∈ headings ++ closings := List.mem_append_left _ h.heading
  obtain ⟨⟨hc, hcm, hl1⟩, hl2⟩ := letters_of hh'
  obtain ⟨a, es', rfl⟩ := List.exists_cons_of_ne_nil h.nonempty
  have hgap : ∀ x ∈ List.replicate g ([] : Str), x = [] := fun x hx => List.eq_of_mem_replicate hx
  have hb : removeBoundary (documentLines body heading g (a :: es') after) = .ok (documentLines body heading g (a :: es') after) := by
    refine removeBoundary_noBreak (first := documentLines body heading g (a :: es') after) ⟨by simp, by simp, ?_, by simp⟩
    intro l hl
    simp only [documentLines, List.mem_append, List.mem_cons] at hl
    have : l = heading ∨ l = [] ∨ l ∈ body ++ listLines (a :: es') ++ after := by
      simp only [List.mem_append]
      rcases hl with h | h | h | h | h
      · exact .inr (.inr (.inl (.inl h)))
      · exact .inl h
      · exact .inr (.inl (hgap l h))
      · exact .inr (.inr (.inl (.inr h)))
      · exact .inr (.inr (.inr h))
    rcases this with rfl | rfl | hl
    · rintro ⟨h1, -⟩
      have := h1 hc hcm
      rw [(letter_facts hl1).1] at this
      cases this
    · rintro ⟨-, h2⟩; cases h2
    · exact h.unbroken l hl
  obtain ⟨w, mk, hw, hf⟩ := findSection_heading (body := body) (l := heading) (t := a.text) (rest := a.more ++ (numbered 2 es').flatMap entryLines ++ after)
    h.gap h.heading (by
      intro x hx
      simp only [List.mem_append, List.mem_cons] at hx
      have : x = [] ∨ x ∈ body ++ listLines (a :: es') ++ after := by
        rw [listLines_cons]
        simp only [List.mem_append, List.mem_cons]
        rcases hx with h | h | h | (h | h) | h
        · exact .inr (.inl (.inl h))
        · exact .inl (hgap x h)
        · exact .inr (.inl (.inr (.inl h)))
        · exact .inr (.inl (.inr (.inr (.inl h))))
        · exact .inr (.inl (.inr (.inr (.inr h))))
        · exact .inr (.inr h)
      rcases this with rfl | hx
      · simp [sectionTitles, opensWith, spelt]
      · exact h.untitled x hx)
  have e1 : documentLines body heading g (a :: es') after =
      body ++ heading :: (List.replicate g [] ++ (bracketed 1 ++ a.text) :: (a.more ++ (numbered 2 es').flatMap entryLines ++ after)) := by
    rw [documentLines, listLines_cons]; simp
  have hsec : sectionBeginning (documentLines body heading g (a :: es') after) =
      some ⟨body.length, some w, some mk, some lineNumber, false⟩ := by
    unfold sectionBeginning
    rw [e1, hf]
  have hend : endLoop [lineNumber] 0 (heading :: (List.replicate g [] ++ (listLines (a :: es') ++ after))) =
      .ok ((listLines (a :: es')).length + g + 1) := by
    have next : ∀ (l : Str) (j : Nat), j ≤ 4 → titleEnds [lineNumber] 0 l (List.replicate j [] ++ (listLines (a :: es') ++ after)) = .ok false := by
      intro l j hj
      rw [listLines_cons, List.cons_append]
      refine titleEnds_next (fun l hl => ?_) (by simp; omega) (h.short _ (by rw [listLines_cons]; simp))
      rw [List.eq_of_mem_replicate hl]
      exact empty_free
    refine endLoop_line (c' := 0) (countRefs_free (free_of_noMark (noMark_line hh')) 0) (next heading g h.gap) ?_ ?_
    · obtain ⟨f1, -, f3, f4⟩ := letter_facts hl1
      exact digitLine_not (axis_not hcm ⟨f1, f3, f4⟩)
    have hlist : endLoop [lineNumber] 0 (listLines (a :: es') ++ after) = .ok (listLines (a :: es')).length :=
      endLoop_entries (fun c => endLoop_closing h.closed c) (es := a :: es') (n := 0) h.short h.free h.near h.worded (by simpa using h.last)
    have := endLoop_more hlist (ms := List.replicate g []) (fun l hl => by rw [hgap l hl]; exact empty_free)
      (fun l hl => by
        rw [hgap l hl]
        rintro ⟨-, h2⟩
        simp at h2)
      (by
        intro u l v e
        have hv : v = List.replicate v.length [] := by
          refine List.eq_replicate_iff.2 ⟨rfl, fun x hx => hgap x ?_⟩
          rw [e]; simp [hx]
        have hlen : v.length ≤ 4 := by
          have := congrArg List.length e
          have := h.gap
          simp at *
          omega
        rw [hv]
        exact next l v.length hlen)
    simpa using this
  unfold extractFulltext
  rw [hb, okBind, hsec]
  generalize hd : documentLines body heading g (a :: es') after = doc
  unfold documentLines at hd
  have hdrop : doc.drop body.length = heading :: (List.replicate g [] ++ (listLines (a :: es') ++ after)) := by rw [← hd]; simp
  have hlen : doc.length = body.length + (1 + g + (listLines (a :: es')).length + after.length) := by
    rw [← hd]; simp; omega
  have hfe : findEnd doc ⟨body.length, some w, some mk, some lineNumber, false⟩ = .ok (some (body.length + ((listLines (a :: es')).length + g + 1))) := by
    unfold findEnd
    have c1 : (decide (doc.length < body.length) || decide (doc.length < 1)) = false := by
      rw [Bool.or_eq_false_iff]
      exact ⟨decide_eq_false (by omega), decide_eq_false (by omega)⟩
    rw [show (decide (doc.length < (⟨body.length, some w, some mk, some lineNumber, false⟩ : Details).start) || decide (doc.length < 1)) = false from c1]
    simp only [Bool.false_eq_true, if_false, endPatterns, hdrop, hend, okBind]
    rfl
  have hlines : sectionLines doc body.length (some (body.length + ((listLines (a :: es')).length + g + 1))) (some w) false =
      .ok (List.replicate g [] ++ listLines (a :: es')) := by
    have e : (doc.take (body.length + ((listLines (a :: es')).length + g + 1))).drop (body.length + 1) = List.replicate g [] ++ listLines (a :: es') := by
      rw [← hd, List.take_length_add_append, List.drop_append]
      have e2 : (listLines (a :: es')).length + g = (List.replicate g ([] : Str) ++ listLines (a :: es')).length := by simp; omega
      rw [← List.append_assoc, List.take_succ_cons, e2, List.take_left]
      simp
    unfold sectionLines
    simp only [Bool.false_eq_true, if_false, Option.isSome_some, if_true, e]
    rw [stripFooter_none hw fun l hl => by
      rcases List.mem_append.1 hl with hl | hl
      · rw [hgap l hl]; simp [sectionTitles, opensWith, spelt]
      · exact h.untitled l (by simp [hl])]
    split <;> rfl
  unfold extractDoc
  simp only [hfe, okBind, extractSection, getReferenceLines, hlines, Option.map_some]
  rw [rebuild_gap, rebuild_brackets lineNumber_brackets h.free h.short]
  rfl

end Py
