import Verif.Lemmas.Numbered

/-!
# Lemmas about numbered lists of references: the marks
-/

open Py Spec
open scoped List

namespace Py

variable [UnicodeDB]

theorem runK_star_full {β : Type} {k : CSet} {rest : Str} {caps : List Cap} {f : St → Option β} {x : β}
    (hr : ∀ c, rest.head? = some c → k.mem c = false) : ∀ {w pre : Str}, (∀ c ∈ w, k.mem c = true) →
    f ⟨w.reverse ++ pre, rest, caps⟩ = some x → runK (.star true (.set k)) ⟨pre, w ++ rest, caps⟩ f = some x := by
  intro w pre hw hf
  rw [runK_star_set]
  simp only
  induction w generalizing pre with
  | nil =>
    cases rest with
    | nil => simpa [greedySt] using hf
    | cons c t =>
      simp only [List.nil_append, greedySt, hr c rfl]
      simpa using hf
  | cons c w ih =>
    have := ih (pre := c :: pre) (fun d hd => hw d (by simp [hd])) (by simpa using hf)
    simp [greedySt, hw c (by simp), List.findSome?_append, this]

theorem runK_plus_full {β : Type} {k : CSet} {rest : Str} {caps : List Cap} {f : St → Option β} {x : β}
    (hr : ∀ c, rest.head? = some c → k.mem c = false) {w pre : Str} (hne : w ≠ []) (hw : ∀ c ∈ w, k.mem c = true)
    (hf : f ⟨w.reverse ++ pre, rest, caps⟩ = some x) : runK (Re.plus (.set k)) ⟨pre, w ++ rest, caps⟩ f = some x := by
  cases w with
  | nil => exact absurd rfl hne
  | cons c w =>
    rw [Re.plus, runK_seq_eq]
    have := runK_star_full (k := k) (caps := caps) hr (w := w) (pre := c :: pre) (fun d hd => hw d (by simp [hd])) (by simpa using hf)
    simp only [runK, List.cons_append, hw c (by simp), if_true]
    simpa only [runK] using this

theorem runK_star_all {β : Type} {k : CSet} {rest : Str} {caps : List Cap} {f : St → Option β} {Q : β → Prop} {w pre : Str}
    (hw : ∀ c ∈ w, k.mem c = true) (hr : ∀ c, rest.head? = some c → k.mem c = false)
    (hf : ∃ x, f ⟨w.reverse ++ pre, rest, caps⟩ = some x ∧ Q x) : ∃ x, runK (.star true (.set k)) ⟨pre, w ++ rest, caps⟩ f = some x ∧ Q x := by
  obtain ⟨x, h1, h2⟩ := hf
  exact ⟨x, runK_star_full hr hw h1, h2⟩

theorem runK_plus_all {β : Type} {k : CSet} {rest : Str} {caps : List Cap} {f : St → Option β} {Q : β → Prop} {w pre : Str}
    (hne : w ≠ []) (hw : ∀ c ∈ w, k.mem c = true) (hr : ∀ c, rest.head? = some c → k.mem c = false)
    (hf : ∃ x, f ⟨w.reverse ++ pre, rest, caps⟩ = some x ∧ Q x) : ∃ x, runK (Re.plus (.set k)) ⟨pre, w ++ rest, caps⟩ f = some x ∧ Q x := by
  obtain ⟨x, h1, h2⟩ := hf
  exact ⟨x, runK_plus_full hr hne hw h1, h2⟩

omit [UnicodeDB] in
theorem decimal_eq (n : Nat) : decimal n = padNat 0 n := by simp [decimal, padNat, natStr]

theorem decimal_decimals (n : Nat) : Decimals (decimal n) := by
  obtain ⟨h1, h2⟩ := padNat_digits 0 n
  rw [decimal_eq]
  refine ⟨h1, fun c hc => ?_⟩
  simp [isDec, decVal_digit (h2 c hc)]

theorem decimal_value (n : Nat) : value (decimal n) = n := by rw [decimal_eq, padNat_value]

theorem bracket_here {d t pre : Str} (hd : Decimals d) (adv : Bool) :
    ∃ m, matchHere Rx.re_reference_line_bracket_markers adv pre ('[' :: d ++ ']' :: t) = some m ∧ m.start = pre.length ∧
      m.txt ≠ [] ∧ m.group G.marknum = some d := by
  have hspace : ∀ {c : Char}, CSet.mem ⟨false, false, [.space]⟩ c = isSpace c := by simp [CSet.mem, CItem.mem]
  have hdigit : ∀ {c : Char}, CSet.mem ⟨false, false, [.digit]⟩ c = isDec c := by simp [CSet.mem, CItem.mem]
  have hns : ∀ c, (d ++ ']' :: t).head? = some c → CSet.mem ⟨false, false, [.space]⟩ c = false := by
    intro c hc
    obtain ⟨x, w, rfl, hx⟩ := decimals_head hd
    cases hc
    rw [hspace]
    exact isDec_not_space hx
  have hch : ∀ c, CSet.mem ⟨false, false, [.ch c]⟩ c = true := by simp [CSet.mem, CItem.mem]
  unfold matchHere Rx.re_reference_line_bracket_markers
  rw [runK_group_eq, runK_seq_eq, runK_group_eq]
  simp only [Re.ch, Re.space, Re.digit]
  simp only [runK.eq_3, List.cons_append, hch, if_true]
  rw [runK_seq_eq]
  refine runK_star_all (w := []) (by simp) hns ?_
  rw [runK_seq_eq, runK_group_eq]
  refine runK_plus_all (w := d) (rest := ']' :: t) hd.1 (fun c hc => by rw [hdigit]; exact hd.2 c hc) ?_ ?_
  · intro c hc; cases hc; rw [hdigit]; rfl
  rw [runK_seq_eq]
  refine runK_star_all (w := []) (rest := ']' :: t) (by simp) ?_ ?_
  · intro c hc; cases hc; rw [hspace]; rfl
  rw [runK_group_eq]
  simp only [runK.eq_3, hch, if_true]
  rw [if_neg (by simp; omega)]
  refine ⟨_, rfl, rfl, ?_, ?_⟩
  · simp [mkMatch]
    omega
  · simp [mkMatch, Match.group, G.marknum, G.mark, G.right, G.left]

theorem search_start {r : Re} {s : Str} {m : Match} (hne : m.txt ≠ []) (h : matchHere r false [] s = some m) :
    search r s = some m := by
  cases s with
  | nil => simp [search, finditer, scan, scanGo, h, Piece.match?]
  | cons c t =>
    have : m.txt.isEmpty = false := by simpa using hne
    simp [search, finditer, scan, scanGo, h, this, Piece.match?]

theorem bracket_search {n : Nat} {t : Str} :
    ∃ m, search Rx.re_reference_line_bracket_markers (bracketed n ++ t) = some m ∧ m.start = 0 ∧ m.group G.marknum = some (decimal n) := by
  obtain ⟨m, h1, h2, h3, h4⟩ := bracket_here (t := t) (pre := []) (decimal_decimals n) false
  refine ⟨m, search_start h3 ?_, h2, h4⟩
  simpa [bracketed] using h1

theorem bracket_lang {w : Str} (h : Lang Rx.re_reference_line_bracket_markers w) :
    ∃ a n b, Spaces a ∧ Decimals n ∧ Spaces b ∧ w = '[' :: a ++ n ++ b ++ [']'] := by
  have hch : ∀ {c d : Char}, CSet.mem ⟨false, false, [.ch c]⟩ d = true → d = c := by intro c d; simp [CSet.mem, CItem.mem]
  have hsp : ∀ {w : Str}, Lang (.star true Re.space) w → Spaces w := by
    intro w h
    refine lang_over (P := fun c => isSpace c = true) _ ?_ w h
    simp [Re.space, Re.over, CSet.mem, CItem.mem]
  obtain ⟨u1, v1, rfl, h1, u2, v2, rfl, h2, u3, v3, rfl, h3, u4, v4, rfl, h4, h5⟩ := h
  obtain ⟨c, rfl, hc⟩ := h1
  obtain ⟨d, rfl, hd⟩ := h5
  refine ⟨u2, u3, u4, hsp h2, lang_plus_digit h3, hsp h4, ?_⟩
  rw [hch hc, hch hd]
  simp

theorem bracket_free {l : Str} (h : NoBracketNumber l) : search Rx.re_reference_line_bracket_markers l = none := by
  cases hs : search Rx.re_reference_line_bracket_markers l with
  | none => rfl
  | some m =>
    obtain ⟨ps, qs, hsc⟩ := mem_finditer (search_mem hs)
    have ok := scan_hit_ok hsc
    obtain ⟨a, n, b, ha, hn, hb, e⟩ := bracket_lang ok.lang
    have e2 := scan_orig Rx.re_reference_line_bracket_markers l
    rw [hsc] at e2
    refine absurd ?_ (h a n b ha hn hb)
    rw [← e, ← e2]
    simp only [List.flatMap_append, List.flatMap_cons, Piece.orig]
    exact ⟨_, _, by rw [List.append_assoc]⟩

theorem strip_bracketed (n : Nat) (t : Str) : ∃ t', strip (bracketed n ++ t) = bracketed n ++ t' := by
  obtain ⟨a, b, h1, h2, h3, h4⟩ := trimmed_strip (bracketed n ++ t)
  generalize strip (bracketed n ++ t) = s at *
  have ha : a = [] := by
    cases a with
    | nil => rfl
    | cons c a =>
      have e : c = '[' := by
        have := congrArg List.head? h1
        simpa [bracketed] using this.symm
      have := h2 c (by simp)
      rw [e] at this
      cases this
  subst ha
  rw [List.nil_append] at h1
  by_cases hl : (bracketed n).length ≤ s.length
  · obtain ⟨t', ht⟩ := List.prefix_of_prefix_length_le (List.prefix_append (bracketed n) t) ⟨b, h1.symm⟩ hl
    exact ⟨t', ht.symm⟩
  · obtain ⟨u, hu⟩ := List.prefix_of_prefix_length_le ⟨b, h1.symm⟩ (List.prefix_append (bracketed n) t) (by omega)
    have hue : u ≠ [] := by rintro rfl; rw [List.append_nil] at hu; rw [hu] at hl; exact hl (Nat.le_refl _)
    have hb : b = u ++ t := by
      rw [← hu, List.append_assoc] at h1
      exact (List.append_cancel_left h1).symm
    have hlast : (bracketed n).getLast? = some ']' := by
      unfold bracketed
      rw [List.getLast?_append]
      rfl
    rw [← hu, List.getLast?_append] at hlast
    have : u.getLast? = some ']' := by
      cases hu' : u.getLast? with
      | none => exact absurd (List.getLast?_eq_none_iff.1 hu') hue
      | some x => rw [hu'] at hlast; simpa using hlast
    have := h2 ']' (by rw [hb]; simp [List.mem_of_getLast? this])
    cases this

theorem hasNumber_self (n : Nat) (num t : Str) :
    (hasNumber Rx.re_reference_line_bracket_markers num (bracketed n ++ t)).isSome = (decimal n == num) := by
  obtain ⟨t', ht⟩ := strip_bracketed n t
  obtain ⟨m, h1, h2, h3, h4⟩ := bracket_here (t := t') (pre := []) (decimal_decimals n) false
  have : reMatch Rx.re_reference_line_bracket_markers (strip (bracketed n ++ t)) = some m := by
    rw [ht]
    simpa [bracketed, reMatch] using h1
  unfold hasNumber
  rw [this]
  simp only [h4]
  by_cases e : decimal n = num
  · simp [e]
  · have : (some (decimal n) == some num) = false := by simpa using e
    simp [this, e]

theorem hasNumber_free {l : Str} (h : NoBracketNumber l) (num : Str) : hasNumber Rx.re_reference_line_bracket_markers num l = none := by
  unfold hasNumber
  cases hm : reMatch Rx.re_reference_line_bracket_markers (strip l) with
  | none => rfl
  | some m =>
    have ok := reMatch_ok hm
    obtain ⟨a, n, b, ha, hn, hb, e⟩ := bracket_lang ok.lang
    obtain ⟨rest, h1, -⟩ := matchHere_sem hm
    obtain ⟨x, y, h2, -⟩ := trimmed_strip l
    refine absurd ?_ (h a n b ha hn hb)
    rw [← e, h2, h1]
    exact ⟨x, rest ++ y, by simp⟩

theorem noTitle_first {l0 : Str} {ls : List Str} {r : Re} (h0 : (hasNumber r (py! "1") l0).isSome = true)
    (h1 : ∀ l ∈ ls, hasNumber r (py! "1") l = none)
    (h2 : ls.length < 5 ∨ ∃ l ∈ ls.take 10, (hasNumber r (py! "2") l).isSome = true) :
    ∀ n, 0 < n → ∃ d, noTitleLoop (l0 :: ls) r n = some d ∧ d.pattern = some r
  | 0, h => absurd h (Nat.lt_irrefl _)
  | 1, _ => by
    obtain ⟨m, hm⟩ := Option.isSome_iff_exists.1 h0
    have hz : ((ls.take 10).length < 5 || (ls.take 10).any fun l => (hasNumber r (py! "2") l).isSome) = true := by
      rcases h2 with h2 | ⟨l, hl, h2⟩
      · have : (ls.take 10).length < 5 := by rw [List.length_take]; omega
        simp only [this, decide_true, Bool.true_or]
      · rw [Bool.or_eq_true]
        exact .inr (List.any_eq_true.2 ⟨l, hl, h2⟩)
    refine ⟨⟨0, none, some (strip ((m.group G.mark).getD [])), some r, false⟩, ?_, rfl⟩
    unfold noTitleLoop
    simp only [List.getElem?_cons_zero, hm, List.drop_succ_cons, List.drop_zero, hz, if_true]
  | n + 2, _ => by
    obtain ⟨d, hd, hp⟩ := noTitle_first h0 h1 h2 (n + 1) (by omega)
    refine ⟨d, ?_, hp⟩
    unfold noTitleLoop
    split
    · exact hd
    · next line hl =>
      have : line ∈ ls := by
        rw [List.getElem?_cons_succ] at hl
        exact List.mem_of_getElem? hl
      rw [h1 line this]
      exact hd

omit [UnicodeDB] in
theorem numbered_mem {p : Nat × Entry} : ∀ {n : Nat} {es : List Entry}, p ∈ numbered n es → n ≤ p.1 ∧ p.2 ∈ es
  | _, [], h => by cases h
  | n, e :: es, h => by
    rcases List.mem_cons.1 h with rfl | h
    · exact ⟨Nat.le_refl _, by simp⟩
    · obtain ⟨h1, h2⟩ := numbered_mem h
      exact ⟨by omega, by simp [h2]⟩

theorem decimal_inj {m n : Nat} (h : decimal m = decimal n) : m = n := by
  rw [← decimal_value m, h, decimal_value]

theorem lines_notOne {es : List Entry} (hf : ∀ b ∈ es, ∀ l ∈ b.more, NoBracketNumber l) {n : Nat} (hn : 2 ≤ n) {l : Str}
    (hl : l ∈ (numbered n es).flatMap entryLines) : hasNumber Rx.re_reference_line_bracket_markers (py! "1") l = none := by
  obtain ⟨p, hp, hl⟩ := List.mem_flatMap.1 hl
  obtain ⟨h1, h2⟩ := numbered_mem hp
  rcases List.mem_cons.1 hl with rfl | hl
  · have := hasNumber_self p.1 (py! "1") p.2.text
    cases hh : hasNumber Rx.re_reference_line_bracket_markers (py! "1") (bracketed p.1 ++ p.2.text) with
    | none => rfl
    | some m =>
      rw [hh] at this
      have e : decimal p.1 = decimal 1 := (show decimal p.1 = py! "1" by simpa using this.symm)
      have := decimal_inj e
      omega
  · exact hasNumber_free (hf _ h2 l hl) _

/-- A plain list is split at its numbers in square brackets. -/
theorem plainList_marker {es : List Entry} (h : PlainList es) :
    stringMarker (listLines es) = some (Marker.of Rx.re_reference_line_bracket_markers) := by
  cases es with
  | nil => exact absurd rfl h.nonempty
  | cons a es =>
    have e : listLines (a :: es) = (bracketed 1 ++ a.text) :: (a.more ++ (numbered 2 es).flatMap entryLines) := rfl
    have h1 : ∀ l ∈ a.more ++ (numbered 2 es).flatMap entryLines, hasNumber Rx.re_reference_line_bracket_markers (py! "1") l = none := by
      intro l hl
      rcases List.mem_append.1 hl with hl | hl
      · exact hasNumber_free (h.free a (by simp) l hl) _
      · exact lines_notOne (fun b hb => h.free b (by simp [hb])) (Nat.le_refl _) hl
    obtain ⟨d, hd, hp⟩ := noTitle_first (l0 := bracketed 1 ++ a.text) (r := Rx.re_reference_line_bracket_markers) (by rw [hasNumber_self]; decide) h1 (by
      rcases h.near with hn | ⟨a', b, rest, hn, hl⟩
      · left
        rw [e, List.length_cons] at hn
        omega
      · right
        cases hn
        refine ⟨bracketed 2 ++ b.text, ?_, by rw [hasNumber_self]; decide⟩
        rw [List.take_append]
        refine List.mem_append_right _ ?_
        have : 0 < 10 - a.more.length := by omega
        obtain ⟨k, hk⟩ : ∃ k, 10 - a.more.length = k + 1 := ⟨_, (Nat.succ_pred_eq_of_pos this).symm⟩
        rw [hk]
        simp [numbered, entryLines]) (listLines (a :: es)).length (by rw [e]; simp)
    unfold stringMarker sectionBeginning
    rw [section_none h.untitled]
    simp only
    rw [← e] at hd
    simp only [hd, hp, Option.map_some]

/-! ### Rebuilding -/

/-- The pattern finds numbers in square brackets: the one at the beginning of a line, and none in a line without. -/
structure Brackets (r : Re) : Prop where
  numbered : r.hasGroup G.marknum = true
  hit : ∀ n t, ∃ m, search r (bracketed n ++ t) = some m ∧ m.start = 0 ∧ m.group G.marknum = some (decimal n)
  free : ∀ l, NoBracketNumber l → search r l = none

theorem bracket_markers : Brackets Rx.re_reference_line_bracket_markers := ⟨rfl, fun _ _ => bracket_search, fun _ h => bracket_free h⟩

theorem step_number {r : Re} (hr : Brackets r) {n : Nat} {t : Str} {s : Reb} (hc : s.cur = some n) (hl : (bracketed (n + 1) ++ t).length ≤ 4300) :
    rebuildStep (Marker.of r) false s (bracketed (n + 1) ++ t) =
      .ok ⟨some (n + 1), some (some (n + 1)), s.refs ++ finish s.work, [bracketed (n + 1) ++ t]⟩ := by
  obtain ⟨m, h1, h2, h3⟩ := hr.hit (n + 1) t
  have h4 : pyInt (decimal (n + 1)) = .ok (n + 1) := by
    rw [pyInt_dec (decimal_decimals _), decimal_value]
    simp [bracketed] at hl
    omega
  unfold rebuildStep
  have h6 : (Marker.of r).numbered = true := hr.numbered
  rw [show (Marker.of r).re = r from rfl, h1]
  simp only [marknum, h6, if_true, h3, h4, okBind, inSequence, hc, beq_self_eq_true, Bool.false_and, Bool.not_false, Bool.and_true,
    newRef, h2, List.take_zero, List.drop_zero, Option.getD_some]
  simp [unlessEmpty, bracketed]

theorem loop_free {r : Re} (hr : Brackets r) {s : Reb} {ls : List Str} (h : ∀ l ∈ ls, NoBracketNumber l) :
    rebuildLoop (Marker.of r) false s ls = .ok { s with work := s.work ++ solidPieces ls } := by
  induction ls generalizing s with
  | nil => simp [rebuildLoop, solidPieces]
  | cons l ls ih =>
    have : rebuildStep (Marker.of r) false s l = .ok { s with work := s.work ++ unlessEmpty l } := by
      unfold rebuildStep
      rw [show (Marker.of r).re = r from rfl, hr.free l (h l (by simp))]
    rw [rebuildLoop, this, okBind, ih fun l hl => h l (by simp [hl])]
    simp [solid_cons]

theorem loop_append (mk : Marker) (ind : Bool) (s : Reb) (a b : List Str) :
    rebuildLoop mk ind s (a ++ b) = rebuildLoop mk ind s a >>= fun s => rebuildLoop mk ind s b := by
  induction a generalizing s with
  | nil => rfl
  | cons l a ih =>
    rw [List.cons_append, rebuildLoop, rebuildLoop]
    cases rebuildStep mk ind s l with
    | error e => rfl
    | ok s' => exact ih s'

theorem loop_entries {r : Re} (hr : Brackets r) : ∀ {es : List Entry} {n : Nat} {s : Reb}, s.cur = some n → (∀ b ∈ es, ∀ l ∈ b.more, NoBracketNumber l) →
    (∀ l ∈ (numbered (n + 1) es).flatMap entryLines, l.length ≤ 4300) →
    ∃ s', rebuildLoop (Marker.of r) false s ((numbered (n + 1) es).flatMap entryLines) = .ok s' ∧
      s'.refs ++ finish s'.work = s.refs ++ finish s.work ++ ((numbered (n + 1) es).map fun p => prepareRef (solidPieces (entryLines p)))
  | [], n, s, hc, hf, hl => ⟨s, rfl, by simp [numbered]⟩
  | e :: es, n, s, hc, hf, hl => by
    have h1 := step_number hr (t := e.text) hc (hl _ (by simp [numbered, entryLines]))
    have h2 := loop_free hr (s := ⟨some (n + 1), some (some (n + 1)), s.refs ++ finish s.work, [bracketed (n + 1) ++ e.text]⟩) (hf e (by simp))
    obtain ⟨s', h3, h4⟩ := loop_entries hr (es := es) (n := n + 1) (s := { cur := some (n + 1), num := some (some (n + 1)), refs := s.refs ++ finish s.work, work := [bracketed (n + 1) ++ e.text] ++ solidPieces e.more })
      rfl (fun b hb => hf b (by simp [hb])) (fun l hl' => hl l (by simp only [numbered, List.flatMap_cons, List.mem_append]; exact .inr hl'))
    refine ⟨s', ?_, ?_⟩
    · simp only [numbered, List.flatMap_cons, entryLines, List.cons_append, rebuildLoop, h1, okBind, loop_append, h2]
      exact h3
    · rw [h4]
      have : solidPieces (entryLines (n + 1, e)) = [bracketed (n + 1) ++ e.text] ++ solidPieces e.more := by
        rw [entryLines, solid_cons]; rfl
      simp [numbered, finish, this]

theorem rebuild_brackets {r : Re} (hr : Brackets r) {es : List Entry} (hf : ∀ b ∈ es, ∀ l ∈ b.more, NoBracketNumber l)
    (hl : ∀ l ∈ listLines es, l.length ≤ 4300) :
    rebuild (listLines es) (some (Marker.of r)) = .ok ((numbered 1 es).map fun p => prepareRef (solidPieces (entryLines p))) := by
  obtain ⟨s', h1, h2⟩ := loop_entries hr (es := es) (n := 0) (s := ⟨some 0, none, [], []⟩) rfl hf hl
  unfold rebuild chooseMarker
  simp only
  rw [show listLines es = (numbered (0 + 1) es).flatMap entryLines from rfl, h1, okBind, h2]
  simp [finish]

theorem plainList_rebuild {es : List Entry} (h : PlainList es) :
    rebuild (listLines es) (stringMarker (listLines es)) = .ok ((numbered 1 es).map fun p => prepareRef (solidPieces (entryLines p))) := by
  rw [plainList_marker h]
  exact rebuild_brackets bracket_markers h.free h.short

theorem splitOn_lines {c : Char} : ∀ {ls : List Str}, ls ≠ [] → (∀ l ∈ ls, c ∉ l) → splitOn c (join [c] ls) = ls
  | [], h, _ => absurd rfl h
  | [l], _, h => by simpa [join] using splitOn_one (h l (by simp))
  | l :: l' :: ls, _, h => by
    have ih := splitOn_lines (c := c) (ls := l' :: ls) (by simp) (fun x hx => h x (by simp [hx]))
    have key : ∀ (l : Str), c ∉ l → ∀ s, splitOn c (l ++ c :: s) = l :: splitOn c s := by
      intro l
      induction l with
      | nil => intro _ s; simp [splitOn]
      | cons x l ih2 =>
        intro hx s
        simp only [List.mem_cons, not_or] at hx
        rw [List.cons_append, splitOn, ih2 hx.2]
        simp [Ne.symm hx.1]
    have : join [c] (l :: l' :: ls) = l ++ c :: join [c] (l' :: ls) := by simp [join]
    rw [this, key l (h l (by simp)), ih]

theorem plainList_lines {es : List Entry} (h : PlainList es) {source : Str} (hs : LinesOf source (listLines es)) :
    stringLines true source = .ok ((numbered 1 es).map fun p => prepareRef (solidPieces (entryLines p))) := by
  obtain ⟨h1, h2, rfl⟩ := hs
  unfold stringLines
  simp only [if_true]
  rw [splitOn_lines h1 h2, plainList_rebuild h]

end Py
