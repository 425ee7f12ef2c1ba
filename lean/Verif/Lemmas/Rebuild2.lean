import Verif.Lemmas.Post
import Verif.Lemmas.Rebuild

/-!
# Lemmas about the rebuilding of reference lines: failures, blank lines
-/

open Py Spec

namespace Py

variable [UnicodeDB]

/-- In a numbered pattern every match has a number made of decimal digits. -/
def GoodMarker (mk : Marker) : Prop :=
  mk.numbered = true → mk.re.must [G.marknum] = true ∧ ∀ body, (G.marknum, body) ∈ mk.re.groups → body = Re.plus Re.digit

theorem lang_plus_digit {w : Str} (h : Lang (Re.plus Re.digit) w) : Decimals w := by
  refine ⟨?_, ?_⟩
  · intro e
    subst e
    have := lang_minLen _ _ h
    simp [Re.plus, Re.digit, Re.minLen] at this
  · refine lang_over (P := fun c => isDec c = true) _ ?_ w h
    simp [Re.plus, Re.digit, Re.over, CSet.mem, CItem.mem]

omit [UnicodeDB] in
theorem hasGroup_groups (g : Nat) (r : Re) : r.hasGroup g = true ↔ ∃ b, (g, b) ∈ r.groups := by
  induction r with
  | eps | fail | set | str | behind | bos | eos | wordb => simp [Re.hasGroup, Re.groups]
  | seq a b iha ihb => simp [Re.hasGroup, Re.groups, iha, ihb, exists_or]
  | alt a b iha ihb => simp [Re.hasGroup, Re.groups, iha, ihb, exists_or]
  | star _ a ih => simp [Re.hasGroup, Re.groups, ih]
  | look _ a ih => simp [Re.hasGroup, Re.groups, ih]
  | group h a ih =>
    simp only [Re.hasGroup, Re.groups, Bool.or_eq_true, beq_iff_eq, ih, List.mem_cons, Prod.mk.injEq]
    constructor
    · rintro (rfl | ⟨b, hb⟩)
      · exact ⟨a, .inl ⟨rfl, rfl⟩⟩
      · exact ⟨b, .inr hb⟩
    · rintro ⟨b, ⟨rfl, -⟩ | hb⟩
      · exact .inl rfl
      · exact .inr ⟨b, hb⟩

theorem step_total {mk : Marker} (hg : GoodMarker mk) {ind : Bool} {s : Reb} (hs : mk.numbered = true → ∃ c, s.cur = some c)
    {line : Str} (hl : line.length ≤ 4300) :
    ∃ s', rebuildStep mk ind s line = .ok s' ∧ (mk.numbered = true → ∃ c, s'.cur = some c) := by
  unfold rebuildStep
  split
  · exact ⟨_, rfl, hs⟩
  · next m hm =>
    cases hn : mk.numbered with
    | false =>
      simp only [marknum, hn, Bool.false_eq_true, if_false, okBind, inSequence]
      exact ⟨_, rfl, by simp⟩
    | true =>
      obtain ⟨g1, g2⟩ := hg hn
      obtain ⟨c, hc⟩ := hs hn
      have hm' : m ∈ finditer mk.re line := List.mem_of_head? hm
      obtain ⟨t, ht⟩ := finditer_must1 g1 hm'
      obtain ⟨ps, qs, hsc⟩ := mem_finditer hm'
      have ok := scan_hit_ok hsc
      obtain ⟨body, hb, hlang⟩ := ok.group_lang ht
      obtain rfl := g2 body hb
      obtain ⟨p, q, e⟩ := ok.group_infix ht
      have hlen : t.length ≤ 4300 := by
        have e2 : line = p ++ t ++ q := by
          rw [← e, List.reverse_reverse]
          have := scan_orig mk.re line
          rw [hsc] at this
          simpa [Piece.orig] using this.symm
        rw [e2] at hl
        simp only [List.length_append] at hl
        omega
      simp only [marknum, hn, if_true, ht, pyInt_dec (lang_plus_digit hlang) hlen, okBind, inSequence, hc]
      refine ⟨_, rfl, fun _ => ?_⟩
      split
      · exact ⟨_, rfl⟩
      · exact ⟨c, rfl⟩

theorem loop_total {mk : Marker} (hg : GoodMarker mk) {ind : Bool} {s : Reb} (hs : mk.numbered = true → ∃ c, s.cur = some c)
    {ls : List Str} (hl : ∀ l ∈ ls, l.length ≤ 4300) : ∃ s', rebuildLoop mk ind s ls = .ok s' := by
  induction ls generalizing s with
  | nil => exact ⟨s, rfl⟩
  | cons l ls ih =>
    obtain ⟨s1, h1, h2⟩ := step_total hg (ind := ind) hs (hl l (by simp))
    obtain ⟨s2, h3⟩ := ih h2 (fun x hx => hl x (by simp [hx]))
    exact ⟨s2, by rw [rebuildLoop, h1, okBind, h3]⟩

theorem rebuild_total {mk : Option Marker} (hg : ∀ k, mk = some k → GoodMarker k) {sect : List Str}
    (hl : ∀ l ∈ sect, l.length ≤ 4300) : ∃ refs, rebuild sect mk = .ok refs := by
  have hg' : GoodMarker (chooseMarker sect mk).1 := by
    cases mk with
    | some k => exact hg k rfl
    | none =>
      simp only [chooseMarker]
      split <;> exact fun h => by cases h
  obtain ⟨s, hs⟩ := loop_total hg' (ind := (chooseMarker sect mk).2) (s := ⟨some 0, none, [], []⟩) (fun _ => ⟨0, rfl⟩) hl
  exact ⟨_, by rw [rebuild, hs, okBind]⟩

omit [UnicodeDB] in
theorem strI_groups : ∀ w : Str, (Re.strI w).groups = []
  | [] => rfl
  | [_] => rfl
  | c :: d :: r => by
    have := strI_groups (d :: r)
    simpa [Re.strI, Re.groups, Re.chI] using this

/-- The number of a marker is a sequence of digits. -/
def marksDigits (r : Re) : Bool :=
  r.groups.all (fun b => b.1 != G.marknum || b.2 == Re.plus Re.digit) && (r.groups.all (fun b => b.1 != G.marknum) || r.must [G.marknum])

omit [UnicodeDB] in
theorem good_of_check {r base : Re} (h1 : r.groups = base.groups) (h2 : marksDigits base = true)
    (h3 : base.must [G.marknum] = true → r.must [G.marknum] = true) : GoodMarker (Marker.of r) := by
  simp only [marksDigits, Bool.and_eq_true, Bool.or_eq_true, List.all_eq_true] at h2
  obtain ⟨a, b⟩ := h2
  intro hn
  obtain ⟨x, hx⟩ := (hasGroup_groups _ _).1 hn
  refine ⟨?_, ?_⟩
  · rcases b with b | b
    · have := b _ (h1 ▸ hx)
      simp at this
    · exact h3 b
  · intro body hb
    have := a _ (h1 ▸ hb)
    simpa using this

omit [UnicodeDB] in
/-- The patterns of markers in the code. -/
theorem known_good {pfx : Re} (hp : pfx.groups = []) {r : Re} (h : r ∈ knownMarkers pfx) : GoodMarker (Marker.of r) := by
  simp only [knownMarkers, Rx.marker_patterns, List.mem_append, List.mem_cons, List.not_mem_nil, or_false] at h
  rcases h with (rfl | rfl | rfl | rfl | rfl | rfl | rfl | rfl | rfl | rfl | rfl | rfl | rfl | rfl) | rfl | rfl | rfl
  · exact good_of_check (base := Rx.marker_pattern_0 .eps) (congrArg (· ++ _) hp) (by decide) (fun h => by
      change (pfx.must _ || _) = true; rw [Bool.or_eq_true]; exact .inr h)
  · exact good_of_check (base := Rx.marker_pattern_1 .eps) (congrArg (· ++ _) hp) (by decide) (fun h => by
      change (pfx.must _ || _) = true; rw [Bool.or_eq_true]; exact .inr h)
  · exact good_of_check (base := Rx.marker_pattern_2 .eps) (congrArg (· ++ _) hp) (by decide) (fun h => by
      change (pfx.must _ || _) = true; rw [Bool.or_eq_true]; exact .inr h)
  · exact good_of_check (base := Rx.marker_pattern_3 .eps) (congrArg (· ++ _) hp) (by decide) (fun h => by
      change (pfx.must _ || _) = true; rw [Bool.or_eq_true]; exact .inr h)
  · exact good_of_check (base := Rx.marker_pattern_4 .eps) (congrArg (· ++ _) hp) (by decide) (fun h => by
      change (pfx.must _ || _) = true; rw [Bool.or_eq_true]; exact .inr h)
  · exact good_of_check (base := Rx.marker_pattern_5 .eps) (congrArg (· ++ _) hp) (by decide) (fun h => by
      change (pfx.must _ || _) = true; rw [Bool.or_eq_true]; exact .inr h)
  · exact good_of_check (base := Rx.marker_pattern_6 .eps) (congrArg (· ++ _) hp) (by decide) (fun h => by
      change (pfx.must _ || _) = true; rw [Bool.or_eq_true]; exact .inr h)
  · exact good_of_check (base := Rx.marker_pattern_7 .eps) (congrArg (· ++ _) hp) (by decide) (fun h => by
      change (pfx.must _ || _) = true; rw [Bool.or_eq_true]; exact .inr h)
  · exact good_of_check (base := Rx.marker_pattern_8 .eps) (congrArg (· ++ _) hp) (by decide) (fun h => by
      change (pfx.must _ || _) = true; rw [Bool.or_eq_true]; exact .inr h)
  · exact good_of_check (base := Rx.marker_pattern_9 .eps) (congrArg (· ++ _) hp) (by decide) (fun h => by
      change (pfx.must _ || _) = true; rw [Bool.or_eq_true]; exact .inr h)
  · exact good_of_check (base := Rx.marker_pattern_10 .eps) (congrArg (· ++ _) hp) (by decide) (fun h => by
      change (pfx.must _ || _) = true; rw [Bool.or_eq_true]; exact .inr h)
  · exact good_of_check (base := Rx.marker_pattern_11 .eps) (congrArg (· ++ _) hp) (by decide) (fun h => by
      change (pfx.must _ || _) = true; rw [Bool.or_eq_true]; exact .inr h)
  · exact good_of_check (base := Rx.marker_pattern_12 .eps) (congrArg (· ++ _) hp) (by decide) (fun h => by
      change (pfx.must _ || _) = true; rw [Bool.or_eq_true]; exact .inr h)
  · exact good_of_check (base := Rx.marker_pattern_13 .eps) (congrArg (· ++ _) hp) (by decide) (fun h => by
      change (pfx.must _ || _) = true; rw [Bool.or_eq_true]; exact .inr h)
  · exact good_of_check rfl (by decide) id
  · exact good_of_check rfl (by decide) id
  · exact good_of_check rfl (by decide) id

omit [UnicodeDB] in
theorem known_minLen {pfx : Re} {r : Re} (h : r ∈ knownMarkers pfx) : 0 < r.minLen := by
  simp only [knownMarkers, Rx.marker_patterns, List.mem_append, List.mem_cons, List.not_mem_nil, or_false] at h
  rcases h with (rfl | rfl | rfl | rfl | rfl | rfl | rfl | rfl | rfl | rfl | rfl | rfl | rfl | rfl) | rfl | rfl | rfl
  all_goals
    simp only [Re.minLen, Rx.marker_pattern_0, Rx.marker_pattern_1, Rx.marker_pattern_2, Rx.marker_pattern_3, Rx.marker_pattern_4,
           Rx.marker_pattern_5, Rx.marker_pattern_6, Rx.marker_pattern_7, Rx.marker_pattern_8, Rx.marker_pattern_9,
           Rx.marker_pattern_10, Rx.marker_pattern_11, Rx.marker_pattern_12, Rx.marker_pattern_13,
           Rx.re_reference_line_bracket_markers, Rx.re_reference_line_dot_markers,
           Rx.re_reference_line_number_markers, Re.space, Re.digit, Re.ch, Re.plus]
    omega

theorem known_empty {pfx : Re} {r : Re} (h : r ∈ knownMarkers pfx) : search r [] = none := by
  cases hs : search r [] with
  | none => rfl
  | some m =>
    obtain ⟨a, b, h1, h2, -⟩ := search_some (known_minLen h) hs
    have : m.txt = [] := by
      have := congrArg List.length h1
      simp only [List.length_append, List.length_nil] at this
      exact List.length_eq_zero_iff.1 (by omega)
    have hl := lang_minLen _ _ (matchHere_ok h2).1.lang
    rw [this] at hl
    have := known_minLen h
    simp at hl
    omega

/-! ### Anchored patterns -/

theorem scanGo_bos (r : Re) (k : Nat) (c : Char) (pre post : Str) :
    (scanGo (.bos ⬝ r) k (c :: pre) post).filterMap Piece.match? = [] := by
  have hn : ∀ adv (c : Char) (pre post : Str), matchHere (.bos ⬝ r) adv (c :: pre) post = none := by
    intro adv c pre post
    simp [matchHere, runK]
  induction post generalizing k c pre with
  | nil => cases k <;> simp [scanGo, hn]
  | cons d t ih =>
    cases k with
    | succ k => simp [scanGo, ih]
    | zero =>
      simp only [scanGo, hn]
      rw [List.filterMap_cons]
      exact ih 0 d (c :: pre)

theorem search_bos (r : Re) (s : Str) : search (.bos ⬝ r) s = reMatch (.bos ⬝ r) s := by
  simp only [search, finditer, scan, reMatch]
  cases s with
  | nil =>
    simp only [scanGo]
    cases matchHere (.bos ⬝ r) false [] [] <;> simp [Piece.match?]
  | cons c t =>
    simp only [scanGo]
    cases h : matchHere (.bos ⬝ r) false [] (c :: t) with
    | none =>
      simp only
      rw [List.filterMap_cons]
      simp only [Piece.match?]
      rw [scanGo_bos]
      rfl
    | some m =>
      simp only
      split <;> simp [Piece.match?]

theorem sem_bos {pre w post : Str} : Sem .bos pre w post ↔ w = [] ∧ pre = [] := Iff.rfl

theorem blank_search {l : Str} :
    (isspace l = true → ∃ m, search blankMarker.re l = some m ∧ m.start = 0) ∧
    (ink l ≠ [] → search blankMarker.re l = none) := by
  unfold blankMarker
  simp only [search_bos]
  constructor
  · intro h
    simp only [isspace, Bool.and_eq_true, List.all_eq_true] at h
    have : ∃ m, reMatch (.bos ⬝ .star true Re.space ⬝ .eos) l = some m := by
      unfold reMatch
      rw [matchHere_isSome]
      exact ⟨l, [], by simp, [], l, rfl, ⟨rfl, rfl⟩, l, [], by simp, sem_spaces.2 h.2, ⟨rfl, .inl rfl⟩⟩
    obtain ⟨m, hm⟩ := this
    exact ⟨m, hm, (matchHere_ok hm).1.start⟩
  · intro h
    unfold reMatch
    rw [matchHere_none]
    rintro ⟨w, rest, rfl, u, v, rfl, ⟨rfl, -⟩, x, y, rfl, hx, ⟨rfl, hy⟩⟩
    apply h
    have hx : Spaces x := sem_spaces.1 hx
    apply ink_spaces
    intro c hc
    simp only [List.nil_append, List.append_nil, List.mem_append] at hc
    rcases hc with hc | hc
    · exact hx c hc
    · rcases hy with hy | hy
      · subst hy; cases hc
      · subst hy
        simp only [List.mem_singleton] at hc
        subst hc
        decide

/-! ### Counting blocks -/

omit [UnicodeDB] in
theorem blocks_dropBlanks {ls : List Str} {bs : List (List Str)} (h : Blocks ls bs) : Blocks (ls.dropWhile isspace) bs := by
  induction h with
  | nil => exact .nil
  | blank h1 _ ih => simpa [List.dropWhile_cons, h1] using ih
  | @last b h1 h2 =>
    cases b with
    | nil => exact absurd rfl h1
    | cons x xs =>
      rw [List.dropWhile_cons, if_neg (by simp [h2 x (by simp)])]
      exact .last h1 h2
  | @block b ls l bs h1 h2 h3 h4 ih =>
    cases b with
    | nil => exact absurd rfl h1
    | cons x xs =>
      rw [List.cons_append, List.dropWhile_cons, if_neg (by simp [h2 x (by simp)])]
      exact .block h1 h2 h3 h4

omit [UnicodeDB] in
theorem blocks_nil {bs : List (List Str)} (h : Blocks [] bs) : bs = [] := by
  generalize e : ([] : List Str) = ls at h
  cases h with
  | nil => rfl
  | blank => cases e
  | last h1 => exact absurd e.symm h1
  | block => simp at e

omit [UnicodeDB] in
theorem dropWhile_all {p : Str → Bool} : ∀ {b : List Str} (rest : List Str), (∀ l ∈ b, p l = true) →
    (b ++ rest).dropWhile p = rest.dropWhile p
  | [], rest, _ => rfl
  | x :: b, rest, h => by
    rw [List.cons_append, List.dropWhile_cons, if_pos (h x (by simp)), dropWhile_all rest fun l hl => h l (by simp [hl])]

omit [UnicodeDB] in
theorem blankLoop_nil (f b n : Nat) (m : Bool) : blankLoop f [] b n m = (b, n, m) := by cases f <;> rfl

omit [UnicodeDB] in
theorem blankLoop_blocks (fuel : Nat) {ls : List Str} {bs : List (List Str)} (h : Blocks ls bs) (hf : ls.length ≤ fuel) (b n : Nat) (m : Bool) :
    (blankLoop fuel ls b n m).2 = (n + bs.length, m || bs.any fun b => decide (2 ≤ b.length)) ∧
    ((blankLoop fuel ls b n m).1 = b + bs.length ∨ (blankLoop fuel ls b n m).1 = b + (bs.length - 1)) ∧
    (∀ l ls', ls = l :: ls' → isspace l = true → (blankLoop fuel ls b n m).1 = b + bs.length) ∧
    (∀ l ls', ls = l :: ls' → isspace l = false → (blankLoop fuel ls b n m).1 = b + (bs.length - 1)) := by
  induction fuel generalizing ls bs b n m with
  | zero =>
    have : ls = [] := List.length_eq_zero_iff.1 (by omega)
    subst this
    obtain rfl := blocks_nil h
    simp [blankLoop]
  | succ fuel ih =>
    cases ls with
    | nil =>
      obtain rfl := blocks_nil h
      simp [blankLoop]
    | cons l ls =>
      have hlen : ls.length ≤ fuel := by simpa using hf
      cases hl : isspace l with
      | true =>
        have h' : Blocks (ls.dropWhile isspace) bs := by simpa [List.dropWhile_cons, hl] using blocks_dropBlanks h
        have hlen' : (ls.dropWhile isspace).length ≤ fuel := Nat.le_trans (List.dropWhile_sublist _).length_le hlen
        simp only [blankLoop, hl, Bool.not_true, Bool.false_eq_true, if_false]
        cases hr : ls.dropWhile isspace with
        | nil =>
          rw [hr] at h'
          obtain rfl := blocks_nil h'
          simp [blankLoop_nil]
        | cons x xs =>
          have hx : isspace x = false := by
            have := List.head?_dropWhile_not isspace ls
            rw [hr] at this
            simpa using this
          rw [hr] at h' hlen'
          simp only [List.isEmpty_cons, Bool.false_eq_true, if_false]
          obtain ⟨i1, -, -, i4⟩ := ih h' hlen' (b + 1) n m
          have i4 := i4 x xs rfl hx
          have hb : bs.length ≠ 0 := by
            intro hz
            obtain rfl := List.length_eq_zero_iff.1 hz
            generalize e : x :: xs = q at h'
            clear i1 i4 ih hr
            cases h' with
            | nil => cases e
            | blank h1 => cases e; rw [hx] at h1; cases h1
          refine ⟨i1, .inl (by omega), fun _ _ _ _ => by omega, fun l' ls' e h2 => ?_⟩
          cases e
          rw [hl] at h2; cases h2
      | false =>
        simp only [blankLoop, hl, Bool.not_false, if_true]
        generalize e : l :: ls = q at h
        cases h with
        | nil => cases e
        | blank h1 => cases e; rw [hl] at h1; cases h1
        | @last bb h1 h2 =>
          subst e
          have hd : ls.dropWhile (fun l => !isspace l) = [] := by
            have := dropWhile_all (p := fun l => !isspace l) (b := ls) [] (fun x hx => by simp [h2 x (by simp [hx])])
            simpa using this
          rw [hd, blankLoop_nil]
          refine ⟨?_, .inr (by simp), fun l' ls' e h3 => ?_, fun _ _ _ _ => by simp⟩
          · cases ls <;> simp
          · cases e; rw [hl] at h3; cases h3
        | @block bb ls2 x bs2 h1 h2 h3 h4 =>
          cases bb with
          | nil => exact absurd rfl h1
          | cons y ys =>
            rw [List.cons_append, List.cons.injEq] at e
            obtain ⟨rfl, rfl⟩ := e
            have hd : (ys ++ x :: ls2).dropWhile (fun l => !isspace l) = x :: ls2 := by
              rw [dropWhile_all _ (fun z hz => by simp [h2 z (by simp [hz])]), List.dropWhile_cons, if_neg (by simp [h3])]
            rw [hd]
            obtain ⟨i1, -, i3, -⟩ := ih (.blank h3 h4) (by simp only [List.length_append, List.length_cons] at hlen ⊢; omega) b (n + 1)
              (m || decide ((x :: ls2).length < (ys ++ x :: ls2).length))
            have i3 := i3 x ls2 rfl h3
            refine ⟨?_, .inr (by simpa using i3), fun l' ls' e h5 => ?_, fun _ _ _ _ => by simpa using i3⟩
            · rw [i1]
              simp only [List.length_cons, List.any_cons, List.length_append]
              have : decide (ls2.length + 1 < ys.length + (ls2.length + 1)) = decide (2 ≤ ys.length + 1) := by
                apply decide_eq_decide.2; omega
              rw [this, Bool.or_assoc, show n + 1 + bs2.length = n + (bs2.length + 1) by omega]
            · cases e; rw [hl] at h5; cases h5

omit [UnicodeDB] in
/-- Blank lines separate the references if there are more than three and one has several lines. -/
theorem blankSeparated_iff {sect : List Str} {bs : List (List Str)} (h : Blocks sect bs) :
    blankSeparated sect = true ↔ 3 < bs.length ∧ ∃ b ∈ bs, 2 ≤ b.length := by
  obtain ⟨i1, i2, -, -⟩ := blankLoop_blocks sect.length h (Nat.le_refl _) 0 0 false
  unfold blankSeparated
  generalize hr : blankLoop sect.length sect 0 0 false = r at i1 i2
  obtain ⟨b, n, m⟩ := r
  simp only [Prod.mk.injEq, Nat.zero_add, Bool.false_or] at i1 i2
  obtain ⟨rfl, rfl⟩ := i1
  simp only [Bool.and_eq_true, Bool.or_eq_true, decide_eq_true_eq, beq_iff_eq, List.any_eq_true]
  constructor
  · rintro ⟨⟨h1, -⟩, h2⟩; exact ⟨h1, h2⟩
  · rintro ⟨h1, h2⟩; exact ⟨⟨h1, i2⟩, h2⟩

/-! ### Splitting at blank lines -/

theorem step_blank {s : Reb} {l : Str} (h : isspace l = true) :
    rebuildStep blankMarker false s l = .ok ⟨none, some none, s.refs ++ finish s.work, [l]⟩ := by
  obtain ⟨m, h1, h2⟩ := (blank_search (l := l)).1 h
  have hl : unlessEmpty l = [l] := by
    cases l with
    | nil => simp [isspace] at h
    | cons => rfl
  unfold rebuildStep
  rw [h1]
  simp only [marknum, show blankMarker.numbered = false from rfl, Bool.false_eq_true, if_false, okBind, inSequence,
    Bool.false_and, Bool.not_false, Bool.and_true, if_true, newRef, h2, List.take_zero, List.drop_zero, hl, Option.getD_some]
  simp [unlessEmpty]

theorem step_inked {s : Reb} {l : Str} (h : ink l ≠ []) :
    rebuildStep blankMarker false s l = .ok { s with work := s.work ++ [l] } := by
  unfold rebuildStep
  rw [(blank_search (l := l)).2 h]
  have hl : unlessEmpty l = [l] := by
    cases l with
    | nil => exact absurd rfl h
    | cons => rfl
  simp [hl]

theorem loop_inked {s : Reb} (b rest : List Str) (h : ∀ l ∈ b, ink l ≠ []) :
    rebuildLoop blankMarker false s (b ++ rest) = rebuildLoop blankMarker false { s with work := s.work ++ b } rest := by
  induction b generalizing s with
  | nil => simp
  | cons l b ih =>
    rw [List.cons_append, rebuildLoop, step_inked (h l (by simp)), okBind, ih fun x hx => h x (by simp [hx])]
    simp

omit [UnicodeDB] in
theorem strip_blank {l : Str} (h : isspace l = true) : strip l = [] := by
  simp only [isspace, Bool.and_eq_true, List.all_eq_true] at h
  have := truthy_stripP isSpace l
  cases hs : stripP isSpace l with
  | nil => exact hs
  | cons c cs =>
    rw [hs] at this
    obtain ⟨c, hc, hp⟩ := this.1 rfl
    rw [h.2 c hc] at hp; cases hp

omit [UnicodeDB] in
theorem prepare_blank {l : Str} (hl : isspace l = true) {b : List Str} (hb : b.length ≤ 24) : prepareRef (l :: b) = prepareRef b := by
  unfold prepareRef maxLines
  rw [List.take_of_length_le (by simp; omega), List.take_of_length_le (by omega), List.foldl_cons, strip_blank hl]
  rfl

omit [UnicodeDB] in
theorem prepare_ne {b : List Str} (hb : b ≠ []) (hi : ∀ l ∈ b, ink l ≠ []) : prepareRef b ≠ [] := by
  obtain ⟨-, x, y, h1, h2, h3, -⟩ := refOf_prepare hb
  intro e
  rw [e, List.nil_append] at h2
  subst h2
  have hx : ink x = [] := ink_spaces h3
  rcases joins_ink1 h1 (fun p hp => hi p (List.mem_of_mem_take hp)) with ⟨h4, -⟩ | ⟨ps, p, qs, h4, -, h5⟩
  · cases b with
    | nil => exact hb rfl
    | cons c b => simp at h4
  · rw [hx] at h5
    have : ink p = [] := (List.append_eq_nil_iff.1 h5.symm).2
    exact hi p (List.mem_of_mem_take (by rw [h4]; simp)) this

omit [UnicodeDB] in
/-- Nothing or a blank line waits. -/
theorem finish_idle {w : List Str} (hw : w = [] ∨ ∃ l, w = [l] ∧ isspace l = true) : (finish w).filter (fun r => !r.isEmpty) = [] := by
  rcases hw with rfl | ⟨l, rfl, hl⟩
  · rfl
  · have : finish [l] = [[]] := by
      rw [show finish [l] = [prepareRef [l]] from rfl, prepare_blank hl (by simp)]
      rfl
    rw [this]
    rfl

omit [UnicodeDB] in
theorem finish_block {w : List Str} (hw : w = [] ∨ ∃ l, w = [l] ∧ isspace l = true) {b : List Str} (hb : b ≠ [])
    (hl : b.length ≤ 24) (hi : ∀ l ∈ b, ink l ≠ []) : (finish (w ++ b)).filter (fun r => !r.isEmpty) = [prepareRef b] := by
  have : finish (w ++ b) = [prepareRef b] := by
    rcases hw with rfl | ⟨l, rfl, h⟩
    · cases b with
      | nil => exact absurd rfl hb
      | cons c b => rfl
    · simp [finish, prepare_blank h hl]
  rw [this]
  simp [prepare_ne hb hi]

theorem loop_blankSep {ls : List Str} {bs : List (List Str)} (h : Blocks ls bs)
    (hb : ∀ b ∈ bs, b.length ≤ 24 ∧ ∀ l ∈ b, ink l ≠ []) {s s' : Reb}
    (hw : s.work = [] ∨ ∃ l, s.work = [l] ∧ isspace l = true) (hs : rebuildLoop blankMarker false s ls = .ok s') :
    (s'.refs ++ finish s'.work).filter (fun r => !r.isEmpty) = s.refs.filter (fun r => !r.isEmpty) ++ bs.map prepareRef := by
  induction h generalizing s with
  | nil => cases hs; simp [finish_idle hw]
  | @blank l ls bs h1 _ ih =>
    rw [rebuildLoop, step_blank h1, okBind] at hs
    rw [ih hb (.inr ⟨l, rfl, h1⟩) hs]
    simp [finish_idle hw]
  | @last b h1 h2 =>
    obtain ⟨b1, b2⟩ := hb b (by simp)
    rw [← List.append_nil b, loop_inked _ _ b2] at hs
    cases hs
    simp [List.filter_append, finish_block hw h1 b1 b2]
  | @block b ls l bs h1 h2 h3 _ ih =>
    obtain ⟨b1, b2⟩ := hb b (by simp)
    rw [loop_inked _ _ b2, rebuildLoop, step_blank h3, okBind] at hs
    rw [ih (fun b hh => hb b (by simp [hh])) (.inr ⟨l, rfl, h3⟩) hs]
    simp [List.filter_append, finish_block hw h1 b1 b2]

omit [UnicodeDB] in
theorem blocks_ne {ls : List Str} {bs : List (List Str)} (h : Blocks ls bs) : ∀ b ∈ bs, b ≠ [] := by
  induction h with
  | nil => simp
  | blank _ _ ih => exact ih
  | last h1 _ => simpa using h1
  | block h1 _ _ _ ih =>
    intro b hb
    rcases List.mem_cons.1 hb with rfl | hb
    · exact h1
    · exact ih b hb

theorem rebuild_blankSep {sect : List Str} {bs : List (List Str)} (h : Blocks sect bs) (hn : 3 < bs.length)
    (hm : ∃ b ∈ bs, 2 ≤ b.length) (hb : ∀ b ∈ bs, b.length ≤ 24 ∧ ∀ l ∈ b, ink l ≠ []) :
    ∃ refs, rebuild sect none = .ok refs ∧ All2 RefOf bs (refs.filter fun r => !r.isEmpty) := by
  have hsep := (blankSeparated_iff h).2 ⟨hn, hm⟩
  have key : ∃ s', rebuildLoop blankMarker false ⟨some 0, none, [], []⟩ sect = .ok s' := by
    clear hsep hn hm
    generalize (⟨some 0, none, [], []⟩ : Reb) = s
    induction h generalizing s with
    | nil => exact ⟨s, rfl⟩
    | blank h1 _ ih => rw [rebuildLoop, step_blank h1, okBind]; exact ih hb _
    | @last b _ _ => rw [← List.append_nil b, loop_inked _ _ (hb b (by simp)).2]; exact ⟨_, rfl⟩
    | @block b ls l bs _ _ h3 _ ih =>
      rw [loop_inked _ _ (hb b (by simp)).2, rebuildLoop, step_blank h3, okBind]
      exact ih (fun b hh => hb b (by simp [hh])) _
  obtain ⟨s', hs⟩ := key
  refine ⟨s'.refs ++ finish s'.work, ?_, ?_⟩
  · simp only [rebuild, chooseMarker, hsep, if_true, hs, okBind]
  · rw [loop_blankSep h hb (.inl rfl) hs]
    simpa using all2_prepare (blocks_ne h)

end Py
