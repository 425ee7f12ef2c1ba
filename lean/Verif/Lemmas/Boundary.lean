import Verif.Model.Boundary
import Verif.Spec.Boundary
import Verif.Lemmas.Post
import Verif.Lemmas.Re2

/-! # Lemmas on page headers and footers -/

open Spec

namespace Py

theorem isBreak_iff [UnicodeDB] (l : Str) : (reMatch Rx.p_break l).isSome = true ↔ BreakLine l := by
  have : reMatch Rx.p_break l = matchHere Rx.p_break false [] l := rfl
  rw [this, Option.isSome_iff_exists, matchHere_isSome]
  constructor
  · rintro ⟨w, rest, rfl, u, _, rfl, ⟨rfl, -⟩, a, _, rfl, ha, b, _, rfl, hb, c, _, rfl, hc, rfl, hend⟩
    rw [sem_spaces] at ha hc
    rw [sem_ch] at hb
    subst hb
    refine ⟨?_, by simp⟩
    intro x hx
    simp only [List.nil_append, List.append_nil, List.append_assoc, List.mem_append, List.mem_singleton] at hx
    rcases hx with hx | rfl | hx | hx
    · exact ha _ hx
    · rfl
    · exact hc _ hx
    · rcases hend with rfl | rfl
      · cases hx
      · simp at hx
        subst hx
        rfl
  · rintro ⟨h1, h2⟩
    obtain ⟨a, c, rfl⟩ := List.append_of_mem h2
    refine ⟨a ++ Char.ofNat 12 :: c, [], by simp, [], _, rfl, ⟨rfl, rfl⟩, a, _, rfl, ?_, [Char.ofNat 12], _, rfl, ?_, c, [],
      by simp, ?_, rfl, .inl rfl⟩
    · rw [sem_spaces]
      exact fun x hx => h1 x (by simp [hx])
    · rw [sem_ch]
    · rw [sem_spaces]
      exact fun x hx => h1 x (by simp [hx])

/-! ### Positions of the page breaks -/

/-- The lines of the pages after the first. -/
def glue (rest : List (Str × List Str)) : List Str := rest.flatMap fun p => p.1 :: p.2

/-- The positions of the page breaks when the first page begins at `i` and has `n` lines. -/
def positions : Nat → List (Str × List Str) → List Nat
  | _, [] => []
  | i, p :: r => i :: positions (i + 1 + p.2.length) r

theorem breaksFrom_page [UnicodeDB] {i : Nat} {p t : List Str} (h : ∀ l ∈ p, ¬ BreakLine l) :
    breaksFrom i (p ++ t) = breaksFrom (i + p.length) t := by
  induction p generalizing i with
  | nil => rfl
  | cons l ls ih =>
    have hl := h l (by simp)
    rw [← isBreak_iff] at hl
    rw [List.cons_append, breaksFrom, if_neg hl, ih fun l hl => h l (List.mem_cons_of_mem _ hl)]
    congr 1
    simp only [List.length_cons]
    omega

theorem breaksFrom_glue [UnicodeDB] : ∀ {i : Nat} {rest : List (Str × List Str)}, (∀ p ∈ rest, BreakLine p.1) →
    (∀ p ∈ rest, ∀ l ∈ p.2, ¬ BreakLine l) → breaksFrom i (glue rest) = positions i rest
  | _, [], _, _ => rfl
  | i, p :: r, h1, h2 => by
    show breaksFrom i (p.1 :: (p.2 ++ glue r)) = _
    have hb := h1 p (by simp)
    rw [← isBreak_iff] at hb
    rw [breaksFrom, if_pos hb, breaksFrom_page (h2 p (by simp)),
      breaksFrom_glue (fun q hq => h1 q (List.mem_cons_of_mem _ hq)) fun q hq => h2 q (List.mem_cons_of_mem _ hq), positions]

theorem pageBreaks_eq [UnicodeDB] {doc first : List Str} {rest : List (Str × List Str)} (h : Paged doc first rest) :
    pageBreaks doc = positions first.length rest := by
  rw [pageBreaks, h.whole, breaksFrom_page h.first]
  rw [Nat.zero_add]
  exact breaksFrom_glue h.breaks h.pages

/-- The last position. -/
theorem positions_snoc : ∀ (i : Nat) (rest : List (Str × List Str)) (p : Str × List Str),
    positions i (rest ++ [p]) = positions i rest ++ [i + (glue rest).length]
  | i, [], p => by simp [positions, glue]
  | i, q :: r, p => by
    rw [List.cons_append, positions, positions, positions_snoc _ r p]
    simp [glue]
    omega

theorem positions_length : ∀ (i : Nat) (rest : List (Str × List Str)), (positions i rest).length = rest.length
  | _, [] => rfl
  | i, q :: r => by rw [positions, List.length_cons, positions_length, List.length_cons]

theorem glue_snoc (rest : List (Str × List Str)) (p : Str × List Str) : glue (rest ++ [p]) = glue rest ++ p.1 :: p.2 := by
  simp [glue]

theorem glue_append (a b : List (Str × List Str)) : glue (a ++ b) = glue a ++ glue b := by
  simp [glue]

/-! ### Cutting -/

theorem deleteAt_eq (n a : Nat) (doc : List Str) : deleteAt n a doc = doc.take a ++ doc.drop (a + n) := by
  induction n generalizing doc with
  | zero => simp [deleteAt]
  | succ n ih =>
    rw [deleteAt, ih]
    by_cases h : a ≤ doc.length
    · have h1 : (doc.take a ++ doc.drop (a + 1)).take a = doc.take a := by
        rw [List.take_append_of_le_length (by simp; omega), List.take_take, Nat.min_self]
      have h2 : (doc.take a ++ doc.drop (a + 1)).drop (a + n) = doc.drop (a + (n + 1)) := by
        rw [List.drop_append]
        have : (doc.take a).length = a := by simp; omega
        rw [this, List.drop_of_length_le (by simp; omega), List.drop_drop]
        rw [List.nil_append]
        congr 1
        omega
      rw [h1, h2]
    · have h1 : doc.take a = doc := List.take_of_length_le (by omega)
      have h2 : ∀ k, doc.drop (a + k) = [] := fun k => List.drop_of_length_le (by omega)
      rw [h2 1, h2 (n + 1), h1]
      simp only [List.append_nil]
      rw [h1, h2 n, List.append_nil]

theorem deleteAt_front (front back : List Str) (n : Nat) :
    deleteAt n front.length (front ++ back) = front ++ back.drop n := by
  rw [deleteAt_eq]
  simp

theorem stripLoop_first (nh nf p : Nat) (ps : List Nat) (doc : List Str) : stripLoop nh nf true (p :: ps) doc
    = stripLoop nh nf false ps (if ps.isEmpty then deleteAt 1 p doc else deleteAt nf (p - nf) (deleteAt 1 p doc)) := rfl

theorem stripLoop_next (nh nf p : Nat) (ps : List Nat) (doc : List Str) : stripLoop nh nf false (p :: ps) doc
    = stripLoop nh nf false ps (if ps.isEmpty then deleteAt 1 p (deleteAt nh (p + 1) doc)
      else deleteAt nf (p - nf) (deleteAt 1 p (deleteAt nh (p + 1) doc))) := rfl

/-- The first page and the later ones, the last of them without its footer. -/
def glueCut (nf : Nat) (first : List Str) (rest : List (Str × List Str)) : List Str :=
  if rest.isEmpty then first else (first ++ glue rest).take ((first ++ glue rest).length - nf)

theorem glueCut_snoc (nf : Nat) (first : List Str) (rest : List (Str × List Str)) (p : Str × List Str) (h : nf ≤ p.2.length) :
    glueCut nf first (rest ++ [p]) = first ++ glue rest ++ p.1 :: p.2.take (p.2.length - nf) := by
  have : (rest ++ [p]).isEmpty = false := by simp
  rw [glueCut, this, if_neg (by simp), glue_snoc]
  rw [← List.append_assoc, List.take_append]
  rw [List.take_of_length_le (by simp only [List.length_append, List.length_cons]; omega)]
  congr 1
  have : (first ++ glue rest ++ p.1 :: p.2).length - nf - (first ++ glue rest).length = (p.2.length - nf) + 1 := by
    simp only [List.length_append, List.length_cons]
    omega
  rw [this, List.take_succ_cons]

theorem trimPage_eq (nh nf : Nat) (p : List Str) (h : nh + nf ≤ p.length) :
    (p.take (p.length - nf)).drop nh = trimPage nh nf p := by
  unfold trimPage
  rw [List.drop_take]
  congr 1
  omega

theorem stripLoop_inner (nh nf : Nat) (first : List Str) (l : List (Str × List Str)) :
    (∀ p ∈ l, nh + nf ≤ p.2.length) → ∀ back : List Str,
    stripLoop nh nf false (positions first.length l).reverse (glueCut nf first l ++ back)
      = first ++ l.flatMap (fun p => trimPage nh nf p.2) ++ back := by
  generalize hn : l.length = n
  induction n generalizing l with
  | zero =>
    intro _ back
    have := List.length_eq_zero_iff.1 hn
    subst this
    simp [positions, stripLoop, glueCut]
  | succ n ih =>
    intro hl back
    have hne : l ≠ [] := by rintro rfl; cases hn
    obtain ⟨r, p, rfl⟩ : ∃ r p, l = r ++ [p] := ⟨l.dropLast, l.getLast hne, (List.dropLast_concat_getLast hne).symm⟩
    have hr : r.length = n := by simpa using hn
    have hp := hl p (by simp)
    have hrl : ∀ q ∈ r, nh + nf ≤ q.2.length := fun q hq => hl q (by simp [hq])
    rw [positions_snoc, List.reverse_append, List.reverse_singleton, List.singleton_append, stripLoop_next]
    rw [glueCut_snoc nf first r p (by omega)]
    have e1 : first ++ glue r ++ p.1 :: p.2.take (p.2.length - nf) ++ back
        = (first ++ glue r ++ [p.1]) ++ (p.2.take (p.2.length - nf) ++ back) := by simp
    have e2 : first.length + (glue r).length + 1 = (first ++ glue r ++ [p.1]).length := by
      simp only [List.length_append, List.length_cons, List.length_nil]
    rw [e1, e2, deleteAt_front]
    have e3 : (p.2.take (p.2.length - nf) ++ back).drop nh = trimPage nh nf p.2 ++ back := by
      rw [List.drop_append_of_le_length (by rw [List.length_take]; omega), trimPage_eq nh nf _ hp]
    rw [e3]
    have e4 : first ++ glue r ++ [p.1] ++ (trimPage nh nf p.2 ++ back)
        = (first ++ glue r) ++ p.1 :: (trimPage nh nf p.2 ++ back) := by simp
    have e5 : first.length + (glue r).length = (first ++ glue r).length := by simp
    rw [e4, e5, deleteAt_front, List.drop_one, List.tail_cons]
    by_cases hrn : r = []
    · subst hrn
      simp [positions, stripLoop, glue]
    · have hpos : (positions first.length r).reverse.isEmpty = false := by
        rw [List.isEmpty_eq_false_iff]
        intro h0
        have := congrArg List.length h0
        rw [List.length_reverse, positions_length] at this
        exact hrn (List.length_eq_zero_iff.1 this)
      rw [hpos, if_neg (by simp)]
      have hlen : nf ≤ (glue r).length := by
        obtain ⟨r', q, rfl⟩ : ∃ r' q, r = r' ++ [q] :=
          ⟨r.dropLast, r.getLast hrn, (List.dropLast_concat_getLast hrn).symm⟩
        have := hrl q (by simp)
        rw [glue_snoc, List.length_append, List.length_cons]
        omega
      have e6 : deleteAt nf ((first ++ glue r).length - nf) (first ++ glue r ++ (trimPage nh nf p.2 ++ back))
          = glueCut nf first r ++ (trimPage nh nf p.2 ++ back) := by
        rw [deleteAt_eq]
        have h1 : (first ++ glue r).length - nf + nf = (first ++ glue r).length := by
          simp only [List.length_append]
          omega
        rw [h1, List.drop_left, List.take_append_of_le_length (by omega)]
        congr 1
        have : r.isEmpty = false := by simpa using hrn
        rw [glueCut, this, if_neg (by simp)]
      rw [e6, ih r hr hrl]
      simp

theorem stripLoop_eq (nh nf : Nat) (first last : List Str) (b : Str) (l : List (Str × List Str))
    (hl : ∀ p ∈ l, nh + nf ≤ p.2.length) :
    stripLoop nh nf true (positions first.length (l ++ [(b, last)])).reverse (first ++ glue (l ++ [(b, last)]))
      = first ++ l.flatMap (fun p => trimPage nh nf p.2) ++ last := by
  rw [positions_snoc, List.reverse_append, List.reverse_singleton, List.singleton_append, stripLoop_first]
  rw [glue_snoc]
  have e5 : first.length + (glue l).length = (first ++ glue l).length := by simp
  rw [← List.append_assoc, e5, deleteAt_front, List.drop_one, List.tail_cons]
  by_cases hrn : l = []
  · subst hrn
    simp [positions, stripLoop, glue]
  · have hpos : (positions first.length l).reverse.isEmpty = false := by
      rw [List.isEmpty_eq_false_iff]
      intro h0
      have := congrArg List.length h0
      rw [List.length_reverse, positions_length] at this
      exact hrn (List.length_eq_zero_iff.1 this)
    rw [hpos, if_neg (by simp)]
    have hlen : nf ≤ (glue l).length := by
      obtain ⟨r', q, rfl⟩ : ∃ r' q, l = r' ++ [q] :=
        ⟨l.dropLast, l.getLast hrn, (List.dropLast_concat_getLast hrn).symm⟩
      have := hl q (by simp)
      rw [glue_snoc, List.length_append, List.length_cons]
      omega
    have e6 : deleteAt nf ((first ++ glue l).length - nf) (first ++ glue l ++ last)
        = glueCut nf first l ++ last := by
      rw [deleteAt_eq]
      have h1 : (first ++ glue l).length - nf + nf = (first ++ glue l).length := by
        simp only [List.length_append]
        omega
      rw [h1, List.drop_left, List.take_append_of_le_length (by omega)]
      congr 1
      have : l.isEmpty = false := by simpa using hrn
      rw [glueCut, this, if_neg (by simp)]
    rw [e6, stripLoop_inner nh nf first l hl]

theorem foldl_min_le : ∀ (ls : List Nat) (l x : Nat), x < ls.foldl min l → x < l ∧ ∀ y ∈ ls, x < y
  | [], l, x, h => ⟨h, by simp⟩
  | y :: ys, l, x, h => by
    have := foldl_min_le ys (min l y) x h
    refine ⟨by omega, fun z hz => ?_⟩
    rcases List.mem_cons.1 hz with rfl | hz
    · omega
    · exact this.2 z hz

theorem pageLens_snoc : ∀ (i : Nat) (l : List (Str × List Str)) (q : Str × List Str),
    pageLens (positions i (l ++ [q])) = l.map fun p => p.2.length + 1
  | _, [], _ => rfl
  | i, [p], q => by simp [positions, pageLens]; omega
  | i, p :: p' :: r, q => by
    have := pageLens_snoc (i + 1 + p.2.length) (p' :: r) q
    rw [List.cons_append, positions, List.map_cons, ← this]
    rw [List.cons_append, positions, pageLens, List.cons.injEq]
    exact ⟨by omega, rfl⟩

/-! ### Words of a line -/

theorem matchHere_plus_some [UnicodeDB] {k : CSet} {pre t : Str} {m : Match}
    (h : matchHere (Re.plus (.set k)) false pre (m.txt ++ t) = some m) :
    (∀ c ∈ m.txt, k.mem c = true) ∧ ∀ c, t.head? = some c → k.mem c = false := by
  rw [matchHere] at h
  obtain ⟨w, rest, hw⟩ := runK_plus_some h
  have h1 := hw.ok
  simp only [Bool.false_and, Bool.false_eq_true, if_false, Option.some.injEq] at h1
  have hm : m.txt = w := by
    rw [← h1]
    simp [mkMatch]
  have hs := hw.split
  dsimp only at hs
  rw [hm] at hs
  have hrest := List.append_cancel_left hs
  subst hrest
  refine ⟨hm ▸ hw.mem, fun c hc => ?_⟩
  cases hk : k.mem c with
  | false => rfl
  | true =>
    exfalso
    obtain ⟨t', rfl⟩ : ∃ t', t = c :: t' := by
      cases t with
      | nil => cases hc
      | cons d t' => cases hc; exact ⟨t', rfl⟩
    have := hw.longest (w ++ [c]) t' (by simp [hm]) (by
      intro d hd
      rcases List.mem_append.1 hd with hd | hd
      · exact hw.mem d hd
      · rw [List.mem_singleton.1 hd]; exact hk) (by simp)
    simp at this

theorem matchHere_plus_none [UnicodeDB] {k : CSet} {pre t : Str} {c : Char}
    (h : matchHere (Re.plus (.set k)) false pre (c :: t) = none) : k.mem c = false := by
  cases hk : k.mem c with
  | false => rfl
  | true =>
    exfalso
    rw [matchHere] at h
    have := runK_plus_none h [c] t rfl (by simp) (by simpa using hk)
    simp at this

theorem wordSet_mem [UnicodeDB] (c : Char) :
    CSet.mem ⟨false, false, [.range 'A' 'Z', .range 'a' 'z', .range '0' '9', .ch '-']⟩ c = wordChar c := by
  have h : ∀ a b : Char, (decide (a.toNat ≤ c.toNat) && decide (c.toNat ≤ b.toNat))
      = (decide (c.val ≥ a.val) && decide (c.val ≤ b.val)) := fun a b => rfl
  simp only [CSet.mem, List.any_cons, List.any_nil, CItem.mem, Bool.or_false, h, Bool.false_eq_true, if_false]
  simp only [wordChar, Char.isAlphanum, Char.isAlpha, Char.isUpper, Char.isLower, Char.isDigit]
  simp only [Bool.or_assoc, Bool.decide_and]

theorem scanned_words [UnicodeDB] {pre s : Str} {ps : List Piece} (h : Scanned Rx.p_wordSearch pre s ps) :
    Words s ((ps.filterMap Piece.match?).map (·.txt)) := by
  induction h with
  | nil => exact .nil
  | ch h1 _ ih =>
    have := matchHere_plus_none h1
    rw [wordSet_mem] at this
    exact .other this ih
  | @hit pre t ps m h1 h2 _ ih =>
    obtain ⟨h3, h4⟩ := matchHere_plus_some h1
    refine .word h2 (fun c hc => ?_) (fun c hc => ?_) ih
    · rw [← wordSet_mem]; exact h3 c hc
    · rw [← wordSet_mem]; exact h4 c hc

theorem words_wordsOf [UnicodeDB] (l : Str) : Words l (wordsOf l) :=
  scanned_words (scan_scanned' (by decide) l)

theorem words_mem {l : Str} {ws : List Str} (h : Words l ws) : ∀ w ∈ ws, w ≠ [] ∧ ∀ c ∈ w, wordChar c = true := by
  induction h with
  | nil => simp
  | other _ _ ih => exact ih
  | word h1 h2 _ _ ih =>
    intro w hw
    rcases List.mem_cons.1 hw with rfl | hw
    · exact ⟨h1, h2⟩
    · exact ih w hw

theorem run_unique {P : Char → Bool} : ∀ {w w' s s' : Str}, w ++ s = w' ++ s' → (∀ c ∈ w, P c = true) →
    (∀ c ∈ w', P c = true) → (∀ c, s.head? = some c → P c = false) → (∀ c, s'.head? = some c → P c = false) →
    w = w' ∧ s = s'
  | [], [], s, s', h, _, _, _, _ => ⟨rfl, h⟩
  | [], c :: w', s, s', h, _, h2, h3, _ => by
    have h0 : s = c :: (w' ++ s') := h
    have := h3 c (by rw [h0]; rfl)
    rw [h2 c (by simp)] at this
    cases this
  | c :: w, [], s, s', h, h1, _, _, h4 => by
    have h0 : s' = c :: (w ++ s) := h.symm
    have := h4 c (by rw [h0]; rfl)
    rw [h1 c (by simp)] at this
    cases this
  | c :: w, d :: w', s, s', h, h1, h2, h3, h4 => by
    rw [List.cons_append, List.cons_append, List.cons.injEq] at h
    obtain ⟨e1, e2⟩ := run_unique h.2 (fun x hx => h1 x (List.mem_cons_of_mem _ hx))
      (fun x hx => h2 x (List.mem_cons_of_mem _ hx)) h3 h4
    exact ⟨by rw [h.1, e1], e2⟩

theorem words_unique {l : Str} {ws : List Str} (h : Words l ws) : ∀ {vs}, Words l vs → ws = vs := by
  induction h with
  | nil =>
    intro vs hv
    generalize he : ([] : Str) = l at hv
    cases hv with
    | nil => rfl
    | other => cases he
    | word h1 =>
      exfalso
      exact h1 (List.append_eq_nil_iff.1 he.symm).1
  | @other c s ws h1 _ ih =>
    intro vs hv
    generalize he : c :: s = l at hv
    cases hv with
    | nil => cases he
    | other _ hv => cases he; exact ih hv
    | @word w s' _ hw hc _ _ =>
      exfalso
      cases w with
      | nil => exact hw rfl
      | cons d w =>
        cases he
        rw [hc c (by simp)] at h1
        cases h1
  | @word w s ws h1 h2 h3 _ ih =>
    intro vs hv
    generalize he : w ++ s = l at hv
    cases hv with
    | nil => exact absurd (List.append_eq_nil_iff.1 he).1 h1
    | @other c _ _ hc _ =>
      exfalso
      cases w with
      | nil => exact h1 rfl
      | cons d w =>
        cases he
        rw [h2 c (by simp)] at hc
        cases hc
    | word g1 g2 g3 hv =>
      obtain ⟨rfl, rfl⟩ := run_unique he h2 g2 h3 g3
      rw [ih hv]

theorem wordChar_ascii {c : Char} (h : wordChar c = true) : c.toNat < 128 := by
  simp only [wordChar, Char.isAlphanum, Char.isAlpha, Char.isUpper, Char.isLower, Char.isDigit, Bool.or_eq_true,
    Bool.and_eq_true, decide_eq_true_eq, ge_iff_le, UInt32.le_iff_toNat_le, beq_iff_eq] at h
  show c.val.toNat < 128
  rcases h with ((h | h) | h) | rfl
  · exact Nat.lt_of_le_of_lt h.2 (by decide)
  · exact Nat.lt_of_le_of_lt h.2 (by decide)
  · exact Nat.lt_of_le_of_lt h.2 (by decide)
  · decide

theorem ascii_all {P : Char → Prop} (h : ∀ n < 128, P (Char.ofNat n)) {c : Char} (hc : c.toNat < 128) : P c := by
  have := h c.toNat hc
  rwa [Char.ofNat_toNat] at this

theorem wordChar_lower [UnicodeDB] {c : Char} (h : wordChar c = true) : lowerC c = [c.toLower] := by
  have ha := wordChar_ascii h
  have : isAscii c = true := by simpa [isAscii] using ha
  rw [lowerC, if_pos this, List.cons.injEq]
  refine ⟨?_, rfl⟩
  exact ascii_all (P := fun c => (if isAsciiUpper c = true then swapCase c else c) = c.toLower) (by decide +kernel) ha

theorem wordChar_digit [UnicodeDB] {c : Char} (h : wordChar c = true) : isDigitC c = c.isDigit := by
  have ha := wordChar_ascii h
  have : isAscii c = true := by simpa [isAscii] using ha
  rw [isDigitC, if_pos this]
  exact ascii_all (P := fun c => isAsciiDigit c = c.isDigit) (by decide +kernel) ha

theorem lower_word [UnicodeDB] : ∀ {w : Str}, (∀ c ∈ w, wordChar c = true) → lower w = w.map Char.toLower
  | [], _ => rfl
  | c :: t, h => by
    have := lower_word (w := t) fun d hd => h d (List.mem_cons_of_mem _ hd)
    rw [lower] at this ⊢
    rw [List.flatMap_cons, this, wordChar_lower (h c (by simp))]
    rfl

theorem wordMatch_eq [UnicodeDB] {a b : Str} (ha : a ≠ [] ∧ ∀ c ∈ a, wordChar c = true)
    (hb : b ≠ [] ∧ ∀ c ∈ b, wordChar c = true) : wordMatch a b = wordAlike a b := by
  have hd : ∀ {w : Str}, (w ≠ [] ∧ ∀ c ∈ w, wordChar c = true) → isdigit w = w.all Char.isDigit := by
    intro w hw
    have h0 : w.isEmpty = false := by simpa using hw.1
    rw [isdigit, h0]
    rw [Bool.not_false, Bool.true_and, Bool.eq_iff_iff]
    simp only [List.all_eq_true]
    exact ⟨fun h c hc => by rw [← wordChar_digit (hw.2 c hc)]; exact h c hc,
      fun h c hc => by rw [wordChar_digit (hw.2 c hc)]; exact h c hc⟩
  rw [wordMatch, wordAlike, hd ha, hd hb, lower_word ha.2, lower_word hb.2]
  simp only [List.head?_map, List.getLast?_map]
  cases a.all Char.isDigit && b.all Char.isDigit <;> simp

theorem countP_alike [UnicodeDB] (a b : Str) : ((wordsOf a).zip (wordsOf b)).countP (fun p => wordAlike p.1 p.2)
    = (((wordsOf a).zip (wordsOf b)).filter fun p => wordMatch p.1 p.2).length := by
  rw [List.countP_eq_length_filter]
  congr 1
  refine List.filter_congr fun p hp => ?_
  have := List.of_mem_zip hp
  exact (wordMatch_eq (words_mem (words_wordsOf a) _ this.1) (words_mem (words_wordsOf b) _ this.2)).symm

theorem lineAgrees_iff [UnicodeDB] (a b : Str) : lineAgrees (isspace a) (wordsOf a) b = true ↔ Repeats a b := by
  have ha := words_wordsOf a
  have hb := words_wordsOf b
  have hsp : isspace a = true ↔ Blank a := by
    simp [isspace, Blank]
  by_cases hbl : Blank a
  · rw [hsp.2 hbl, lineAgrees]
    rw [if_pos rfl]
    constructor
    · intro h
      exact ⟨_, _, ha, hb, fun _ => by simpa using h, fun h => absurd hbl h⟩
    · rintro ⟨ws, vs, _, hv, h, _⟩
      rw [← words_unique hv hb, h hbl]
      rfl
  · have hf : isspace a = false := by
      rw [← Bool.not_eq_true]
      exact fun h0 => hbl (hsp.1 h0)
    rw [hf]
    unfold lineAgrees linesSimilar
    simp only [Bool.false_eq_true, if_false]
    constructor
    · intro h
      refine ⟨_, _, ha, hb, fun h => absurd h hbl, fun _ => ?_⟩
      split at h
      · cases h
      · split at h
        · cases h
        · rename_i h1 h2
          simp only [ne_eq, Decidable.not_not] at h2
          simp only [Bool.not_eq_true', Bool.or_eq_false_iff, beq_eq_false_iff_ne, decide_eq_false_iff_not] at h
          refine ⟨h2, fun h0 => h.1 (by rw [h0]; rfl), ?_⟩
          rw [countP_alike]
          omega
    · rintro ⟨ws, vs, hw, hv, _, h⟩
      obtain ⟨h1, h2, h3⟩ := h hbl
      obtain rfl := words_unique hw ha
      obtain rfl := words_unique hv hb
      have h4 : (wordsOf a).length ≠ 0 := fun h => h2 (List.length_eq_zero_iff.1 h)
      rw [countP_alike] at h3
      rw [if_neg (by simp only [Bool.or_eq_true, beq_iff_eq, bne_iff_ne]; omega), if_neg (by omega)]
      simp only [Bool.not_eq_true', Bool.or_eq_false_iff, beq_eq_false_iff_ne, decide_eq_false_iff_not]
      exact ⟨h4, by omega⟩

/-! ### Looking up lines -/

theorem positions_get : ∀ (i k : Nat) (rest : List (Str × List Str)), k < rest.length →
    (positions i rest)[k]? = some (i + (glue (rest.take k)).length)
  | i, _, [], h => by cases h
  | i, 0, p :: r, _ => by simp [positions, glue]
  | i, k + 1, p :: r, h => by
    have := positions_get (i + 1 + p.2.length) k r (by simpa using h)
    rw [positions, List.getElem?_cons_succ, this]
    simp [glue]
    omega

theorem doc_below {doc first : List Str} {rest : List (Str × List Str)} {j : Nat} (k : Nat)
    (hd : doc = first ++ glue rest) (hj : j < rest.length) :
    doc[first.length + (glue (rest.take j)).length + k + 1]? = (below rest j)[k]? := by
  have hd2 : doc = (first ++ glue (rest.take j) ++ [rest[j].1]) ++ below rest j := by
    rw [hd]
    conv => lhs; rw [← List.take_append_drop j rest]
    have : glue (rest.drop j) = rest[j].1 :: below rest j := by
      rw [below, List.drop_eq_getElem_cons hj, glue, List.flatMap_cons]
      rfl
    rw [glue_append, this]
    simp
  have hlen : (first ++ glue (rest.take j) ++ [rest[j].1]).length = first.length + (glue (rest.take j)).length + 1 := by
    simp only [List.length_append, List.length_cons, List.length_nil]
  rw [hd2, List.getElem?_append_right (by omega), hlen]
  congr 1
  omega

theorem doc_above {doc first : List Str} {rest : List (Str × List Str)} {j k : Nat}
    (hd : doc = first ++ glue rest) (hk : k < first.length + (glue (rest.take j)).length) :
    doc[first.length + (glue (rest.take j)).length - k - 1]? = (above first rest j)[k]? := by
  have hd2 : doc = (first ++ glue (rest.take j)) ++ glue (rest.drop j) := by
    rw [hd]
    conv => lhs; rw [← List.take_append_drop j rest]
    rw [glue_append, List.append_assoc]
  have hl : (first ++ glue (rest.take j)).length = first.length + (glue (rest.take j)).length := List.length_append
  have hab : above first rest j = (first ++ glue (rest.take j)).reverse := rfl
  rw [hab, List.getElem?_reverse (by omega), hd2, List.getElem?_append_left (by omega)]
  congr 1
  omega

theorem below_page {rest : List (Str × List Str)} {j k : Nat} {p : Str × List Str} (hj : rest[j]? = some p)
    (hk : k < p.2.length) : (below rest j)[k]? = p.2[k]? := by
  obtain ⟨hlt, he⟩ := List.getElem?_eq_some_iff.1 hj
  rw [below, List.drop_eq_getElem_cons hlt, he, List.flatMap_cons, List.cons_append, List.tail_cons,
    List.getElem?_append_left hk]

theorem glue_take_succ {rest : List (Str × List Str)} {j : Nat} {p : Str × List Str} (hj : rest[j]? = some p) :
    (glue (rest.take (j + 1))).length = (glue (rest.take j)).length + 1 + p.2.length := by
  have : rest.take (j + 1) = rest.take j ++ [p] := by
    rw [List.take_add_one, hj]
    rfl
  rw [this, glue_snoc]
  simp
  omega

/-! ### The loops -/

theorem getIdx_ok {α : Type} {l : List α} {i : Nat} {a : α} (h : l[i]? = some a) : getIdx l i = .ok a := by
  rw [getIdx, h]

theorem getIdx_lt {α : Type} {l : List α} {i : Nat} (h : i < l.length) : ∃ a, getIdx l i = .ok a ∧ l[i]? = some a :=
  ⟨l[i], getIdx_ok (List.getElem?_eq_getElem h), List.getElem?_eq_getElem h⟩

/-- The positions compared with the first one. -/
inductive Visited (rem step : Nat) : Nat → Nat → Prop
  | here {cur} : cur < rem → Visited rem step cur cur
  | next {cur j} : cur < rem → Visited rem step (cur + step) j → Visited rem step cur j

theorem visited_mul (rem step cur : Nat) : ∀ k, cur + k * step < rem → Visited rem step cur (cur + k * step)
  | 0, h => by simpa using Visited.here (step := step) (by simpa using h)
  | k + 1, h => by
    have e : cur + (k + 1) * step = cur + step + k * step := by rw [Nat.succ_mul]; omega
    rw [e] at h
    have := Visited.next (step := step) (cur := cur) (by omega) (visited_mul rem step (cur + step) k h)
    rwa [← e] at this

theorem okBind {α β : Type} (a : α) (f : α → Py β) : ((Except.ok a : Py α) >>= f) = f a := rfl

variable [UnicodeDB]

theorem headInner_ok (doc : List Str) (pbs : List Nat) (empty : Bool) (words : List Str) (n rem step : Nat)
    (hs : 0 < step) (hr : rem ≤ pbs.length) : ∀ (fuel cur : Nat), 0 < fuel → rem < cur + fuel →
    ∃ b, headInner doc pbs empty words n rem step fuel cur = .ok b ∧ (b = true ↔ ∀ j, Visited rem step cur j →
      ∃ p, pbs[j]? = some p ∧ ∃ l, doc[p + n + 1]? = some l ∧ lineAgrees empty words l = true)
  | 0, cur, h, _ => by cases h
  | fuel + 1, cur, _, h => by
    rw [headInner]
    by_cases hc : cur < rem
    · rw [if_pos hc]
      obtain ⟨p, hp, hp'⟩ := getIdx_lt (l := pbs) (i := cur) (by omega)
      rw [hp, okBind]
      by_cases hd : doc.length ≤ p + n + 1
      · rw [if_pos hd]
        refine ⟨false, rfl, by simp, fun h => ?_⟩
        obtain ⟨q, hq, l, hl, _⟩ := h cur (.here hc)
        rw [hp'] at hq
        cases hq
        have := (List.getElem?_eq_some_iff.1 hl).1
        omega
      · rw [if_neg hd]
        obtain ⟨l, hl, hl'⟩ := getIdx_lt (l := doc) (i := p + n + 1) (by omega)
        rw [hl, okBind]
        cases ha : lineAgrees empty words l with
        | false =>
          refine ⟨false, rfl, by simp, fun h => ?_⟩
          obtain ⟨q, hq, l', hl2, hag⟩ := h cur (.here hc)
          rw [hp'] at hq
          cases hq
          rw [hl'] at hl2
          cases hl2
          rw [ha] at hag
          exact hag
        | true =>
          rw [if_pos rfl]
          obtain ⟨b, hb, hb'⟩ := headInner_ok doc pbs empty words n rem step hs hr fuel (cur + step) (by omega) (by omega)
          refine ⟨b, hb, fun h1 j hj => ?_, fun h1 => hb'.2 fun j hj => h1 j (.next hc hj)⟩
          cases hj with
          | here _ => exact ⟨p, hp', l, hl', ha⟩
          | next _ hj => exact hb'.1 h1 j hj
    · rw [if_neg hc]
      refine ⟨true, rfl, fun _ j hj => ?_, fun _ => rfl⟩
      cases hj <;> contradiction

/-- Condition for a further header line in terms of the document. -/
def HeadAt (doc : List Str) (pbs : List Nat) (rem step p q k : Nat) : Prop :=
  p + k + 1 < q ∧ ∃ l, doc[p + k + 1]? = some l ∧ ∀ j, Visited rem step (1 + step) j → ∃ p', pbs[j]? = some p' ∧
    ∃ l', doc[p' + k + 1]? = some l' ∧ lineAgrees (isspace l) (wordsOf l) l' = true

theorem headLoop_ok (doc : List Str) (pbs : List Nat) (rem step p q : Nat) (hs : 0 < step) (hr : rem ≤ pbs.length)
    (hp : pbs[1]? = some p) (hq : pbs[2]? = some q) (hqd : q < doc.length) : ∀ (fuel n : Nat), p + n + 1 ≤ q →
    q < p + n + 1 + fuel →
    ∃ n', headLoop doc pbs rem step fuel n = .ok n' ∧ (∀ k, n ≤ k → k < n' → HeadAt doc pbs rem step p q k) ∧
      ¬ HeadAt doc pbs rem step p q n'
  | 0, n, h1, h2 => by omega
  | fuel + 1, n, h1, h2 => by
    obtain ⟨l, hl, hl'⟩ := getIdx_lt (l := doc) (i := p + n + 1) (by omega)
    rw [headLoop, getIdx_ok hp, okBind, hl, okBind, getIdx_ok hq, okBind]
    by_cases he : p + n + 1 = q
    · rw [if_pos he]
      exact ⟨n, rfl, fun k h3 h4 => by omega, fun h => by have := h.1; omega⟩
    · rw [if_neg he]
      obtain ⟨b, hb, hb'⟩ := headInner_ok doc pbs (isspace l) (wordsOf l) n rem step hs hr (rem + 1) (1 + step)
        (by omega) (by omega)
      rw [hb, okBind]
      cases b with
      | false =>
        refine ⟨n, rfl, fun k h3 h4 => by omega, fun h => ?_⟩
        obtain ⟨_, l2, hl2, hall⟩ := h
        rw [hl'] at hl2
        cases hl2
        exact absurd (hb'.2 hall) (by simp)
      | true =>
        dsimp only
        rw [if_pos rfl]
        obtain ⟨n', hn, hn', hmax⟩ := headLoop_ok doc pbs rem step p q hs hr hp hq hqd fuel (n + 1) (by omega) (by omega)
        refine ⟨n', hn, fun k h3 h4 => ?_, hmax⟩
        by_cases hk : k = n
        · subst hk
          exact ⟨by omega, l, hl', hb'.1 rfl⟩
        · exact hn' k (by omega) h4

theorem footInner_ok (doc : List Str) (empty : Bool) (words : List Str) (n : Nat) : ∀ ps : List Nat,
    (∀ p ∈ ps, p < doc.length) →
    ∃ b, footInner doc empty words n ps = .ok b ∧ (b = true ↔ ∀ p ∈ ps,
      ∃ l, doc[p - n - 1]? = some l ∧ lineAgrees empty words l = true)
  | [], _ => ⟨true, rfl, by simp⟩
  | p :: ps, h => by
    obtain ⟨l, hl, hl'⟩ := getIdx_lt (l := doc) (i := p - n - 1) (by have := h p (by simp); omega)
    rw [footInner, hl, okBind]
    cases ha : lineAgrees empty words l with
    | false =>
      refine ⟨false, rfl, by simp, fun h => ?_⟩
      obtain ⟨l2, hl2, hag⟩ := h p (by simp)
      rw [hl'] at hl2
      cases hl2
      rw [ha] at hag
      exact hag
    | true =>
      rw [if_pos rfl]
      obtain ⟨b, hb, hb'⟩ := footInner_ok doc empty words n ps fun q hq => h q (List.mem_cons_of_mem _ hq)
      refine ⟨b, hb, fun h1 q hq => ?_, fun h1 => hb'.2 fun q hq => h1 q (List.mem_cons_of_mem _ hq)⟩
      rcases List.mem_cons.1 hq with rfl | hq
      · exact ⟨l, hl', ha⟩
      · exact hb'.1 h1 q hq

/-- Condition for a further footer line in terms of the document. -/
def FootAt (doc : List Str) (pbs : List Nat) (p k : Nat) : Prop :=
  k < p ∧ ∃ l, doc[p - k - 1]? = some l ∧ ∀ p' ∈ pbs.drop 2,
    ∃ l', doc[p' - k - 1]? = some l' ∧ lineAgrees (isspace l) (wordsOf l) l' = true

theorem footLoop_ok (doc : List Str) (pbs : List Nat) (p : Nat) (hp : pbs[1]? = some p)
    (hd : ∀ p ∈ pbs, p < doc.length) : ∀ (fuel n : Nat), n ≤ p → p < n + fuel →
    ∃ n', footLoop doc pbs fuel n = .ok n' ∧ (∀ k, n ≤ k → k < n' → FootAt doc pbs p k) ∧ ¬ FootAt doc pbs p n'
  | 0, n, h1, h2 => by omega
  | fuel + 1, n, h1, h2 => by
    have hpd := hd p (List.mem_of_getElem? hp)
    rw [footLoop, getIdx_ok hp, okBind]
    by_cases he : (p < n + 1 || doc.length < p - n) = true
    · rw [if_pos he]
      simp only [Bool.or_eq_true, decide_eq_true_eq] at he
      exact ⟨n, rfl, fun k h3 h4 => by omega, fun h => by have := h.1; omega⟩
    · rw [if_neg he]
      obtain ⟨l, hl, hl'⟩ := getIdx_lt (l := doc) (i := p - n - 1) (by omega)
      rw [hl, okBind]
      obtain ⟨b, hb, hb'⟩ := footInner_ok doc (isspace l) (wordsOf l) n (pbs.drop 2)
        fun q hq => hd q (List.mem_of_mem_drop hq)
      rw [hb, okBind]
      simp only [Bool.or_eq_true, decide_eq_true_eq] at he
      cases b with
      | false =>
        refine ⟨n, rfl, fun k h3 h4 => by omega, fun h => ?_⟩
        obtain ⟨_, l2, hl2, hall⟩ := h
        rw [hl'] at hl2
        cases hl2
        exact absurd (hb'.2 hall) (by simp)
      | true =>
        rw [if_pos rfl]
        obtain ⟨n', hn, hn', hmax⟩ := footLoop_ok doc pbs p hp hd fuel (n + 1) (by omega) (by omega)
        refine ⟨n', hn, fun k h3 h4 => ?_, hmax⟩
        by_cases hk : k = n
        · subst hk
          exact ⟨by omega, l, hl', hb'.1 rfl⟩
        · exact hn' k (by omega) h4

/-! ### The whole -/

omit [UnicodeDB] in
theorem glue_take_lt (rest : List (Str × List Str)) (k : Nat) (h : k < rest.length) :
    (glue (rest.take k)).length < (glue rest).length := by
  have : rest = rest.take k ++ rest.drop k := (List.take_append_drop k rest).symm
  have h2 : (glue (rest.drop k)).length ≠ 0 := by
    rw [List.drop_eq_getElem_cons h, glue, List.flatMap_cons]
    simp
  have h3 : (glue rest).length = (glue (rest.take k ++ rest.drop k)).length := by rw [← this]
  rw [glue_append, List.length_append] at h3
  omega

omit [UnicodeDB] in
theorem glue_take_mono (rest : List (Str × List Str)) {i j : Nat} (h : i ≤ j) :
    (glue (rest.take i)).length ≤ (glue (rest.take j)).length := by
  have : rest.take j = rest.take i ++ (rest.take j).drop i := by
    conv => lhs; rw [← List.take_append_drop i (rest.take j)]
    rw [List.take_take, Nat.min_eq_left h]
  rw [this, glue_append, List.length_append]
  omega

omit [UnicodeDB] in
theorem positions_lt {first : List Str} {rest : List (Str × List Str)} :
    ∀ p ∈ positions first.length rest, p < (first ++ glue rest).length := by
  intro p hp
  obtain ⟨k, hk⟩ := List.getElem?_of_mem hp
  have hlt : k < rest.length := by
    rw [← positions_length first.length rest]
    exact (List.getElem?_eq_some_iff.1 hk).1
  rw [positions_get _ _ _ hlt] at hk
  cases hk
  have := glue_take_lt rest k hlt
  rw [List.length_append]
  omega

omit [UnicodeDB] in
theorem visited_iff {rem step cur j : Nat} : Visited rem step cur j ↔ ∃ k, j = cur + k * step ∧ j < rem := by
  constructor
  · intro h
    induction h with
    | here h => exact ⟨0, by simp, h⟩
    | next _ _ ih =>
      obtain ⟨k, rfl, h⟩ := ih
      exact ⟨k + 1, by rw [Nat.succ_mul]; omega, h⟩
  · rintro ⟨k, rfl, h⟩
    exact visited_mul _ _ _ k h

omit [UnicodeDB] in
theorem visited_head {n j : Nat} (hn : 4 ≤ n) :
    Visited (n - 1) (if 3 < n - 1 then 2 else 1) (1 + if 3 < n - 1 then 2 else 1) j ↔
      1 < j ∧ j + 1 < n ∧ (n = 4 ∨ j % 2 = 1) := by
  rw [visited_iff]
  by_cases h4 : 3 < n - 1
  · rw [if_pos h4]
    constructor
    · rintro ⟨k, h, h'⟩
      omega
    · rintro ⟨h1, h2, h3⟩
      exact ⟨(j - 3) / 2, by omega, by omega⟩
  · rw [if_neg h4]
    constructor
    · rintro ⟨k, h, h'⟩
      omega
    · rintro ⟨h1, h2, h3⟩
      exact ⟨j - 2, by omega, by omega⟩

theorem headerLines_ok {doc first : List Str} {rest : List (Str × List Str)} (hd : doc = first ++ glue rest) :
    ∃ nh, headerLines doc (positions first.length rest) = .ok nh ∧ Count (HeadLine rest) nh := by
  have hlen := positions_length first.length rest
  rw [headerLines]
  rw [hlen]
  by_cases h3 : 2 < rest.length - 1
  · rw [if_pos h3]
    have g := fun k hk => positions_get first.length k rest hk
    have h1 := g 1 (by omega)
    have h2 := g 2 (by omega)
    have hq : first.length + (glue (rest.take 2)).length < doc.length := by
      rw [hd, List.length_append]
      have := glue_take_lt rest 2 (by omega)
      omega
    have hp1 : rest[1]? = some rest[1] := List.getElem?_eq_getElem (by omega)
    have hpq : (glue (rest.take 2)).length = (glue (rest.take 1)).length + 1 + rest[1].2.length := glue_take_succ hp1
    obtain ⟨n', hn, hn', hmax⟩ := headLoop_ok doc _ (rest.length - 1) (if 3 < rest.length - 1 then 2 else 1) _ _
      (by split <;> omega) (by omega) h1 h2 hq (doc.length + 1) 0 (by omega) (by omega)
    have key : ∀ k, HeadAt doc (positions first.length rest) (rest.length - 1) (if 3 < rest.length - 1 then 2 else 1)
        (first.length + (glue (rest.take 1)).length) (first.length + (glue (rest.take 2)).length) k ↔ HeadLine rest k := by
      intro k
      constructor
      · rintro ⟨hk, l, hl, hall⟩
        have hkp : k < rest[1].2.length := by omega
        rw [doc_below k hd (by omega), below_page hp1 hkp] at hl
        refine ⟨by omega, rest[1], l, hp1, hl, fun j hj1 hj2 hj3 => ?_⟩
        obtain ⟨p', hp', l', hl', hag⟩ := hall j ((visited_head (by omega)).2 ⟨hj1, hj2, hj3⟩)
        rw [g j (by omega)] at hp'
        cases hp'
        rw [doc_below k hd (by omega)] at hl'
        exact ⟨l', hl', (lineAgrees_iff _ _).1 hag⟩
      · rintro ⟨h4, p, l, hp, hl, hall⟩
        rw [hp1] at hp
        cases hp
        have hkp : k < rest[1].2.length := (List.getElem?_eq_some_iff.1 hl).1
        refine ⟨by omega, l, ?_, fun j hj => ?_⟩
        · rw [doc_below k hd (by omega), below_page hp1 hkp]
          exact hl
        · obtain ⟨hj1, hj2, hj3⟩ := (visited_head h4).1 hj
          obtain ⟨b, hb, hrep⟩ := hall j hj1 hj2 hj3
          refine ⟨_, g j (by omega), b, ?_, (lineAgrees_iff _ _).2 hrep⟩
          rw [doc_below k hd (by omega)]
          exact hb
    exact ⟨n', hn, fun k hk => (key k).1 (hn' k (Nat.zero_le _) hk), fun h => hmax ((key n').2 h)⟩
  · rw [if_neg h3]
    exact ⟨0, rfl, fun k hk => by omega, fun h => by have := h.1; omega⟩

theorem footerLines_ok {doc first : List Str} {rest : List (Str × List Str)} (hd : doc = first ++ glue rest) :
    ∃ nf, footerLines doc (positions first.length rest) = .ok nf ∧ Count (FootLine first rest) nf := by
  have hlen := positions_length first.length rest
  rw [footerLines, hlen]
  by_cases h3 : 2 < rest.length
  · rw [if_pos h3]
    have g := fun k hk => positions_get first.length k rest hk
    have h1 := g 1 (by omega)
    have hpos : ∀ p ∈ positions first.length rest, p < doc.length := by
      rw [hd]
      exact positions_lt
    have hlt := hpos _ (List.mem_of_getElem? h1)
    obtain ⟨n', hn, hn', hmax⟩ := footLoop_ok doc _ _ h1 hpos (doc.length + 1) 0 (by omega) (by omega)
    have key : ∀ k, FootAt doc (positions first.length rest) (first.length + (glue (rest.take 1)).length) k
        ↔ FootLine first rest k := by
      intro k
      constructor
      · rintro ⟨hk, l, hl, hall⟩
        rw [doc_above hd hk] at hl
        refine ⟨h3, l, hl, fun j hj1 hj2 => ?_⟩
        have hmem : first.length + (glue (rest.take j)).length ∈ (positions first.length rest).drop 2 := by
          refine List.mem_of_getElem? (i := j - 2) ?_
          rw [List.getElem?_drop, show 2 + (j - 2) = j by omega]
          exact g j hj2
        obtain ⟨l', hl', hag⟩ := hall _ hmem
        have := glue_take_mono rest (show 1 ≤ j by omega)
        rw [doc_above hd (by omega)] at hl'
        exact ⟨l', hl', (lineAgrees_iff _ _).1 hag⟩
      · rintro ⟨_, l, hl, hall⟩
        have hk : k < first.length + (glue (rest.take 1)).length := by
          have := (List.getElem?_eq_some_iff.1 hl).1
          have hab : above first rest 1 = (first ++ glue (rest.take 1)).reverse := rfl
          rw [hab, List.length_reverse, List.length_append] at this
          exact this
        refine ⟨hk, l, by rw [doc_above hd hk]; exact hl, fun p' hp' => ?_⟩
        obtain ⟨i, hi⟩ := List.getElem?_of_mem hp'
        rw [List.getElem?_drop] at hi
        have hlt2 : 2 + i < rest.length := by
          rw [← hlen]
          exact (List.getElem?_eq_some_iff.1 hi).1
        rw [g _ hlt2] at hi
        cases hi
        obtain ⟨b, hb, hrep⟩ := hall (2 + i) (by omega) hlt2
        have := glue_take_mono rest (show 1 ≤ 2 + i by omega)
        refine ⟨b, ?_, (lineAgrees_iff _ _).2 hrep⟩
        rw [doc_above hd (by omega)]
        exact hb
    exact ⟨n', hn, fun k hk => (key k).1 (hn' k (Nat.zero_le _) hk), fun h => hmax ((key n').2 h)⟩
  · rw [if_neg h3]
    exact ⟨0, rfl, fun k hk => by omega, fun h => by have := h.1; omega⟩

omit [UnicodeDB] in
theorem foldl_min_lt : ∀ (ls : List Nat) (l x : Nat), x < l → (∀ y ∈ ls, x < y) → x < ls.foldl min l
  | [], l, x, h, _ => h
  | y :: ys, l, x, h, h2 =>
    foldl_min_lt ys (min l y) x (by have := h2 y (by simp); omega) fun z hz => h2 z (List.mem_cons_of_mem _ hz)

/-- The outcome for documents with text and two page breaks. -/
theorem removeBoundary_eq {doc first last : List Str} {b : Str} {inner : List (Str × List Str)}
    (h : Paged doc first (inner ++ [(b, last)])) (ht : containsText doc = true) :
    ∃ nh nf, Count (HeadLine (inner ++ [(b, last)])) nh ∧ Count (FootLine first (inner ++ [(b, last)])) nf ∧
      ((inner ≠ [] ∧ ∀ p ∈ inner, nh + nf < p.2.length) →
        removeBoundary doc = .ok (first ++ inner.flatMap (fun p => trimPage nh nf p.2) ++ last)) ∧
      (¬ (inner ≠ [] ∧ ∀ p ∈ inner, nh + nf < p.2.length) → removeBoundary doc = .ok doc) := by
  have hd : doc = first ++ glue (inner ++ [(b, last)]) := h.whole
  obtain ⟨nh, hnh, hh⟩ := headerLines_ok hd
  obtain ⟨nf, hnf, hf⟩ := footerLines_ok hd
  refine ⟨nh, nf, hh, hf, ?_⟩
  have e : removeBoundary doc = .ok (stripBoundary doc (positions first.length (inner ++ [(b, last)])) nh nf) := by
    rw [removeBoundary, ht]
    rw [pageBreaks_eq h]
    show (headerLines _ _ >>= fun nh => footerLines _ _ >>= fun nf => pure _) = _
    rw [hnh, okBind, hnf, okBind]
    rfl
  rw [e, stripBoundary, pageLens_snoc]
  cases inner with
  | nil => exact ⟨fun h => absurd rfl h.1, fun _ => rfl⟩
  | cons p r =>
    rw [List.map_cons]
    dsimp only
    by_cases hmin : nh + nf + 1 < (r.map fun p => p.2.length + 1).foldl min (p.2.length + 1)
    · rw [if_pos hmin]
      have hm := foldl_min_le _ _ _ hmin
      have hall : ∀ q ∈ p :: r, nh + nf < q.2.length := by
        intro q hq
        rcases List.mem_cons.1 hq with rfl | hq
        · omega
        · have := hm.2 _ (List.mem_map.2 ⟨q, hq, rfl⟩)
          omega
      refine ⟨fun _ => ?_, fun h => absurd ⟨by simp, hall⟩ h⟩
      have := stripLoop_eq nh nf first last b (p :: r) fun q hq => Nat.le_of_lt (hall q hq)
      rw [← hd] at this
      rw [this]
    · rw [if_neg hmin]
      refine ⟨fun h => absurd ?_ hmin, fun _ => rfl⟩
      refine foldl_min_lt _ _ _ (by have := h.2 p (by simp); omega) fun y hy => ?_
      obtain ⟨q, hq, rfl⟩ := List.mem_map.1 hy
      have := h.2 q (List.mem_cons_of_mem _ hq)
      omega

theorem removeBoundary_plain {doc : List Str} (h : containsText doc = false) : removeBoundary doc = .ok doc := by
  rw [removeBoundary, h]
  rfl

theorem removeBoundary_noBreak {doc first : List Str} (h : Paged doc first []) : removeBoundary doc = .ok doc := by
  rw [removeBoundary, pageBreaks_eq h]
  split <;> rfl

end Py
