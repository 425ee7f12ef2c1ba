import Verif.Lemmas.Numbered2
import Verif.Lemmas.Parse3

/-!
# Lemmas about numbered lists of references: the numbers of the references
-/

open Py Spec
open scoped List

namespace Py

variable [UnicodeDB]

/-- Classes of which a match begins with a member. -/
def Re.opens : Re → Option (List CSet)
  | .set k => some [k]
  | .seq a _ => a.opens
  | .alt a b => match a.opens, b.opens with
    | some x, some y => some (x ++ y)
    | _, _ => none
  | .group _ a => a.opens
  | _ => none

theorem opens_sem (r : Re) : ∀ {ks}, r.opens = some ks → ∀ {pre w post}, Sem r pre w post → ∃ c v, w = c :: v ∧ ∃ k ∈ ks, k.mem c = true := by
  induction r with
  | set k =>
    intro ks h pre w post hs
    cases h
    obtain ⟨c, rfl, hc⟩ := hs
    exact ⟨c, [], rfl, k, by simp, hc⟩
  | seq a b iha _ =>
    intro ks h pre w post hs
    obtain ⟨u, v, rfl, h1, h2⟩ := hs
    obtain ⟨c, u', rfl, k, hk, hc⟩ := iha h h1
    exact ⟨c, u' ++ v, rfl, k, hk, hc⟩
  | alt a b iha ihb =>
    intro ks h pre w post hs
    unfold Re.opens at h
    split at h
    · next x y hx hy =>
      cases h
      rcases hs with hs | hs
      · obtain ⟨c, v, rfl, k, hk, hc⟩ := iha hx hs
        exact ⟨c, v, rfl, k, by simp [hk], hc⟩
      · obtain ⟨c, v, rfl, k, hk, hc⟩ := ihb hy hs
        exact ⟨c, v, rfl, k, by simp [hk], hc⟩
    · cases h
  | group g a ih => intro ks h pre w post hs; exact ih h hs
  | _ => intro ks h; cases h

/-- The classes with which the patterns of washing begin. -/
def washOpens : List CSet :=
  [⟨false, true, [.ch 'h']⟩, ⟨false, true, [.ch 'f']⟩, ⟨false, false, [.ch '"']⟩, ⟨false, false, [.space]⟩]

theorem washOpens_mark {c : Char} (hc : c ∈ py! "[]0123456789") : ∀ k ∈ washOpens, k.mem c = false := by
  intro k hk
  simp only [List.mem_cons, List.not_mem_nil, or_false] at hc
  simp only [washOpens, List.mem_cons, List.not_mem_nil, or_false] at hk
  rcases hc with rfl | rfl | rfl | rfl | rfl | rfl | rfl | rfl | rfl | rfl | rfl | rfl <;>
    rcases hk with rfl | rfl | rfl | rfl <;> rfl

/-- A pattern that does not begin within a mark. -/
def Re.passes (r : Re) : Bool := match r.opens with
  | some ks => ks.all fun k => washOpens.contains k
  | none => false

theorem passes_none {r : Re} (h : r.passes = true) {c : Char} (hc : c ∈ py! "[]0123456789") (pre t : Str) :
    matchHere r false pre (c :: t) = none := by
  rw [matchHere_none]
  rintro ⟨w, rest, e, hs⟩
  unfold Re.passes at h
  split at h
  · next ks hk =>
    obtain ⟨d, v, rfl, k, hk', hd⟩ := opens_sem r hk hs
    cases e
    have := List.all_eq_true.1 h k hk'
    rw [washOpens_mark hc k (by simpa using this)] at hd
    cases hd
  · cases h

theorem passes_sub {r : Re} (h : r.passes = true) (f : Match → Str) {u : Str} (hu : ∀ c ∈ u, c ∈ py! "[]0123456789") (t : Str) :
    ∃ t', sub r f (u ++ t) = u ++ t' := by
  have : ∀ pre, ∃ t', (scanGo r 0 pre (u ++ t)).flatMap (Piece.out f) = u ++ t' := by
    induction u with
    | nil => intro pre; exact ⟨_, rfl⟩
    | cons c u ih =>
      intro pre
      obtain ⟨t', ht⟩ := ih (fun d hd => hu d (by simp [hd])) (c :: pre)
      refine ⟨t', ?_⟩
      rw [List.cons_append, scanGo, passes_none h (hu c (by simp))]
      simp [Piece.out, ht]
  exact this []

theorem bracketed_chars (n : Nat) : ∀ c ∈ bracketed n, c ∈ py! "[]0123456789" := by
  intro c hc
  have hd : ∀ c : Char, c.isDigit = true → c ∈ py! "[]0123456789" := by
    intro c hc
    have h' : 48 ≤ c.toNat ∧ c.toNat ≤ 57 := by
      simp only [Char.isDigit, Bool.and_eq_true, decide_eq_true_eq, ge_iff_le, UInt32.le_iff_toNat_le] at hc
      exact hc
    have e : c = Char.ofNat c.toNat := (Char.ofNat_toNat c).symm
    generalize c.toNat = k at *
    subst e
    have : k = 48 ∨ k = 49 ∨ k = 50 ∨ k = 51 ∨ k = 52 ∨ k = 53 ∨ k = 54 ∨ k = 55 ∨ k = 56 ∨ k = 57 := by omega
    rcases this with rfl | rfl | rfl | rfl | rfl | rfl | rfl | rfl | rfl | rfl <;> decide
  simp only [bracketed, List.cons_append, List.mem_cons, List.mem_append, List.not_mem_nil, or_false] at hc
  rcases hc with rfl | hc | rfl
  · decide
  · rw [decimal_eq] at hc
    exact hd c ((padNat_digits 0 n).2 c hc)
  · decide

omit [UnicodeDB] in
theorem washPasses : Rx.url_repair_patterns.all Re.passes = true ∧ Rx.quoted_comma.passes = true ∧ Rx.re_multiple_space.passes = true := by
  refine ⟨?_, ?_, ?_⟩ <;> decide +kernel

theorem wash_bracketed {undesirable : Str → Str} (hu : KeepsNumber undesirable) (n : Nat) (t : Str) :
    ∃ t', washRepair undesirable (bracketed n ++ t) = bracketed n ++ t' := by
  obtain ⟨p1, p2, p3⟩ := washPasses
  have hc := bracketed_chars n
  have h1 : ∃ t1, repairUrls (bracketed n ++ t) = bracketed n ++ t1 := by
    unfold repairUrls
    revert p1
    generalize Rx.url_repair_patterns = rs
    intro p1
    induction rs generalizing t with
    | nil => exact ⟨t, rfl⟩
    | cons r rs ih =>
      rw [List.all_cons, Bool.and_eq_true] at p1
      obtain ⟨t', ht⟩ := passes_sub p1.1 (fun m => ((m.group 1).getD []).filter (· != ' ')) hc t
      rw [List.foldl_cons, ht]
      exact ih t' p1.2
  obtain ⟨t1, h1⟩ := h1
  obtain ⟨t2, h2⟩ := hu n t1
  obtain ⟨t3, h3⟩ := passes_sub p2 (fun m => '"' :: (m.group 1).getD [] ++ ['"', ',']) hc t2
  obtain ⟨t4, h4⟩ := hu n t3
  obtain ⟨t5, h5⟩ := passes_sub p3 (fun _ => [' ']) hc t4
  refine ⟨t5, ?_⟩
  unfold washRepair
  simp only [h1, h2, h3, h4, h5]

omit [UnicodeDB] in
theorem join_bracketed (n : Nat) (t l : Str) : ∃ t', joinLines (bracketed n ++ t) l = bracketed n ++ t' := by
  have hlast : (bracketed n).getLast? = some ']' := by
    unfold bracketed
    rw [List.getLast?_append]
    rfl
  unfold joinLines
  split
  · next h => rw [List.getLast?_append, hlast] at h; simp at h
  · next c h =>
    split
    · next hc =>
      subst hc
      cases t with
      | nil => rw [List.append_nil, hlast] at h; cases h
      | cons x t =>
        refine ⟨(x :: t).dropLast ++ l, ?_⟩
        rw [List.dropLast_append_of_ne_nil (by simp), List.append_assoc]
    · split
      · exact ⟨t ++ ' ' :: l, by simp⟩
      · exact ⟨t ++ l, by simp⟩

theorem prepare_bracketed (n : Nat) (e : Entry) : ∃ t, prepareRef (solidPieces (entryLines (n, e))) = bracketed n ++ t := by
  have : solidPieces (entryLines (n, e)) = (bracketed n ++ e.text) :: solidPieces e.more := by
    rw [entryLines, solid_cons]; rfl
  rw [this]
  unfold prepareRef
  rw [show maxLines = 24 + 1 from rfl, List.take_succ_cons, List.foldl_cons]
  obtain ⟨t0, h0⟩ := strip_bracketed n e.text
  have h1 : joinLines [] (strip (bracketed n ++ e.text)) = bracketed n ++ t0 := by rw [h0]; rfl
  rw [h1]
  have h2 : ∀ (ls : List Str) (t : Str), ∃ t', ls.foldl (fun w l => joinLines w (strip l)) (bracketed n ++ t) = bracketed n ++ t' := by
    intro ls
    induction ls with
    | nil => exact fun t => ⟨t, rfl⟩
    | cons l ls ih =>
      intro t
      obtain ⟨t', ht⟩ := join_bracketed n t (strip l)
      rw [List.foldl_cons, ht]
      exact ih t'
  obtain ⟨t2, h2⟩ := h2 (List.take 24 (solidPieces e.more)) t0
  rw [h2]
  obtain ⟨t3, h3⟩ := strip_bracketed n t2
  refine ⟨t3, ?_⟩
  rw [← h3]
  have hns : NoSpaceFirst (bracketed n ++ t2) := by
    intro c hc
    have : c = '[' := by simpa [bracketed] using hc.symm
    subst this
    rfl
  have := lstrip_first hns
  unfold lstrip at this
  unfold rstrip strip stripP
  rw [this]

theorem removeMarker_bracketed (n : Nat) (t : Str) : (removeMarker (bracketed n ++ t)).1 = bracketed n := by
  have hns : NoSpaceFirst (bracketed n ++ t) := by
    intro c hc
    have : c = '[' := by simpa [bracketed] using hc.symm
    subst this
    rfl
  have hself : Sem ((Re.ch '[') ⬝ (.star true (Re.space)) ⬝ (.group G.marknum (Re.plus (Re.digit))) ⬝ (.star true (Re.space)) ⬝ (Re.ch ']'))
      [] (bracketed n) t := sem_bracket.2 ⟨[], decimal n, [], by simp [Spaces], decimal_decimals n, by simp [Spaces], by simp [bracketed]⟩
  rcases removeMarker_cases hns with ⟨l1, q, l2, mk, post, e1, hno, e2, e3, -, e4⟩ | ⟨hno, -⟩
  · obtain ⟨i, hi, rfl, hq⟩ := bodies_at e1
    have hi0 : i = 0 := by
      refine Nat.eq_zero_of_not_pos fun h => hno _ ?_ _ _ rfl hself
      refine (List.take_subset_take_left markBodies (show 1 ≤ i by omega)) ?_
      simp [markBodies]
    subst hi0
    cases hq
    rw [e4]
    obtain ⟨a, m, b, ha, hm, hb, rfl⟩ := sem_bracket.1 e3
    have hd : ∀ {r : Str}, NoDigitFirst (']' :: r) := by intro r c hc; cases hc; rfl
    have hs : ∀ {r : Str}, NoSpaceFirst (']' :: r) := by intro r c hc; cases hc; rfl
    have hdec : ∀ {x : Str} {y : Str}, Decimals x → NoSpaceFirst (x ++ y) := by
      intro x y hx c hc
      obtain ⟨z, w, rfl, hz⟩ := decimals_head hx
      cases hc
      exact isDec_not_space hz
    have e : decimal n ++ ']' :: t = a ++ (m ++ (b ++ ']' :: post)) := by
      simpa [bracketed] using e2
    obtain ⟨rfl, e5⟩ := space_split (a := []) (by simp [Spaces]) ha (hdec (decimal_decimals n)) (hdec hm) e
    obtain ⟨rfl, e6⟩ := number_split (decimal_decimals n) hm hd (noDigit_spaces hb hd) e5
    obtain ⟨rfl, -⟩ := space_split (a := []) (by simp [Spaces]) hb hs hs e6
    simp [bracketed]
  · exact absurd hself (hno _ (by simp [markBodies]) _ _ rfl)

omit [UnicodeDB] in
theorem formatMarker_bracketed (n : Nat) : formatMarker (bracketed n) = decimal n := by
  obtain ⟨h1, h2⟩ := padNat_digits 0 n
  rw [← decimal_eq] at h1 h2
  have hset : ∀ c ∈ decimal n, inSet (py! "[](){}. ") c = false := by
    intro c hc
    have hd := h2 c hc
    cases hh : inSet (py! "[](){}. ") c with
    | false => rfl
    | true =>
      simp only [inSet, List.contains_iff_mem, List.mem_cons, List.not_mem_nil, or_false] at hh
      rcases hh with rfl | rfl | rfl | rfl | rfl | rfl | rfl | rfl <;> cases hd
  unfold formatMarker stripP bracketed
  have e1 : lstripP (inSet (py! "[](){}. ")) ('[' :: decimal n ++ [']']) = decimal n ++ [']'] := by
    unfold lstripP
    rw [List.cons_append, List.dropWhile_cons_of_pos (by decide)]
    cases hd : decimal n with
    | nil => exact absurd hd h1
    | cons c w =>
      rw [List.cons_append, List.dropWhile_cons_of_neg]
      rw [hset c (by rw [hd]; simp)]
      simp
  rw [e1]
  unfold rstripP
  rw [List.reverse_append]
  simp only [List.reverse_cons, List.reverse_nil, List.nil_append, List.singleton_append]
  rw [List.dropWhile_cons_of_pos (by decide)]
  cases hd : (decimal n).reverse with
  | nil => exact absurd (List.reverse_eq_nil_iff.1 hd) h1
  | cons c w =>
    rw [List.dropWhile_cons_of_neg, ← hd, List.reverse_reverse]
    rw [hset c (List.mem_reverse.1 (by rw [hd]; simp))]
    simp

end Py
