import Verif.Lemmas.Avoid
import Verif.Lemmas.Spaces
import Verif.Model.Tag
import Verif.Model.Rebuild
import Verif.Spec.Calm

/-!
# Patterns that find nothing in calm text
-/

open Spec
open scoped List

namespace Py

/-- A part of an expression: as many characters of given classes, or anything; the latter with the
knowledge that it contains something forbidden. -/
inductive It where
  | pure (p : List (List CSet))
  | opaque (bad : Bool)
deriving DecidableEq, Repr

/-- Calm characters and those of a placeholder. -/
abbrev markChars : List Char := calmChars ++ ['<', '/', '>']

/-- Forbidden texts: characters of given classes in a row. A slash stands only between a blank and the end of a placeholder. -/
def forbidden : List (List (List Char)) :=
  [[[]]] ++ tellingWords.map (fun w => w.map fun c => [c, swapCase c]) ++ untidy.map (fun w => w.map fun c => [c])
    ++ [List.replicate 7 (py! "0123456789"), [py! "0123456789", ['.'], py! "0123456789"]]
    ++ [[markChars.filter (· != ' '), ['/']], [['/'], markChars.filter (· != '>')]]

/-- The calm characters of some classes are among those given. -/
def within (ks : List CSet) (cs : List Char) : Bool := markChars.all fun c => !(ks.any fun k => @CSet.mem asciiDB k c) || cs.contains c

/-- The first characters are forbidden ones. -/
def within2 : List (List CSet) → List (List Char) → Bool
  | _, [] => true
  | [], _ :: _ => false
  | k :: p, c :: f => within k c && within2 p f

/-- Something forbidden in a row of characters. -/
def badRow (F : List (List (List Char))) : List (List CSet) → Bool
  | [] => false
  | k :: p => (F.any fun f => within2 (k :: p) f) || badRow F p

/-- Something forbidden in the parts. -/
def badIts (F : List (List (List Char))) : List (List CSet) → List It → Bool
  | acc, [] => badRow F acc
  | acc, .pure p :: its => badIts F (acc ++ p) its
  | acc, .opaque b :: its => b || badRow F acc || badIts F [] its

/-- The parts as one row. -/
def oneRow : List It → Option (List (List CSet))
  | [] => some []
  | .pure p :: its => (oneRow its).map (p ++ ·)
  | .opaque _ :: _ => none

/-- The parts of an expression. -/
def items (F : List (List (List Char))) : Re → List It
  | .seq a b => items F a ++ items F b
  | .group _ a => items F a
  | .set k => [.pure [[k]]]
  | .str w => [.pure (w.map fun c => [⟨false, false, [.ch c]⟩])]
  | .alt a b =>
    match oneRow (items F a), oneRow (items F b) with
    | some p, some q => if p.length = q.length then [.pure (List.zipWith (· ++ ·) p q)] else [.opaque (badIts F [] (items F a) && badIts F [] (items F b))]
    | _, _ => [.opaque (badIts F [] (items F a) && badIts F [] (items F b))]
  | .star _ _ => [.opaque false]
  | .fail => [.opaque true]
  | _ => []

variable [UnicodeDB]

/-- Characters of given classes. -/
def RowFits (p : List (List CSet)) (w : Str) : Prop := All2 (fun ks c => ∃ k ∈ ks, k.mem c = true) p w

omit [UnicodeDB] in
/-- The text has something forbidden in it. -/
def Bad (F : List (List (List Char))) (w : Str) : Prop := ∃ f ∈ F, ∃ x, x <:+: w ∧ All2 (fun cs c => c ∈ cs) f x

/-- The text is made of the part. -/
def It.Fits (F : List (List (List Char))) : It → Str → Prop
  | .pure p, w => RowFits p w
  | .opaque b, w => b = true → Bad F w

variable {F : List (List (List Char))}

omit [UnicodeDB] in
theorem bad_infix {x w : Str} (h : Bad F x) (hx : x <:+: w) : Bad F w := by
  obtain ⟨f, h1, y, h2, h3⟩ := h
  exact ⟨f, h1, y, h2.trans hx, h3⟩

theorem within_sound {ks : List CSet} {cs : List Char} (h : within ks cs = true) {c : Char} (hc : c ∈ markChars) (hk : ∃ k ∈ ks, k.mem c = true) : c ∈ cs := by
  have h1 := List.all_eq_true.1 h c hc
  obtain ⟨k, hk1, hk2⟩ := hk
  have ha : ∀ c ∈ markChars, isAscii c = true := by decide
  rw [mem_ascii (ha c hc)] at hk2
  have h2 : (ks.any fun k => @CSet.mem asciiDB k c) = true := List.any_eq_true.2 ⟨k, hk1, hk2⟩
  rw [h2] at h1
  simpa using h1

theorem within2_sound : ∀ {f : List (List Char)} {p : List (List CSet)} {w : Str}, within2 p f = true → RowFits p w → (∀ c ∈ w, c ∈ markChars) →
    ∃ x y, w = x ++ y ∧ All2 (fun cs c => c ∈ cs) f x
  | [], _, w, _, _, _ => ⟨[], w, rfl, .nil⟩
  | c :: f, [], _, h, _, _ => by cases h
  | c :: f, k :: p, w, h, hf, hw => by
    cases hf with
    | cons hk hp =>
      rename_i d w
      rw [within2, Bool.and_eq_true] at h
      obtain ⟨x, y, rfl, h2⟩ := within2_sound h.2 hp fun c hc => hw c (List.mem_cons_of_mem _ hc)
      exact ⟨d :: x, y, rfl, .cons (within_sound h.1 (hw d (by simp)) hk) h2⟩

theorem badRow_sound : ∀ {p : List (List CSet)} {w : Str}, badRow F p = true → RowFits p w → (∀ c ∈ w, c ∈ markChars) → Bad F w
  | [], _, h, _, _ => by cases h
  | k :: p, w, h, hf, hw => by
    rw [badRow, Bool.or_eq_true] at h
    rcases h with h | h
    · obtain ⟨f, hf1, hf2⟩ := List.any_eq_true.1 h
      obtain ⟨x, y, rfl, hx⟩ := within2_sound hf2 hf hw
      exact ⟨f, hf1, x, (List.prefix_append x y).isInfix, hx⟩
    · cases hf with
      | cons hk hp =>
        rename_i d w
        exact bad_infix (badRow_sound h hp fun c hc => hw c (List.mem_cons_of_mem _ hc)) (List.suffix_cons d w).isInfix

theorem rowFits_append {p q : List (List CSet)} {v w : Str} (h : RowFits p v) (h' : RowFits q w) : RowFits (p ++ q) (v ++ w) := by
  induction h with
  | nil => exact h'
  | cons hx _ ih => exact .cons hx ih

theorem badIts_sound : ∀ {its : List It} {acc : List (List CSet)} {v : Str} {ws : List Str}, badIts F acc its = true → RowFits acc v → All2 (It.Fits F) its ws →
    (∀ c ∈ v ++ ws.flatten, c ∈ markChars) → Bad F (v ++ ws.flatten)
  | [], acc, v, ws, h, hv, hw, hc => by
    cases hw
    rw [List.flatten_nil, List.append_nil] at *
    exact badRow_sound h hv hc
  | .pure p :: its, acc, v, ws, h, hv, hw, hc => by
    cases hw with
    | cons h1 h2 =>
      rename_i w ws
      have := badIts_sound (its := its) (acc := acc ++ p) (v := v ++ w) h (rowFits_append hv h1) h2 (by simpa using hc)
      simpa using this
  | .opaque b :: its, acc, v, ws, h, hv, hw, hc => by
    cases hw with
    | cons h1 h2 =>
      rename_i w ws
      rw [badIts, Bool.or_eq_true, Bool.or_eq_true] at h
      rcases h with (h | h) | h
      · exact bad_infix (h1 h) ⟨v, ws.flatten, by simp⟩
      · exact bad_infix (badRow_sound h hv fun c hc' => hc c (List.mem_append_left _ hc')) ⟨[], w ++ ws.flatten, by simp⟩
      · have := badIts_sound (its := its) (acc := []) (v := []) h .nil h2 (fun c hc' => hc c (by simp at hc' ⊢; exact .inr (.inr hc')))
        exact bad_infix this ⟨v ++ w, [], by simp⟩

theorem oneRow_sound : ∀ {its : List It} {p : List (List CSet)} {ws : List Str}, oneRow its = some p → All2 (It.Fits F) its ws → RowFits p ws.flatten
  | [], p, ws, h, hw => by
    cases hw; cases h; exact .nil
  | .pure q :: its, p, ws, h, hw => by
    cases hw with
    | cons h1 h2 =>
      rw [oneRow] at h
      cases hi : oneRow its with
      | none => rw [hi] at h; cases h
      | some r =>
        rw [hi] at h
        cases h
        exact rowFits_append h1 (oneRow_sound hi h2)
  | .opaque b :: its, p, ws, h, hw => by cases h

theorem zip_left : ∀ {p q : List (List CSet)} {w : Str}, p.length = q.length → RowFits p w → RowFits (List.zipWith (· ++ ·) p q) w
  | [], [], _, _, h => h
  | k :: p, l :: q, w, e, h => by
    cases h with
    | cons hk hp =>
      obtain ⟨x, h1, h2⟩ := hk
      exact .cons ⟨x, List.mem_append_left _ h1, h2⟩ (zip_left (by simpa using e) hp)

theorem zip_right : ∀ {p q : List (List CSet)} {w : Str}, p.length = q.length → RowFits q w → RowFits (List.zipWith (· ++ ·) p q) w
  | [], [], _, _, h => h
  | k :: p, l :: q, w, e, h => by
    cases h with
    | cons hk hp =>
      obtain ⟨x, h1, h2⟩ := hk
      exact .cons ⟨x, List.mem_append_right _ h1, h2⟩ (zip_right (by simpa using e) hp)

omit [UnicodeDB] in
theorem all2_join {α β : Type} {R : α → β → Prop} {as as' : List α} {bs bs' : List β} (h : All2 R as bs) (h' : All2 R as' bs') :
    All2 R (as ++ as') (bs ++ bs') := by
  induction h with
  | nil => exact h'
  | cons hx _ ih => exact .cons hx ih

theorem str_fits : ∀ w : Str, RowFits (w.map fun c => [⟨false, false, [.ch c]⟩]) w
  | [] => .nil
  | c :: w => .cons ⟨⟨false, false, [.ch c]⟩, List.mem_singleton.2 rfl, by simp [CSet.mem, CItem.mem]⟩ (str_fits w)

theorem items_sound : ∀ (r : Re) {w : Str}, (∀ c ∈ w, c ∈ markChars) → Lang r w → ∃ ws : List Str, w = ws.flatten ∧ All2 (It.Fits F) (items F r) ws
  | .eps, w, _, h => ⟨[], h, .nil⟩
  | .fail, w, _, h => h.elim
  | .set k, w, _, h => by
    obtain ⟨c, rfl, hc⟩ := h
    exact ⟨[[c]], by simp, .cons (.cons ⟨k, by simp, hc⟩ .nil) .nil⟩
  | .str v, w, _, h => ⟨[w], by simp, .cons (by rw [show w = v from h]; exact str_fits v) .nil⟩
  | .seq a b, w, hc, h => by
    obtain ⟨u, v, rfl, h1, h2⟩ := h
    obtain ⟨us, e1, f1⟩ := items_sound a (fun c h => hc c (List.mem_append_left _ h)) h1
    obtain ⟨vs, e2, f2⟩ := items_sound b (fun c h => hc c (List.mem_append_right _ h)) h2
    exact ⟨us ++ vs, by rw [e1, e2, List.flatten_append], all2_join f1 f2⟩
  | .group _ a, w, hc, h => items_sound a hc h
  | .star _ _, w, _, _ => ⟨[w], by simp, .cons (fun h => by cases h) .nil⟩
  | .look _ _, w, _, h => ⟨[], h, .nil⟩
  | .behind _ _, w, _, h => ⟨[], h, .nil⟩
  | .bos, w, _, h => ⟨[], h, .nil⟩
  | .eos, w, _, h => ⟨[], h, .nil⟩
  | .wordb, w, _, h => ⟨[], h, .nil⟩
  | .alt a b, w, hc, h => by
    have hop : All2 (It.Fits F) [It.opaque (badIts F [] (items F a) && badIts F [] (items F b))] [w] := by
      refine .cons (fun hb => ?_) .nil
      rw [Bool.and_eq_true] at hb
      rcases h with h | h
      · obtain ⟨us, e1, f1⟩ := items_sound a hc h
        rw [e1]
        exact badIts_sound (v := []) hb.1 .nil f1 (by rw [List.nil_append, ← e1]; exact hc)
      · obtain ⟨us, e1, f1⟩ := items_sound b hc h
        rw [e1]
        exact badIts_sound (v := []) hb.2 .nil f1 (by rw [List.nil_append, ← e1]; exact hc)
    refine ⟨[w], by simp, ?_⟩
    rw [items]
    split
    · rename_i p q hp hq
      split
      · rename_i e
        refine .cons ?_ .nil
        rcases h with h | h
        · obtain ⟨us, e1, f1⟩ := items_sound a hc h
          rw [e1]
          exact zip_left e (oneRow_sound hp f1)
        · obtain ⟨us, e1, f1⟩ := items_sound b hc h
          rw [e1]
          exact zip_right e (oneRow_sound hq f1)
      · exact hop
    · exact hop

/-- Every match of the expression has something forbidden in it. -/
def BadRe (F : List (List (List Char))) (r : Re) : Prop := ∀ w, (∀ c ∈ w, c ∈ markChars) → Lang r w → Bad F w

theorem badRe_of {r : Re} (h : badIts F [] (items F r) = true) : BadRe F r := by
  intro w hc hw
  obtain ⟨ws, e, f⟩ := items_sound r hc hw
  rw [e]
  exact badIts_sound (v := []) h .nil f (by rw [List.nil_append, ← e]; exact hc)

theorem BadRe.right {a b : Re} (h : BadRe F b) : BadRe F (.seq a b) := by
  rintro w hc ⟨u, v, rfl, -, hv⟩
  exact bad_infix (h v (fun c h => hc c (List.mem_append_right _ h)) hv) (List.suffix_append u v).isInfix

theorem BadRe.left {a b : Re} (h : BadRe F a) : BadRe F (.seq a b) := by
  rintro w hc ⟨u, v, rfl, hu, -⟩
  exact bad_infix (h u (fun c h => hc c (List.mem_append_left _ h)) hu) (List.prefix_append u v).isInfix

omit [UnicodeDB] in
theorem all2_const {cs : List Char} {n : Nat} {x : Str} (h : All2 (fun cs c => c ∈ cs) (List.replicate n cs) x) : x.length = n ∧ ∀ c ∈ x, c ∈ cs := by
  induction n generalizing x with
  | zero => cases h; simp
  | succ n ih =>
    rw [List.replicate_succ] at h
    cases h with
    | cons h1 h2 =>
      obtain ⟨e1, e2⟩ := ih h2
      refine ⟨by simp [e1], ?_⟩
      intro c hc
      rcases List.mem_cons.1 hc with rfl | hc
      · exact h1
      · exact e2 c hc

omit [UnicodeDB] in
theorem all2_word : ∀ {w x : Str}, (∀ c ∈ w, smallLetter c = c ∧ smallLetter (swapCase c) = c) → All2 (fun cs c => c ∈ cs) (w.map fun c => [c, swapCase c]) x →
    x.map smallLetter = w
  | [], _, _, h => by cases h; rfl
  | c :: w, x, hw, h => by
    cases h with
    | cons h1 h2 =>
      rename_i d x
      rw [List.map_cons, all2_word (fun c hc => hw c (List.mem_cons_of_mem _ hc)) h2]
      congr 1
      simp only [List.mem_cons, List.not_mem_nil, or_false] at h1
      rcases h1 with rfl | rfl
      · exact (hw _ (by simp)).1
      · exact (hw _ (by simp)).2

omit [UnicodeDB] in
theorem all2_single : ∀ {w x : Str}, All2 (fun cs c => c ∈ cs) (w.map fun c => [c]) x → x = w
  | [], _, h => by cases h; rfl
  | c :: w, x, h => by
    cases h with
    | cons h1 h2 =>
      rename_i d x
      rw [all2_single h2, List.mem_singleton.1 h1]

omit [UnicodeDB] in
theorem calm_not_bad {s : Str} (h : Calm s) : ¬ Bad forbidden s := by
  rintro ⟨f, hf, x, hx, hfx⟩
  unfold forbidden at hf
  rw [List.mem_append, List.mem_append, List.mem_append, List.mem_append] at hf
  rcases hf with (((hf | hf) | hf) | hf) | hf
  · rw [List.mem_singleton.1 hf] at hfx
    cases hfx with
    | cons h1 _ => cases h1
  · obtain ⟨w, hw, rfl⟩ := List.mem_map.1 hf
    have hs : ∀ w ∈ tellingWords, ∀ c ∈ w, smallLetter c = c ∧ smallLetter (swapCase c) = c := by decide
    have e := all2_word (hs w hw) hfx
    apply h.words w hw
    obtain ⟨a, b, e2⟩ := hx
    exact ⟨a.map smallLetter, b.map smallLetter, by rw [← e, ← e2]; simp⟩
  · obtain ⟨w, hw, rfl⟩ := List.mem_map.1 hf
    rw [all2_single hfx] at hx
    exact h.tidy w hw hx
  · rw [List.mem_cons, List.mem_singleton] at hf
    rcases hf with rfl | rfl
    · obtain ⟨e1, e2⟩ := all2_const hfx
      obtain ⟨c, h1, h2⟩ := h.digits x hx e1
      exact h2 (e2 c h1)
    · cases hfx with
      | cons h1 hfx => cases hfx with
        | cons h2 hfx => cases hfx with
          | cons h3 hfx =>
            cases hfx
            rw [List.mem_singleton.1 h2] at hx
            exact h.points _ h1 _ h3 hx
  · have hs : '/' ∉ x := fun hm => absurd (h.chars _ (hx.subset hm)) (by decide)
    rw [List.mem_cons, List.mem_singleton] at hf
    rcases hf with rfl | rfl
    · cases hfx with
      | cons h1 hfx => cases hfx with
        | cons h2 hfx => exact hs (by rw [List.mem_singleton.1 h2]; simp)
    · cases hfx with
      | cons h1 hfx => exact hs (by rw [List.mem_singleton.1 h1]; simp)

/-- A text with none of the given things in it. -/
structure CleanIn (F : List (List (List Char))) (s : Str) : Prop where
  chars : ∀ c ∈ s, c ∈ markChars
  good : ¬ Bad F s

/-- A text with nothing forbidden in it. -/
abbrev CleanText (s : Str) : Prop := CleanIn forbidden s

omit [UnicodeDB] in
theorem CleanIn.mono {F F' : List (List (List Char))} {s : Str} (h : CleanIn F' s) (hf : ∀ f ∈ F, f ∈ F') : CleanIn F s :=
  ⟨h.chars, fun ⟨f, h1, h2⟩ => h.good ⟨f, hf f h1, h2⟩⟩

omit [UnicodeDB] in
theorem clean_of_calm {s : Str} (h : Calm s) : CleanText s := ⟨fun c hc => List.mem_append_left _ (h.chars c hc), calm_not_bad h⟩

/-- The expression finds nothing in clean text. -/
theorem clean_finditer {s : Str} (h : CleanIn F s) {r : Re} (hr : BadRe F r) : finditer r s = [] := by
  rw [List.eq_nil_iff_forall_not_mem]
  intro m hm
  obtain ⟨p, q, e, ok⟩ := finditer_ok hm
  have hi : m.txt <:+: s := ⟨p, q, e.symm⟩
  exact h.good (bad_infix (hr _ (fun c hc => h.chars c (hi.subset hc)) ok.lang) hi)

theorem calm_finditer {s : Str} (h : Calm s) {r : Re} (hr : BadRe forbidden r) : finditer r s = [] := clean_finditer (clean_of_calm h) hr

theorem clean_sub {s : Str} (h : CleanIn F s) {r : Re} (hr : BadRe F r) (f : Match → Str) : sub r f s = s := sub_of_no_match (clean_finditer h hr)

theorem calm_sub {s : Str} (h : Calm s) {r : Re} (hr : BadRe forbidden r) (f : Match → Str) : sub r f s = s := clean_sub (clean_of_calm h) hr f

theorem clean_subPy {s : Str} (h : CleanIn F s) {r : Re} (hr : BadRe F r) (f : Match → Py Str) : subPy r f s = .ok s := by
  have h1 := clean_finditer h hr
  unfold subPy
  have key : ∀ ps : List Piece, ps.filterMap Piece.match? = [] →
      ∃ parts, ps.mapM (fun p => match p with | .ch c => Except.ok [c] | .hit m => f m) = .ok parts ∧ parts.flatten = ps.flatMap Piece.orig := by
    intro ps
    induction ps with
    | nil => intro _; exact ⟨[], rfl, rfl⟩
    | cons p ps ih =>
      intro hp
      cases p with
      | hit m => simp [Piece.match?] at hp
      | ch c =>
        rw [List.filterMap_cons_none (by rfl)] at hp
        obtain ⟨parts, e1, e2⟩ := ih hp
        refine ⟨[c] :: parts, ?_, by simp [e2, Piece.orig]⟩
        rw [List.mapM_cons, e1]
        rfl
  obtain ⟨parts, e1, e2⟩ := key (scan r s) h1
  refine (congrArg (fun x : Py (List Str) => x >>= fun parts => pure parts.flatten) e1).trans ?_
  show Except.ok parts.flatten = _
  rw [e2, scan_orig]

/-! ### Characters that a match has -/

omit [UnicodeDB] in
/-- How often a character stands at least in a text of given characters that an expression matches. -/
def leastOf (A : List Char) (c : Char) : Re → Nat
  | .seq a b => leastOf A c a + leastOf A c b
  | .group _ a => leastOf A c a
  | .alt a b => min (leastOf A c a) (leastOf A c b)
  | .set k => if A.all fun d => !(@CSet.mem asciiDB k d) || d == c then 1 else 0
  | .str w => w.count c
  | _ => 0

theorem leastOf_sound {A : List Char} (hA : ∀ c ∈ A, isAscii c = true) {c : Char} : ∀ {r : Re} {w : Str}, (∀ d ∈ w, d ∈ A) → Lang r w → leastOf A c r ≤ w.count c
  | .eps, w, _, _ => Nat.zero_le _
  | .fail, w, _, h => h.elim
  | .set k, w, hw, h => by
    obtain ⟨d, rfl, hd⟩ := h
    rw [leastOf]
    split
    · rename_i hk
      have h1 := List.all_eq_true.1 hk d (hw d (by simp))
      rw [mem_ascii (hA d (hw d (by simp)))] at hd
      rw [hd] at h1
      have : d = c := by simpa using h1
      simp [this]
    · exact Nat.zero_le _
  | .str v, w, _, h => by rw [show w = v from h]; exact Nat.le_refl _
  | .seq a b, w, hw, h => by
    obtain ⟨u, v, rfl, h1, h2⟩ := h
    rw [leastOf, List.count_append]
    exact Nat.add_le_add (leastOf_sound hA (fun c h => hw c (List.mem_append_left _ h)) h1) (leastOf_sound hA (fun c h => hw c (List.mem_append_right _ h)) h2)
  | .group _ a, w, hw, h => leastOf_sound (r := a) hA hw h
  | .alt a b, w, hw, h => by
    rw [leastOf]
    rcases h with h | h
    · exact Nat.le_trans (Nat.min_le_left _ _) (leastOf_sound hA hw h)
    · exact Nat.le_trans (Nat.min_le_right _ _) (leastOf_sound hA hw h)
  | .star _ _, w, _, _ => Nat.zero_le _
  | .look _ _, w, _, _ => Nat.zero_le _
  | .behind _ _, w, _, _ => Nat.zero_le _
  | .bos, w, _, _ => Nat.zero_le _
  | .eos, w, _, _ => Nat.zero_le _
  | .wordb, w, _, _ => Nat.zero_le _

/-- An expression finds nothing where a character is not as frequent as it needs. -/
theorem few_finditer {A : List Char} (hA : ∀ c ∈ A, isAscii c = true) {s : Str} (hs : ∀ d ∈ s, d ∈ A) {c : Char} {r : Re} (h : s.count c < leastOf A c r) : finditer r s = [] := by
  rw [List.eq_nil_iff_forall_not_mem]
  intro m hm
  obtain ⟨p, q, e, ok⟩ := finditer_ok hm
  have hi : m.txt <:+: s := ⟨p, q, e.symm⟩
  have := leastOf_sound (c := c) hA (fun c hc => hs c (hi.subset hc)) ok.lang
  exact absurd (Nat.lt_of_lt_of_le h this) (Nat.not_lt.2 (hi.sublist.count_le c))

/-- Nothing is repaired in a text with one slash. -/
theorem few_repair {A : List Char} (hA : ∀ c ∈ A, isAscii c = true) {s : Str} (hs : ∀ d ∈ s, d ∈ A) (h1 : s.count '/' ≤ 1)
    (hr : (Rx.url_repair_patterns.all fun r => 2 ≤ leastOf A '/' r) = true) : repairUrls s = s := by
  unfold repairUrls
  generalize Rx.url_repair_patterns = rs at hr
  induction rs with
  | nil => rfl
  | cons r rs ih =>
    rw [List.all_cons, Bool.and_eq_true] at hr
    rw [List.foldl_cons, sub_of_no_match (few_finditer hA hs (c := '/') (by have := of_decide_eq_true hr.1; omega))]
    exact ih hr.2

/-! ### The fixed patterns -/

/-- A check for a list of expressions. -/
theorem badRe_all {rs : List Re} (h : rs.all (fun r => badIts F [] (items F r)) = true) : ∀ r ∈ rs, BadRe F r :=
  fun r hr => badRe_of (List.all_eq_true.1 h r hr)

/-- Nothing, untidy spacing. -/
def untidyOnly : List (List (List Char)) := [[[]]] ++ untidy.map (fun w => w.map fun c => [c])

/-- Nothing, a word. -/
def wordsOnly (ws : List Str) : List (List (List Char)) := [[[]]] ++ ws.map (fun w => w.map fun c => [c, swapCase c])

/-- Nothing, seven digits. -/
def sevenOnly : List (List (List Char)) := [[[]], List.replicate 7 (py! "0123456789")]

theorem badRe_wash : ∀ r ∈ [Rx.re_space_comma, Rx.re_space_semicolon, Rx.re_space_period, Rx.re_colon_space_colon, Rx.re_comma_space_colon,
    Rx.re_space_closing_square_bracket, Rx.re_opening_square_bracket_space, Rx.re_multiple_space, Rx.quoted_comma], BadRe untidyOnly r :=
  badRe_all (by decide +kernel)

theorem badRe_fixed : ∀ r ∈ [Rx.re_doi, Rx.re_html_tagged_url, Rx.re_raw_url, Rx.re_arxiv_5digits, Rx.re_arxiv, Rx.RE_ARXIV_CATCHUP], BadRe forbidden r :=
  badRe_all (by decide +kernel)

theorem badRe_pos : ∀ r ∈ [Rx.re_pos_0, Rx.re_pos_1, Rx.re_pos_2, Rx.re_pos_3], BadRe (wordsOnly [py! "pos"]) r := badRe_all (by decide +kernel)

theorem badRe_atlas : ∀ r ∈ [Rx.RE_ATLAS_CONF_PRE_2010, Rx.RE_ATLAS_CONF_POST_2010], BadRe (wordsOnly [py! "-conf-"]) r := badRe_all (by decide +kernel)

theorem badRe_isbn : ∀ r ∈ [Rx.re_quoted, Rx.re_isbn], BadRe (wordsOnly [py! "sbn", py! "booknumber"]) r := badRe_all (by decide +kernel)

theorem badRe_old : ∀ r ∈ Rx.old_arxiv.map fun p => oldArxivRe p.1, BadRe sevenOnly r := badRe_all (by decide +kernel)

theorem badRe_new (years : Re) : BadRe forbidden (Rx.re_new_arxiv years) ∧ BadRe forbidden (Rx.re_new_arxiv_5digits years) :=
  ⟨.right (.right (.right (badRe_of (by decide +kernel)))), .right (.right (.right (badRe_of (by decide +kernel))))⟩

/-- A substitution that writes what it finds. -/
theorem sub_same {r : Re} {f : Match → Str} {s : Str} (h : ∀ m ∈ finditer r s, f m = m.txt) : sub r f s = s := by
  have key : ∀ ps : List Piece, (∀ m ∈ ps.filterMap Piece.match?, f m = m.txt) → ps.flatMap (Piece.out f) = ps.flatMap Piece.orig := by
    intro ps
    induction ps with
    | nil => intro _; rfl
    | cons p ps ih =>
      intro hp
      cases p with
      | ch c =>
        rw [List.filterMap_cons_none (by rfl)] at hp
        rw [List.flatMap_cons, List.flatMap_cons, ih hp]
        rfl
      | hit m =>
        rw [List.filterMap_cons_some (f := Piece.match?) (b := m) rfl] at hp
        rw [List.flatMap_cons, List.flatMap_cons, ih fun n hn => hp n (List.mem_cons_of_mem _ hn)]
        show f m ++ _ = m.txt ++ _
        rw [hp m (by simp)]
  rw [sub, key _ h, scan_orig]

theorem clean_wash {s : Str} (h : CleanIn untidyOnly s) : washLine s = s := by
  have hb : ∀ r ∈ [Rx.re_space_comma, Rx.re_space_semicolon, Rx.re_space_period, Rx.re_colon_space_colon, Rx.re_comma_space_colon,
    Rx.re_space_closing_square_bracket, Rx.re_opening_square_bracket_space, Rx.re_multiple_space], ∀ f, sub r f s = s :=
    fun r hr f => clean_sub h (badRe_wash r (by revert hr; simp only [List.mem_cons, List.not_mem_nil, or_false]; intro hr; rcases hr with hr | hr | hr | hr | hr | hr | hr | hr <;> simp [hr])) f
  have hy : sub Rx.re_hyphens (fun _ => ['-']) s = s := by
    refine sub_same fun m hm => ?_
    obtain ⟨p, q, e, ok⟩ := finditer_ok hm
    have hi : m.txt <:+: s := ⟨p, q, e.symm⟩
    have hc : ∀ c ∈ m.txt, c ∈ markChars := fun c hc => h.chars c (hi.subset hc)
    have hl := ok.lang
    generalize m.txt = x at hc hl
    have hall : ∀ c : Char, Lang (Re.ch c) x → x = [c] := by
      rintro c ⟨d, rfl, hd⟩
      simp [CSet.mem, CItem.mem] at hd
      rw [hd]
    rcases hl with hl | hl | hl | hl | hl | hl | hl | hl
    · rw [show x = _ from hl] at hc; exact absurd hc (by decide)
    · rw [hall _ hl] at hc; exact absurd hc (by decide)
    · rw [hall _ hl] at hc; exact absurd hc (by decide)
    · rw [hall _ hl] at hc; exact absurd hc (by decide)
    · rw [hall _ hl] at hc; exact absurd hc (by decide)
    · exact (hall _ hl).symm
    · rw [hall _ hl] at hc; exact absurd hc (by decide)
    · rw [hall _ hl] at hc; exact absurd hc (by decide)
  unfold washLine
  simp only [hb _ (List.mem_cons_self), hb Rx.re_space_semicolon (by simp), hb Rx.re_space_period (by simp), hb Rx.re_colon_space_colon (by simp), hb Rx.re_comma_space_colon (by simp),
    hb Rx.re_space_closing_square_bracket (by simp), hb Rx.re_opening_square_bracket_space (by simp), hb Rx.re_multiple_space (by simp), hy]

theorem clean_pos {s : Str} (h : CleanIn (wordsOnly [py! "pos"]) s) : tagPos s = .ok s := by
  unfold tagPos posPatterns
  simp only [List.foldlM_cons, List.foldlM_nil, clean_subPy h (badRe_pos Rx.re_pos_0 (by simp)), clean_subPy h (badRe_pos Rx.re_pos_1 (by simp)),
    clean_subPy h (badRe_pos Rx.re_pos_2 (by simp)), clean_subPy h (badRe_pos Rx.re_pos_3 (by simp)), bind, Except.bind, pure, Except.pure]

theorem clean_atlas {s : Str} (h : CleanIn (wordsOnly [py! "-conf-"]) s) : tagAtlas s = s := by
  unfold tagAtlas
  simp only [clean_sub h (badRe_atlas Rx.RE_ATLAS_CONF_PRE_2010 (by simp)), clean_sub h (badRe_atlas Rx.RE_ATLAS_CONF_POST_2010 (by simp))]

/-- No identifier of an archive is found without seven digits, and no catch-up form where none is found. -/
theorem clean_old {s : Str} (h : CleanIn sevenOnly s) (hc : sub Rx.RE_ARXIV_CATCHUP
    (fun m => m.tgroup G.suffix ++ ['/'] ++ m.tgroup G.year ++ m.tgroup G.month ++ m.tgroup G.num) s = s) : tagArxivMore s = s := by
  unfold tagArxivMore
  simp only [hc]
  have : ∀ ps : List (Re × Option Str), (∀ r ∈ ps.map fun p => oldArxivRe p.1, BadRe sevenOnly r) → ps.foldl (fun l p => sub (oldArxivRe p.1) (oldArxivTag p.2) l) s = s := by
    intro ps
    induction ps with
    | nil => intro _; rfl
    | cons p ps ih =>
      intro hr
      rw [List.foldl_cons, clean_sub h (hr _ (by simp))]
      exact ih fun r h => hr r (by rw [List.map_cons]; exact List.mem_cons_of_mem _ h)
  exact this _ badRe_old

/-- Calm text has no identifiers with fixed patterns. -/
theorem clean_fixed (lib : Lib) {s : Str} (h : CleanText s) : tagFixed lib s = .ok s := by
  have hw := (h.mono (F := wordsOnly [py! "sbn", py! "booknumber"]) (by decide +kernel))
  have h1 : tagQuoted s = s := clean_sub hw (badRe_isbn Rx.re_quoted (by simp)) _
  have h2 : tagIsbn s = s := clean_sub hw (badRe_isbn Rx.re_isbn (by simp)) _
  have h3 : tagArxiv lib s = s := by
    unfold tagArxiv
    simp only [clean_sub h (badRe_fixed Rx.re_arxiv_5digits (by simp)), clean_sub h (badRe_fixed Rx.re_arxiv (by simp)), clean_sub h (badRe_new lib.years).1,
      clean_sub h (badRe_new lib.years5).2]
  unfold tagFixed
  simp only [clean_wash (h.mono (by decide +kernel)), clean_pos (h.mono (by decide +kernel)), h1, h2, h3,
    clean_old (h.mono (by decide +kernel)) (clean_sub h (badRe_fixed Rx.RE_ARXIV_CATCHUP (by simp)) _), clean_atlas (h.mono (by decide +kernel)),
    bind, Except.bind, pure, Except.pure]

theorem calm_dois (lib : Lib) {s : Str} (h : Calm s) : tagDois lib s = (s, []) := by
  unfold tagDois
  rw [calm_finditer h (badRe_fixed Rx.re_doi (by simp))]
  rfl

theorem clean_urls {s : Str} (h : CleanText s) : tagUrls s = (s, []) := by
  unfold tagUrls
  rw [clean_finditer h (badRe_fixed Rx.re_html_tagged_url (by simp))]
  dsimp only [List.foldl_nil]
  rw [clean_finditer h (badRe_fixed Rx.re_raw_url (by simp))]
  rfl

theorem calm_urls {s : Str} (h : Calm s) : tagUrls s = (s, []) := clean_urls (clean_of_calm h)

theorem calm_repair {undesirable : Str → Str} {s : Str} (h : Calm s) (hu : undesirable s = s) : washRepair undesirable s = s := by
  have h1 : repairUrls s = s := few_repair (A := calmChars) (by decide) h.chars (by
    rw [List.count_eq_zero.2 fun hm => absurd (h.chars _ hm) (by decide)]; exact Nat.zero_le _) (by decide +kernel)
  unfold washRepair
  simp only [h1, hu, clean_sub ((clean_of_calm h).mono (F := untidyOnly) (by decide +kernel)) (badRe_wash Rx.quoted_comma (by simp)),
    clean_sub ((clean_of_calm h).mono (F := untidyOnly) (by decide +kernel)) (badRe_wash Rx.re_multiple_space (by simp))]

theorem calm_fixed (lib : Lib) {s : Str} (h : Calm s) : tagFixed lib s = .ok s := clean_fixed lib (clean_of_calm h)

theorem calm_wash {s : Str} (h : Calm s) : washLine s = s := clean_wash ((clean_of_calm h).mono (by decide +kernel))

theorem calm_pos {s : Str} (h : Calm s) : tagPos s = .ok s := clean_pos ((clean_of_calm h).mono (by decide +kernel))

theorem calm_old {s : Str} (h : Calm s) : tagArxivMore s = s :=
  clean_old ((clean_of_calm h).mono (by decide +kernel)) (calm_sub h (badRe_fixed Rx.RE_ARXIV_CATCHUP (by simp)) _)

theorem calm_strip {s : Str} (h : Calm s) : stripTags s = s := by
  unfold stripTags
  rw [few_finditer (A := calmChars) (c := '<') (by decide) h.chars]
  · rfl
  · rw [List.count_eq_zero.2 fun hm => absurd (h.chars _ hm) (by decide)]
    decide +kernel

end Py
