import Verif.Lemmas.Parse2
import Verif.Lemmas.Rebuild
import Verif.Lemmas.ReSyn
import Verif.Spec.Plain

/-!
# How often a tag occurs

`w` stands for a tag without its first character `<`. White space is left out of account, so that steps that only
move white space change nothing.
-/

open Py Spec
open scoped List

namespace Py

/-! ### Counting -/

theorem prefix_append_cases {w a b : Str} (h : w <+: a ++ b) : w <+: a ∨ ∃ c z, w = a ++ c :: z ∧ b.head? = some c := by
  induction a generalizing w with
  | nil =>
    cases w with
    | nil => exact .inl (List.prefix_refl _)
    | cons c w =>
      right
      obtain ⟨t, ht⟩ := h
      exact ⟨c, w, rfl, by rw [List.nil_append] at ht; rw [← ht]; rfl⟩
  | cons x a ih =>
    cases w with
    | nil => exact .inl (List.nil_prefix)
    | cons c w =>
      rw [List.cons_append, List.cons_prefix_cons] at h
      obtain ⟨rfl, h⟩ := h
      rcases ih h with h | ⟨d, z, e, hd⟩
      · exact .inl (List.cons_prefix_cons.2 ⟨rfl, h⟩)
      · exact .inr ⟨d, z, by rw [e]; rfl, hd⟩

/-- No ending of `w` can be completed by `i`, whatever follows. -/
def Firm (w i : Str) : Prop := ∀ z, z ≠ [] → z <:+ w → ¬ z <+: i ∧ ¬ i <+: z

theorem prefix_append_or {z i j : Str} (h : z <+: i ++ j) : z <+: i ∨ i <+: z := by
  rcases prefix_append_cases h with h | ⟨c, t, e, -⟩
  · exact .inl h
  · exact .inr (by rw [e]; exact List.prefix_append _ _)

theorem Firm.append {w i : Str} (h : Firm w i) (j : Str) : Firm w (i ++ j) := by
  refine fun z h1 h2 => ⟨fun h3 => ?_, fun h3 => (h z h1 h2).2 ((List.prefix_append i j).trans h3)⟩
  rcases prefix_append_or h3 with h3 | h3
  · exact (h z h1 h2).1 h3
  · exact (h z h1 h2).2 h3

theorem occurs_split {w b : Str} (hb : ∀ z, z ≠ [] → z <:+ w → ¬ z <+: b) (a : Str) :
    occurs ('<' :: w) (a ++ b) = occurs ('<' :: w) a + occurs ('<' :: w) b := by
  induction a with
  | nil => simp [occurs]
  | cons c a ih =>
    have e : ('<' :: w <+: c :: (a ++ b)) ↔ ('<' :: w <+: c :: a) := by
      rw [List.cons_prefix_cons, List.cons_prefix_cons]
      refine and_congr_right fun _ => ⟨fun h => ?_, fun h => h.trans (List.prefix_append _ _)⟩
      rcases prefix_append_cases h with h' | ⟨d, z, e, hd⟩
      · exact h'
      · rw [e, List.prefix_append_right_inj] at h
        exact absurd h (hb _ (by simp) (by rw [e]; exact List.suffix_append _ _))
    simp only [List.cons_append, occurs, e, ih]
    omega

theorem occurs_super (w a b : Str) : occurs w a + occurs w b ≤ occurs w (a ++ b) := by
  induction a with
  | nil => simp [occurs]
  | cons c a ih =>
    simp only [List.cons_append, occurs]
    have : (if w <+: c :: a then 1 else 0) ≤ (if w <+: c :: (a ++ b) then 1 else 0) := by
      split
      · next h =>
        rw [if_pos (h.trans (by rw [← List.cons_append]; exact List.prefix_append _ _))]
        exact Nat.le_refl _
      · exact Nat.zero_le _
    omega

/-- No tag can begin in the text, whatever follows. -/
def shut (w : Str) : Str → Bool
  | [] => true
  | c :: t => (c != '<' || (!t.isPrefixOf w && !w.isPrefixOf t)) && shut w t

theorem shut_occurs {w i : Str} (h : shut w i = true) (b : Str) : occurs ('<' :: w) (i ++ b) = occurs ('<' :: w) b := by
  induction i with
  | nil => rfl
  | cons c t ih =>
    simp only [shut, Bool.and_eq_true, Bool.or_eq_true, bne_iff_ne, Bool.not_eq_true'] at h
    simp only [List.cons_append, occurs, ih h.2]
    rw [if_neg, Nat.zero_add]
    rintro hp
    rw [List.cons_prefix_cons] at hp
    rcases h.1 with h1 | ⟨h1, h2⟩
    · exact h1 hp.1.symm
    · rcases prefix_append_cases hp.2 with h3 | ⟨d, z, e, -⟩
      · rw [← List.isPrefixOf_iff_prefix, h2] at h3; cases h3
      · have : t <+: w := by rw [e]; exact List.prefix_append _ _
        rw [← List.isPrefixOf_iff_prefix, h1] at this; cases this

theorem shut_append {w i j : Str} (hi : shut w i = true) (hj : shut w j = true) : shut w (i ++ j) = true := by
  induction i with
  | nil => exact hj
  | cons c t ih =>
    simp only [shut, Bool.and_eq_true, Bool.or_eq_true, bne_iff_ne, Bool.not_eq_true', List.cons_append] at hi ⊢
    refine ⟨hi.1.imp id fun ⟨h1, h2⟩ => ⟨?_, ?_⟩, ih hi.2⟩
    · rw [Bool.eq_false_iff, ne_eq, List.isPrefixOf_iff_prefix]
      intro h
      have := (List.prefix_append t j).trans h
      rw [← List.isPrefixOf_iff_prefix, h1] at this; cases this
    · rw [Bool.eq_false_iff, ne_eq, List.isPrefixOf_iff_prefix]
      intro h
      rcases prefix_append_cases h with h | ⟨d, z, e, -⟩
      · rw [← List.isPrefixOf_iff_prefix, h2] at h; cases h
      · have : t <+: w := by rw [e]; exact List.prefix_append _ _
        rw [← List.isPrefixOf_iff_prefix, h1] at this; cases this

theorem shut_free {w i : Str} (h : '<' ∉ i) : shut w i = true := by
  induction i with
  | nil => rfl
  | cons c t ih =>
    simp only [List.mem_cons, not_or] at h
    simp [shut, Ne.symm h.1, ih h.2]

/-! ### Replacements that bring no tag -/

variable [UnicodeDB]

omit [UnicodeDB] in
/-- The characters with which the text is spelled, without white space. -/
def shape (spell : Char → Str) (s : Str) : Str := ink (s.flatMap spell)

omit [UnicodeDB] in
/-- Only `<` itself is spelled with `<`. -/
def Tame (spell : Char → Str) (s : Str) : Prop := ∀ c ∈ s, c = '<' ∨ '<' ∉ spell c

omit [UnicodeDB] in
/-- Putting `v` in place of `u` brings no tag into any text. -/
def Meek (spell : Char → Str) (w u v : Str) : Prop :=
  Tame spell u → Tame spell v ∧ ∀ a b, occurs ('<' :: w) (a ++ shape spell v ++ b) ≤ occurs ('<' :: w) (a ++ shape spell u ++ b)

omit [UnicodeDB] in
/-- A text that cannot be part of a tag together with other text. -/
structure Seal (spell : Char → Str) (w i : Str) : Prop where
  firm : Firm w (shape spell i)
  shut : shut w (shape spell i) = true
  tame : Tame spell i

section
omit [UnicodeDB]
variable {spell : Char → Str} {w : Str}

theorem shape_append (a b : Str) : shape spell (a ++ b) = shape spell a ++ shape spell b := by
  simp [shape, ink_append]

theorem Tame.append {a b : Str} (ha : Tame spell a) (hb : Tame spell b) : Tame spell (a ++ b) := by
  intro c hc
  rw [List.mem_append] at hc
  exact hc.elim (ha c) (hb c)

theorem Tame.left {a b : Str} (h : Tame spell (a ++ b)) : Tame spell a := fun c hc => h c (by simp [hc])
theorem Tame.right {a b : Str} (h : Tame spell (a ++ b)) : Tame spell b := fun c hc => h c (by simp [hc])
theorem Tame.of_sub {a b : Str} (h : Tame spell a) (hs : ∀ c ∈ b, c ∈ a) : Tame spell b := fun c hc => h c (hs c hc)
theorem Tame.plain {a : Str} (h : Tame spell a) (hn : '<' ∉ a) : NoAngle spell a := by
  intro c hc
  rcases h c hc with rfl | h
  · exact absurd hc hn
  · exact h
theorem _root_.Spec.NoAngle.tame {a : Str} (h : NoAngle spell a) : Tame spell a := fun c hc => .inr (h c hc)
theorem _root_.Spec.NoAngle.of_sub {a b : Str} (h : NoAngle spell a) (hs : ∀ c ∈ b, c ∈ a) : NoAngle spell b := fun c hc => h c (hs c hc)
theorem _root_.Spec.NoAngle.append {a b : Str} (ha : NoAngle spell a) (hb : NoAngle spell b) : NoAngle spell (a ++ b) := by
  intro c hc
  rw [List.mem_append] at hc
  exact hc.elim (ha c) (hb c)

theorem _root_.Spec.NoAngle.shape {a : Str} (h : NoAngle spell a) : '<' ∉ shape spell a := by
  intro hm
  simp only [Py.shape, ink, List.mem_filter, List.mem_flatMap] at hm
  obtain ⟨⟨c, hc, hd⟩, -⟩ := hm
  exact h c hc hd

theorem Meek.refl (u : Str) : Meek spell w u u := fun h => ⟨h, fun _ _ => Nat.le_refl _⟩

theorem Meek.trans {u v x : Str} (h : Meek spell w u v) (h' : Meek spell w v x) : Meek spell w u x :=
  fun t => ⟨(h' (h t).1).1, fun a b => Nat.le_trans ((h' (h t).1).2 a b) ((h t).2 a b)⟩

theorem Meek.append {u v u' v' : Str} (h : Meek spell w u v) (h' : Meek spell w u' v') : Meek spell w (u ++ u') (v ++ v') := by
  intro t
  refine ⟨(h t.left).1.append (h' t.right).1, fun a b => ?_⟩
  rw [shape_append, shape_append]
  have h1 := (h t.left).2 a (shape spell v' ++ b)
  have h2 := (h' t.right).2 (a ++ shape spell u) b
  simp only [List.append_assoc] at h1 h2 ⊢
  exact Nat.le_trans h1 h2

theorem Meek.le {u v : Str} (h : Meek spell w u v) (t : Tame spell u) :
    occurs ('<' :: w) (shape spell v) ≤ occurs ('<' :: w) (shape spell u) := by
  simpa using (h t).2 [] []

theorem Meek.same {u v : Str} (h : shape spell u = shape spell v) (ht : Tame spell u → Tame spell v) : Meek spell w u v :=
  fun t => ⟨ht t, fun a b => by rw [h]; exact Nat.le_refl _⟩

theorem Seal.count {i : Str} (h : Seal spell w i) (a b : Str) :
    occurs ('<' :: w) (a ++ shape spell i ++ b) = occurs ('<' :: w) a + occurs ('<' :: w) b := by
  rw [List.append_assoc, occurs_split fun z h1 h2 => ((h.firm.append b) z h1 h2).1, shut_occurs h.shut]

theorem Seal.meek {i : Str} (h : Seal spell w i) (u : Str) : Meek spell w u i := by
  refine fun _ => ⟨h.tame, fun a b => ?_⟩
  rw [h.count]
  have h1 := occurs_super ('<' :: w) a (shape spell u)
  have h2 := occurs_super ('<' :: w) (a ++ shape spell u) b
  omega

theorem Seal.append {i j : Str} (hi : Seal spell w i) (hj : Seal spell w j) : Seal spell w (i ++ j) := by
  refine ⟨?_, ?_, hi.tame.append hj.tame⟩
  · rw [shape_append]; exact hi.firm.append _
  · rw [shape_append]; exact shut_append hi.shut hj.shut

theorem Seal.text {i t : Str} (hi : Seal spell w i) (ht : NoAngle spell t) : Seal spell w (i ++ t) := by
  refine ⟨?_, ?_, hi.tame.append ht.tame⟩
  · rw [shape_append]; exact hi.firm.append _
  · rw [shape_append]; exact shut_append hi.shut (shut_free ht.shape)

theorem Meek.keep {i j p s q : Str} (hi : Seal spell w i) (hj : Seal spell w j) : Meek spell w (p ++ s ++ q) (i ++ s ++ j) :=
  ((hi.meek p).append (Meek.refl s)).append (hj.meek q)

/-- Deleting text next to a seal. -/
theorem Meek.swallow {i u : Str} (hi : Seal spell w i) (a : Str) : Meek spell w (a ++ u) (a ++ i) := (Meek.refl a).append (hi.meek u)

/-- The check that no ending can be completed. -/
def firmB : Str → Str → Bool
  | [], _ => true
  | c :: w, i => !(c :: w).isPrefixOf i && !i.isPrefixOf (c :: w) && firmB w i

theorem firm_of {w i : Str} (h : firmB w i = true) : Firm w i := by
  induction w with
  | nil =>
    intro z h1 h2
    exact absurd (List.suffix_nil.1 h2) h1
  | cons c w ih =>
    simp only [firmB, Bool.and_eq_true, Bool.not_eq_true'] at h
    intro z h1 h2
    rw [List.suffix_cons_iff] at h2
    rcases h2 with rfl | h2
    · refine ⟨fun h3 => ?_, fun h3 => ?_⟩
      · rw [← List.isPrefixOf_iff_prefix, h.1.1] at h3; cases h3
      · rw [← List.isPrefixOf_iff_prefix, h.1.2] at h3; cases h3
    · exact ih h.2 z h1 h2

/-- The check for a literal text. -/
def sealB (w i : Str) : Bool :=
  firmB w (ink i) && Py.shut w (ink i) && i.all isAscii

end

/-! ### With a transliteration -/

variable {uni : Str → Str} {spell : Char → Str} {w : Str}

theorem spell_ascii (S : Spelled uni spell) {s : Str} (h : s.all isAscii = true) : s.flatMap spell = s := by
  induction s with
  | nil => rfl
  | cons c s ih =>
    rw [List.all_cons, Bool.and_eq_true] at h
    rw [List.flatMap_cons, S.ascii c h.1, ih h.2]
    rfl

theorem plain_ascii (S : Spelled uni spell) {s : Str} (h : s.all isAscii = true) (hl : '<' ∉ s) : NoAngle spell s := by
  intro c hc
  rw [S.ascii c (List.all_eq_true.1 h c hc)]
  simp only [List.mem_singleton]
  rintro rfl
  exact hl hc

theorem tame_ascii (S : Spelled uni spell) {s : Str} (h : s.all isAscii = true) : Tame spell s := by
  intro c hc
  rw [S.ascii c (List.all_eq_true.1 h c hc)]
  simp only [List.mem_singleton]
  by_cases e : c = '<'
  · exact .inl e
  · exact .inr (Ne.symm e)

theorem seal_of (S : Spelled uni spell) {i : Str} (h : sealB w i = true) : Seal spell w i := by
  simp only [sealB, Bool.and_eq_true] at h
  obtain ⟨⟨h2, h3⟩, h4⟩ := h
  have e : shape spell i = ink i := by rw [shape, spell_ascii S h4]
  exact ⟨by rw [e]; exact firm_of h2, by rw [e]; exact h3, tame_ascii S h4⟩

theorem shape_space (S : Spelled uni spell) {s : Str} (h : ∀ c ∈ s, isSpace c = true) : shape spell s = [] := by
  refine ink_spaces fun d hd => ?_
  obtain ⟨c, hc, hd⟩ := List.mem_flatMap.1 hd
  exact S.space c (h c hc) d hd

/-- White space may be taken out and put in. -/
theorem Meek.ink (S : Spelled uni spell) {u v : Str} (h : ink u = ink v) (ht : Tame spell u → Tame spell v) : Meek spell w u v := by
  refine Meek.same ?_ ht
  have key : ∀ s : Str, shape spell s = shape spell (Spec.ink s) := by
    intro s
    induction s with
    | nil => rfl
    | cons c s ih =>
      have e : shape spell (c :: s) = shape spell [c] ++ shape spell s := by rw [← shape_append]; rfl
      by_cases hc : isSpace c = true
      · rw [e, shape_space S (by simpa using hc), ih]
        simp [Spec.ink, hc]
      · have : Spec.ink (c :: s) = [c] ++ Spec.ink s := by simp [Spec.ink, hc]
        rw [e, this, shape_append, ih]
  rw [key u, key v, h]

theorem Meek.unidecode (S : Spelled uni spell) (s : Str) : Meek spell w s (uni s) := by
  rw [S.all]
  refine Meek.same ?_ ?_
  · have : ∀ c, (spell c).flatMap spell = spell c := fun c => spell_ascii S (List.all_eq_true.2 (S.out c))
    simp only [shape, List.flatMap_assoc, this]
  · intro _
    exact tame_ascii S (List.all_eq_true.2 fun d hd => by
      obtain ⟨c, -, hd⟩ := List.mem_flatMap.1 hd
      exact S.out c d hd)

/-- A tag in the text is a tag in what the text is spelled with. -/
theorem occurs_shape (S : Spelled uni spell) (hw : w.all (fun c => isAscii c && !isSpace c) = true) (s : Str) :
    occurs ('<' :: w) s ≤ occurs ('<' :: w) (shape spell s) := by
  have hkeep : ∀ t : Str, t.all (fun c => isAscii c && !isSpace c) = true → ∀ r : Str, shape spell (t ++ r) = t ++ shape spell r := by
    intro t ht r
    rw [shape_append]
    congr 1
    simp only [List.all_eq_true, Bool.and_eq_true, Bool.not_eq_true'] at ht
    rw [shape, spell_ascii S (List.all_eq_true.2 fun c hc => (ht c hc).1)]
    simp only [Spec.ink, List.filter_eq_self]
    intro c hc
    simp [(ht c hc).2]
  induction s with
  | nil => simp [occurs]
  | cons c s ih =>
    have e : shape spell (c :: s) = shape spell [c] ++ shape spell s := by rw [← shape_append]; rfl
    rw [occurs]
    split
    · next h =>
      obtain ⟨r, hr⟩ := h
      rw [List.cons_append, List.cons.injEq] at hr
      obtain ⟨rfl, rfl⟩ := hr
      have h1 : shape spell ('<' :: (w ++ r)) = '<' :: shape spell (w ++ r) := by
        rw [e, show shape spell ['<'] = ['<'] by
          rw [shape, spell_ascii S (by decide)]; decide]
        rfl
      rw [h1, occurs, if_pos]
      · omega
      · rw [List.cons_prefix_cons, hkeep w hw]
        exact ⟨rfl, List.prefix_append _ _⟩
    · rw [e]
      have := occurs_right ('<' :: w) (shape spell [c]) (shape spell s)
      omega

end Py
