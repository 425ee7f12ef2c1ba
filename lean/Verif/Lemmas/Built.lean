import Verif.Lemmas.Occurs
import Verif.Lemmas.Lines
import Verif.Spec.Ident
import Verif.Spec.Lines

/-!
# Lines made of text and whole tags

Before journals and authors are marked, every `<` of a line of plain text begins a whole tag.
-/

open Py Spec
open scoped List

namespace Py

/-- A character of the text or a tag. -/
inductive Part
  | ch (c : Char)
  | tag (t : Str)
deriving DecidableEq

/-- The text of a part. -/
def Part.txt : Part → Str
  | .ch c => [c]
  | .tag t => t

/-- The line made of the parts. -/
def renderParts (ps : List Part) : Str := ps.flatMap Part.txt

/-- The tags. -/
def wholeTags : List Str :=
  py! "<cds.DOI />" :: py! "<cds.URL />" ::
    [py! "QUOTED", py! "ISBN", py! "ARXIV", py! "REPORTNUMBER", py! "JOURNAL", py! "VOL", py! "YR", py! "PG"].flatMap fun n =>
      [py! "<cds." ++ n ++ ['>'], py! "</cds." ++ n ++ ['>']]

/-- The parts are tags and characters that are not spelled with `<`. -/
def PartOk (spell : Char → Str) : Part → Prop
  | .ch c => '<' ∉ spell c
  | .tag t => t ∈ wholeTags

/-- How often the tag `t` is among the parts. -/
def tally (t : Str) (ps : List Part) : Nat := ps.countP (· = .tag t)

/-- A line made of text and whole tags, with the numbers of tags for DOIs and URLs. -/
structure Built (spell : Char → Str) (d u : Nat) (s : Str) : Prop where
  parts : ∃ ps, renderParts ps = s ∧ (∀ p ∈ ps, PartOk spell p) ∧ tally (py! "<cds.DOI />") ps = d ∧ tally (py! "<cds.URL />") ps = u

variable {spell : Char → Str}

theorem renderParts_append (a b : List Part) : renderParts (a ++ b) = renderParts a ++ renderParts b := by simp [renderParts]

/-! ### Cutting between parts -/

theorem wholeTags_ends {t : Str} (h : t ∈ wholeTags) : ∃ m, t = '<' :: m ++ ['>'] := by
  have : ∀ t ∈ wholeTags, t.head? = some '<' ∧ t.getLast? = some '>' ∧ 2 ≤ t.length := by decide
  obtain ⟨h1, h2, h3⟩ := this t h
  cases t with
  | nil => cases h1
  | cons c t =>
    simp only [List.head?_cons, Option.some.injEq] at h1
    subst h1
    refine ⟨t.dropLast, ?_⟩
    have hne : t ≠ [] := by rintro rfl; simp at h3
    rw [List.getLast?_cons, List.getLast?_eq_some_getLast hne] at h2
    simp only [Option.getD_some, Option.some.injEq] at h2
    rw [List.cons_append, ← h2, List.dropLast_concat_getLast]

/-- A cut in front of a character that is not the first of a tag, or behind one, is either between parts or inside a tag. -/
theorem render_cut {ps : List Part} {a b : Str} (h : renderParts ps = a ++ b) :
    (∃ pa pb, ps = pa ++ pb ∧ renderParts pa = a ∧ renderParts pb = b) ∨
    ∃ pa t pb x y, ps = pa ++ .tag t :: pb ∧ t = x ++ y ∧ x ≠ [] ∧ y ≠ [] ∧ a = renderParts pa ++ x ∧ b = y ++ renderParts pb := by
  induction ps generalizing a with
  | nil =>
    obtain ⟨rfl, rfl⟩ := List.append_eq_nil_iff.1 h.symm
    exact .inl ⟨[], [], rfl, rfl, rfl⟩
  | cons p ps ih =>
    have e : renderParts (p :: ps) = p.txt ++ renderParts ps := rfl
    rw [e] at h
    rcases List.append_eq_append_iff.1 h with ⟨a', h1, h2⟩ | ⟨c', h1, h2⟩
    · rcases ih h2 with ⟨pa, pb, rfl, h3, h4⟩ | ⟨pa, t, pb, x, y, rfl, rfl, hx, hy, rfl, rfl⟩
      · exact .inl ⟨p :: pa, pb, rfl, by rw [h1, ← h3]; rfl, h4⟩
      · refine .inr ⟨p :: pa, x ++ y, pb, x, y, rfl, rfl, hx, hy, ?_, rfl⟩
        rw [h1, ← List.append_assoc]; rfl
    · by_cases ha : a = []
      · subst ha
        refine .inl ⟨[], p :: ps, rfl, rfl, ?_⟩
        rw [e, h2, h1]; rfl
      by_cases hc : c' = []
      · subst hc
        rw [List.append_nil] at h1
        exact .inl ⟨[p], ps, rfl, by rw [← h1]; simp [renderParts], by rw [h2]; rfl⟩
      cases p with
      | ch c =>
        exfalso
        have := congrArg List.length h1
        simp only [Part.txt, List.length_singleton, List.length_append] at this
        have h3 : 0 < a.length := List.length_pos_iff.2 ha
        have h4 : 0 < c'.length := List.length_pos_iff.2 hc
        omega
      | tag t => exact .inr ⟨[], t, ps, a, c', rfl, h1, ha, hc, rfl, h2⟩

theorem chars_only {pw : List Part} (hw : ∀ p ∈ pw, PartOk spell p) (h1 : '<' ∉ renderParts pw) : pw = (renderParts pw).map Part.ch := by
  induction pw with
  | nil => rfl
  | cons p pw ih =>
    cases p with
    | ch c =>
      have e : renderParts (Part.ch c :: pw) = c :: renderParts pw := rfl
      rw [e] at h1
      rw [e, List.map_cons, ← ih (fun q hq => hw q (by simp [hq])) (fun h => h1 (by simp [h]))]
    | tag t =>
      exfalso
      obtain ⟨m, hm⟩ := wholeTags_ends (hw (.tag t) (by simp))
      apply h1
      simp [renderParts, Part.txt, hm]

/-- A piece without angle brackets that is not part of a tag consists of characters of the text. -/
theorem render_piece {ps : List Part} (hok : ∀ p ∈ ps, PartOk spell p) {a w r : Str} (h : renderParts ps = a ++ w ++ r)
    (h1 : '<' ∉ w) (h2 : '>' ∉ w) (hin : ∀ t ∈ wholeTags, ¬ w <:+: t) :
    ∃ pa pr, ps = pa ++ w.map Part.ch ++ pr ∧ renderParts pa = a ∧ renderParts pr = r := by
  have tagIn : ∀ pa t pb, ps = pa ++ .tag t :: pb → t ∈ wholeTags := fun pa t pb e => hok (.tag t) (by rw [e]; simp)
  have hne : w ≠ [] := by
    rintro rfl
    exact hin _ (List.mem_cons_self) (List.nil_infix)
  rw [List.append_assoc] at h
  -- the cut in front
  have hfront : ∃ pa pb, ps = pa ++ pb ∧ renderParts pa = a ∧ renderParts pb = w ++ r := by
    rcases render_cut h with h' | ⟨pa, t, pb, x, y, rfl, rfl, hx, hy, rfl, e⟩
    · exact h'
    · exfalso
      have ht := tagIn _ _ _ rfl
      obtain ⟨m, hm⟩ := wholeTags_ends ht
      rcases List.append_eq_append_iff.1 e with ⟨k, rfl, -⟩ | ⟨k, e1, -⟩
      · exact hin _ ht ⟨x, k, by simp⟩
      · -- `y` ends in `>` and is a beginning of `w`
        apply h2
        rw [e1]
        have : (x ++ y).getLast? = some '>' := by rw [hm, List.getLast?_append]; rfl
        rw [List.getLast?_append, List.getLast?_eq_some_getLast hy] at this
        simp only [Option.some_or, Option.some.injEq] at this
        exact List.mem_append_left _ (this ▸ List.getLast_mem hy)
  obtain ⟨pa, pb, rfl, e1, e2⟩ := hfront
  have hback : ∃ pw pr, pb = pw ++ pr ∧ renderParts pw = w ∧ renderParts pr = r := by
    rcases render_cut e2 with h' | ⟨pw, t, pr, x, y, rfl, rfl, hx, hy, rfl, e⟩
    · exact h'
    · exfalso
      have ht := tagIn (pa ++ pw) (x ++ y) pr (by simp)
      obtain ⟨m, hm⟩ := wholeTags_ends ht
      apply h1
      cases x with
      | nil => exact absurd rfl hx
      | cons c x =>
        rw [List.cons_append, List.cons_append, List.cons.injEq] at hm
        rw [hm.1]
        simp
  obtain ⟨pw, pr, rfl, e3, e4⟩ := hback
  refine ⟨pa, pr, ?_, e1, e4⟩
  have := chars_only (spell := spell) (pw := pw) (fun p hp => hok p (by simp [hp])) (e3 ▸ h1)
  rw [e3] at this
  rw [this, List.append_assoc]

/-! ### Replacing pieces -/

theorem tally_append (t : Str) (a b : List Part) : tally t (a ++ b) = tally t a + tally t b := List.countP_append
theorem tally_chars (t x : Str) : tally t (x.map Part.ch) = 0 := by
  simp [tally, List.countP_map, List.countP_eq_zero]

/-- Parts that may take the place of a piece: no tags for DOIs and URLs. -/
def Neutral (spell : Char → Str) (x : Str) : Prop := Built spell 0 0 x

theorem Built.append {d u d' u' : Nat} {a b : Str} (ha : Built spell d u a) (hb : Built spell d' u' b) : Built spell (d + d') (u + u') (a ++ b) := by
  obtain ⟨pa, e1, h1, c1, c2⟩ := ha.parts
  obtain ⟨pb, e2, h2, c3, c4⟩ := hb.parts
  refine ⟨pa ++ pb, by rw [renderParts_append, e1, e2], ?_, by rw [tally_append, c1, c3], by rw [tally_append, c2, c4]⟩
  intro p hp
  rw [List.mem_append] at hp
  exact hp.elim (h1 p) (h2 p)

theorem Neutral.append {a b : Str} (ha : Neutral spell a) (hb : Neutral spell b) : Neutral spell (a ++ b) := by
  have := Built.append ha hb
  exact this

theorem built_text {x : Str} (h : NoAngle spell x) : Neutral spell x := by
  refine ⟨x.map Part.ch, ?_, ?_, tally_chars _ _, tally_chars _ _⟩
  · simp only [renderParts, List.flatMap_map]
    exact List.flatMap_singleton' x
  · intro p hp
    obtain ⟨c, hc, rfl⟩ := List.mem_map.1 hp
    exact h c hc

theorem built_tag {t : Str} (h : t ∈ wholeTags) (h1 : t ≠ py! "<cds.DOI />") (h2 : t ≠ py! "<cds.URL />") : Neutral spell t := by
  refine ⟨[.tag t], by simp [renderParts, Part.txt], by simpa [PartOk] using h, ?_, ?_⟩ <;> simp [tally, h1, h2]

/-- What holds of a piece of the text in a line. -/
theorem piece_plain {ps : List Part} (hok : ∀ p ∈ ps, PartOk spell p) {pa pr : List Part} {w : Str} (h : ps = pa ++ w.map Part.ch ++ pr) :
    NoAngle spell w := by
  intro c hc
  exact hok (.ch c) (by rw [h]; simp [hc])

/-- A piece is replaced. -/
theorem Built.swap {d u d' u' : Nat} {a w r x : Str} (h : Built spell d u (a ++ w ++ r)) (h1 : '<' ∉ w) (h2 : '>' ∉ w)
    (hin : ∀ t ∈ wholeTags, ¬ w <:+: t) (hx : NoAngle spell w → Built spell d' u' x) : Built spell (d + d') (u + u') (a ++ x ++ r) := by
  obtain ⟨ps, e, hok, c1, c2⟩ := h.parts
  obtain ⟨pa, pr, hs, ea, er⟩ := render_piece hok e h1 h2 hin
  obtain ⟨px, e', hx', k1, k2⟩ := (hx (piece_plain hok hs)).parts
  subst hs
  refine ⟨pa ++ px ++ pr, by rw [renderParts_append, renderParts_append, ea, e', er], ?_, ?_, ?_⟩
  · intro p hp
    simp only [List.mem_append] at hp
    rcases hp with (hp | hp) | hp
    · exact hok p (by simp [hp])
    · exact hx' p hp
    · exact hok p (by simp [hp])
  · rw [tally_append, tally_append, tally_chars] at c1
    rw [tally_append, tally_append, k1]; omega
  · rw [tally_append, tally_append, tally_chars] at c2
    rw [tally_append, tally_append, k2]; omega

theorem Built.replace {d u : Nat} {a w r x : Str} (h : Built spell d u (a ++ w ++ r)) (h1 : '<' ∉ w) (h2 : '>' ∉ w)
    (hin : ∀ t ∈ wholeTags, ¬ w <:+: t) (hx : NoAngle spell w → Neutral spell x) : Built spell d u (a ++ x ++ r) := by
  have := h.swap (d' := 0) (u' := 0) h1 h2 hin hx
  exact this

theorem piece_of_char {w : Str} {p : Char → Bool} (n : Nat) (hw : n < w.countP p) (ht : ∀ t ∈ wholeTags, t.countP p ≤ n) :
    ∀ t ∈ wholeTags, ¬ w <:+: t := by
  intro t h hi
  have := hi.sublist.countP_le (p := p)
  have := ht t h
  omega

/-- Replacing pieces from left to right. -/
theorem rewritten_built {P : Str → Str → Str → Str → Prop}
    (hP : ∀ {d u b w r x}, P b w r x → Built spell d u (b ++ w ++ r) → ∀ a, Built spell d u (a ++ w ++ r) → Built spell d u (a ++ x ++ r))
    {b s t : Str} (h : Rewritten P b s t) : ∀ {d u : Nat} (a : Str), Built spell d u (b ++ s) → Built spell d u (a ++ s) → Built spell d u (a ++ t) := by
  induction h with
  | nil => intro d u a _ h; exact h
  | @ch b c s t _ _ ih =>
    intro d u a hb ha
    have := ih (a ++ [c]) (by simpa using hb) (by simpa using ha)
    simpa using this
  | @hit b w r x t _ hp _ ih =>
    intro d u a hb ha
    have h1 := hP hp (by simpa using hb) a (by simpa using ha)
    have := ih (a ++ x) (by simpa using hb) h1
    simpa using this

theorem rewritten_built' {P : Str → Str → Str → Str → Prop}
    (hP : ∀ {d u b w r x}, P b w r x → ∀ a, Built spell d u (a ++ w ++ r) → Built spell d u (a ++ x ++ r))
    {s t : Str} {d u : Nat} (h : Rewritten P [] s t) (hs : Built spell d u s) : Built spell d u t :=
  rewritten_built (spell := spell) (fun hp _ => hP hp) h [] hs hs

theorem rewrittenBy_built {Ps : List (Str → Str → Str → Str → Prop)}
    (hP : ∀ P ∈ Ps, ∀ {d u b w r x}, P b w r x → ∀ a, Built spell d u (a ++ w ++ r) → Built spell d u (a ++ x ++ r))
    {s t : Str} {d u : Nat} (h : RewrittenBy Ps s t) (hs : Built spell d u s) : Built spell d u t := by
  induction h with
  | nil => exact hs
  | cons h1 _ ih =>
    exact ih (fun P hp => hP P (.tail _ hp)) (rewritten_built' (hP _ (.head _)) h1 hs)

end Py
