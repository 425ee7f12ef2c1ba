import Verif.Lemmas.Re2
import Verif.Lemmas.Avoid

/-!
# Matching all texts of a given shape at once

A shape is a list of single characters and non-empty runs of characters, each from a finite class
of ASCII characters. `symK` runs the matcher on a shape; `symK_sound` relates the outcome to what the
matcher does with every text of this shape.
-/

open Spec

namespace Py

/-! ### Shapes -/

/-- A stretch of a text: one character of a class, or a non-empty run of characters of a class. -/
structure Seg where
  many : Bool
  cls : List Char
deriving DecidableEq, Repr

/-- The texts of a stretch. -/
def Seg.Fits (g : Seg) (t : Str) : Prop := t ≠ [] ∧ (g.many = false → t.length = 1) ∧ ∀ c ∈ t, c ∈ g.cls

/-- A shape: stretches, and whether anything may follow. -/
structure Shp where
  segs : List Seg
  opn : Bool
deriving DecidableEq, Repr

/-- The parts of a text: those of the stretches, and what follows. -/
structure Parts where
  parts : List Str
  tail : Str

/-- The whole text. -/
def Parts.text (t : Parts) : Str := t.parts.flatten ++ t.tail

/-- The texts of a shape. -/
structure Shaped (sh : Shp) (t : Parts) : Prop where
  fits : All2 Seg.Fits sh.segs t.parts
  closed : sh.opn = false → t.tail = []

/-- A place in a text: in front of a stretch, or within a run. -/
structure APos where
  i : Nat
  mid : Bool
deriving DecidableEq, Repr

/-- A place in a text of stretches. -/
def At (texts : Parts) (p : APos) (pre post : Str) : Prop :=
  if p.mid then ∃ u v, texts.parts[p.i]? = some (u ++ v) ∧ u ≠ [] ∧ v ≠ [] ∧ pre = ((texts.parts.take p.i).flatten ++ u).reverse ∧
    post = v ++ ((texts.parts.drop (p.i + 1)).flatten ++ texts.tail)
  else p.i ≤ texts.parts.length ∧ pre = (texts.parts.take p.i).flatten.reverse ∧ post = (texts.parts.drop p.i).flatten ++ texts.tail

theorem shaped_get {sh : Shp} {texts : Parts} (h : Shaped sh texts) : ∀ i : Nat, match sh.segs[i]? with
    | none => texts.parts[i]? = none
    | some g => ∃ t, texts.parts[i]? = some t ∧ g.Fits t := by
  have h := h.fits
  revert h
  generalize sh.segs = segs
  generalize texts.parts = ts
  intro h
  induction h with
  | nil => intro i; simp
  | cons hf _ ih =>
    intro i
    cases i with
    | zero => exact ⟨_, rfl, hf⟩
    | succ i => exact ih i

theorem drop_get {texts : Parts} {i : Nat} {t : Str} (h : texts.parts[i]? = some t) :
    (texts.parts.drop i).flatten = t ++ (texts.parts.drop (i + 1)).flatten := by
  obtain ⟨hi, rfl⟩ := List.getElem?_eq_some_iff.1 h
  rw [List.drop_eq_getElem_cons hi, List.flatten_cons]

theorem take_get {texts : Parts} {i : Nat} {t : Str} (h : texts.parts[i]? = some t) :
    (texts.parts.take (i + 1)).flatten = (texts.parts.take i).flatten ++ t := by
  obtain ⟨hi, rfl⟩ := List.getElem?_eq_some_iff.1 h
  rw [← List.take_append_getElem hi, List.flatten_append, List.flatten_singleton]

theorem len_pos {u : Str} (h : u ≠ []) : 0 < u.length := by
  cases u with
  | nil => exact absurd rfl h
  | cons _ _ => exact Nat.succ_pos _

/-- What is left of the stretch at a place. -/
theorem At.segment {sh : Shp} {texts : Parts} (h : Shaped sh texts) {p : APos} {pre post : Str} (ha : At texts p pre post) :
    match sh.segs[p.i]? with
    | none => post = texts.tail ∧ p.mid = false
    | some g => ∃ w rest, post = w ++ rest ∧ w ≠ [] ∧ (∀ c ∈ w, c ∈ g.cls) ∧ (g.many = false → w.length = 1) ∧
        At texts ⟨p.i + 1, false⟩ (w.reverse ++ pre) rest ∧
        ∀ a b, w = a ++ b → a ≠ [] → b ≠ [] → At texts ⟨p.i, true⟩ (a.reverse ++ pre) (b ++ rest) := by
  have hg := shaped_get h p.i
  unfold At at ha
  cases hs : sh.segs[p.i]? with
  | none =>
    rw [hs] at hg
    split at ha
    · obtain ⟨u, v, h1, -⟩ := ha; rw [hg] at h1; cases h1
    · rename_i hm
      refine ⟨?_, by simpa using hm⟩
      rw [ha.2.2, List.drop_eq_nil_of_le (List.getElem?_eq_none_iff.1 hg)]
      rfl
  | some g =>
    rw [hs] at hg
    obtain ⟨t, ht, hne, hone, hc⟩ := hg
    have hi : p.i + 1 ≤ texts.parts.length := (List.getElem?_eq_some_iff.1 ht).1
    split at ha
    · obtain ⟨u, v, h1, hu, hv, rfl, rfl⟩ := ha
      rw [ht] at h1
      cases h1
      have hmany : g.many ≠ false := by
        intro hm
        have := hone hm
        have h1 := len_pos hu
        have h2 := len_pos hv
        simp only [List.length_append] at this
        omega
      refine ⟨v, _, rfl, hv, fun c hm => hc c (by simp [hm]), fun hm => absurd hm hmany, ?_, ?_⟩
      · unfold At
        refine ⟨hi, ?_, rfl⟩
        rw [take_get ht]; simp
      · intro a b e ha hb
        unfold At
        exact ⟨u ++ a, b, by rw [ht, e, List.append_assoc], by simp [ha], hb, by simp, rfl⟩
    · obtain ⟨h1, rfl, rfl⟩ := ha
      refine ⟨t, (texts.parts.drop (p.i + 1)).flatten ++ texts.tail, by rw [drop_get ht, List.append_assoc], hne, hc, hone, ?_, ?_⟩
      · unfold At
        refine ⟨hi, ?_, rfl⟩
        rw [take_get ht]; simp
      · intro a b e ha hb
        unfold At
        exact ⟨a, b, by rw [ht, e], ha, hb, by simp, rfl⟩

/-- The order of places. -/
def APos.lt (p q : APos) : Bool := p.i < q.i || (p.i == q.i && !p.mid && q.mid)

theorem At.text {texts : Parts} {p : APos} {pre post : Str} (h : At texts p pre post) : pre.reverse ++ post = texts.text := by
  unfold At at h
  split at h
  · obtain ⟨u, v, h1, -, -, rfl, rfl⟩ := h
    rw [List.reverse_reverse, List.append_assoc, ← List.append_assoc u, ← List.append_assoc (u ++ v), ← drop_get h1, ← List.append_assoc, ← List.flatten_append, List.take_append_drop]
    rfl
  · obtain ⟨-, rfl, rfl⟩ := h
    rw [List.reverse_reverse, ← List.append_assoc, ← List.flatten_append, List.take_append_drop]
    rfl

theorem take_len {texts : Parts} {i j : Nat} (h : i ≤ j) : (texts.parts.take i).flatten.length ≤ (texts.parts.take j).flatten.length := by
  obtain ⟨k, rfl⟩ := Nat.exists_eq_add_of_le h
  rw [List.take_add, List.flatten_append, List.length_append]
  omega

theorem At.pre_len {texts : Parts} {p : APos} {pre post : Str} (h : At texts p pre post) :
    (p.mid = false → pre.length = (texts.parts.take p.i).flatten.length) ∧
    (p.mid = true → (texts.parts.take p.i).flatten.length < pre.length ∧ pre.length < (texts.parts.take (p.i + 1)).flatten.length) := by
  unfold At at h
  split at h
  · rename_i hm
    obtain ⟨u, v, h1, hu, hv, rfl, rfl⟩ := h
    refine ⟨fun h => Bool.noConfusion (hm.symm.trans h), fun _ => ?_⟩
    rw [take_get h1]
    have h1 := len_pos hu
    have h2 := len_pos hv
    simp only [List.length_reverse, List.length_append]
    omega
  · rename_i hm
    obtain ⟨-, rfl, rfl⟩ := h
    exact ⟨fun _ => by simp, fun h => absurd h hm⟩

/-- Places in order: the later one has more in front of it. -/
theorem At.lt {sh : Shp} {texts : Parts} (hs : Shaped sh texts) {p q : APos} {pre post pre' post' : Str} (hp : At texts p pre post)
    (hq : At texts q pre' post') (h : p.lt q = true) : pre.length < pre'.length := by
  have h1 := hp.pre_len
  have h2 := hq.pre_len
  unfold APos.lt at h
  simp only [Bool.or_eq_true, decide_eq_true_eq, Bool.and_eq_true, beq_iff_eq, Bool.not_eq_true'] at h
  have hstep : ∀ {i j : Nat}, i < j → j ≤ texts.parts.length → (texts.parts.take i).flatten.length < (texts.parts.take j).flatten.length := by
    intro i j hij hj
    refine Nat.lt_of_lt_of_le ?_ (take_len (i := i + 1) hij)
    have ht : texts.parts[i]? = some texts.parts[i] := List.getElem?_eq_getElem (by omega)
    rw [take_get ht, List.length_append]
    have := shaped_get hs i
    cases hg : sh.segs[i]? with
    | none => rw [hg] at this; rw [ht] at this; cases this
    | some g =>
      rw [hg] at this
      obtain ⟨t, e, hf⟩ := this
      rw [ht] at e
      cases e
      have := len_pos hf.1
      omega
  have hqi : q.i ≤ texts.parts.length := by
    unfold At at hq
    split at hq
    · obtain ⟨u, v, h1, -⟩ := hq
      have := (List.getElem?_eq_some_iff.1 h1).1
      omega
    · exact hq.1
  rcases h with h | ⟨⟨h, hm⟩, hm'⟩
  · have hlt := hstep h hqi
    cases hpm : p.mid with
    | false =>
      rw [h1.1 hpm]
      cases hqm : q.mid with
      | false => rw [h2.1 hqm]; exact hlt
      | true => exact Nat.lt_trans hlt (h2.2 hqm).1
    | true =>
      have h3 := (h1.2 hpm).2
      have h4 := take_len (texts := texts) (i := p.i + 1) (j := q.i) h
      cases hqm : q.mid with
      | false => rw [h2.1 hqm]; omega
      | true => have := (h2.2 hqm).1; omega
  · rw [h1.1 hm, h]
    exact (h2.2 hm').1

/-! ### Outcomes -/

/-- A capture between two places. -/
structure ACap where
  g : Nat
  p : APos
  q : APos
deriving DecidableEq, Repr

/-- A place with captures, latest first. -/
structure ASt where
  pos : APos
  caps : List ACap
deriving DecidableEq, Repr

/-- The captures of a text. -/
def CapAt (texts : Parts) (a : ACap) (c : Cap) : Prop :=
  c.g = a.g ∧ ∃ pre post post', At texts a.p pre post ∧ At texts a.q (c.txt.reverse ++ pre) post' ∧ c.start = pre.length

/-- The states of the matcher. -/
def StAt (texts : Parts) (a : ASt) (s : St) : Prop := At texts a.pos s.pre s.post ∧ All2 (CapAt texts) a.caps s.caps

/-- An outcome: no match, a match, one of both, or unknown. -/
inductive Verdict where
  | fail
  | ok (a : ASt)
  | maybe (a : ASt)
  | top
deriving DecidableEq, Repr

namespace Verdict

/-- What an outcome says. -/
def Rel (texts : Parts) : Verdict → Option St → Prop
  | fail, o => o = none
  | ok a, o => ∃ t, o = some t ∧ StAt texts a t
  | maybe a, o => ∀ t, o = some t → StAt texts a t
  | top, _ => True

/-- The outcome or no match. -/
def weak : Verdict → Verdict
  | ok a => maybe a
  | v => v

/-- One outcome or the other. -/
def join : Verdict → Verdict → Verdict
  | fail, v => v.weak
  | v, fail => v.weak
  | ok a, ok b => if a = b then ok a else top
  | ok a, maybe b => if a = b then maybe a else top
  | maybe a, ok b => if a = b then maybe a else top
  | maybe a, maybe b => if a = b then maybe a else top
  | _, _ => top

/-- The first outcome that is a match. -/
def or : Verdict → Verdict → Verdict
  | fail, v => v
  | ok a, _ => ok a
  | maybe a, fail => maybe a
  | maybe a, ok b => if a = b then ok a else top
  | maybe a, maybe b => if a = b then maybe a else top
  | maybe _, top => top
  | top, _ => top

variable {texts : Parts}

theorem rel_weak {v : Verdict} {o : Option St} (h : v.Rel texts o) : v.weak.Rel texts o := by
  cases v with
  | ok a => obtain ⟨t, rfl, h⟩ := h; intro t e; cases e; exact h
  | _ => exact h

theorem rel_weak_none (v : Verdict) : v.weak.Rel texts none := by
  cases v with
  | fail => rfl
  | ok a => intro t e; cases e
  | maybe a => intro t e; cases e
  | top => trivial

theorem rel_maybe {a : ASt} {o : Option St} (h : (ok a).Rel texts o) : (maybe a).Rel texts o := rel_weak h

theorem rel_join_left {v w : Verdict} {o : Option St} (h : v.Rel texts o) : (v.join w).Rel texts o := by
  cases v with
  | fail =>
    cases h
    have := rel_weak_none (texts := texts) w
    cases w <;> exact this
  | ok a =>
    cases w with
    | fail => exact rel_maybe h
    | ok b => simp only [join]; split; exact h; trivial
    | maybe b => simp only [join]; split; exact rel_maybe h; trivial
    | top => trivial
  | maybe a =>
    cases w with
    | fail => exact h
    | ok b => simp only [join]; split; exact h; trivial
    | maybe b => simp only [join]; split; exact h; trivial
    | top => trivial
  | top => cases w <;> trivial

theorem rel_join_right {v w : Verdict} {o : Option St} (h : w.Rel texts o) : (v.join w).Rel texts o := by
  cases v with
  | fail =>
    have := rel_weak h
    cases w <;> exact this
  | ok a =>
    cases w with
    | fail => cases h; intro t e; cases e
    | ok b =>
      simp only [join]; split
      · rename_i e; subst e; exact h
      · trivial
    | maybe b =>
      simp only [join]; split
      · rename_i e; subst e; exact h
      · trivial
    | top => trivial
  | maybe a =>
    cases w with
    | fail => cases h; intro t e; cases e
    | ok b =>
      simp only [join]; split
      · rename_i e; subst e; exact rel_maybe h
      · trivial
    | maybe b =>
      simp only [join]; split
      · rename_i e; subst e; exact h
      · trivial
    | top => trivial
  | top => cases w <;> trivial

theorem rel_or {v w : Verdict} {o o' : Option St} (h : v.Rel texts o) (h' : w.Rel texts o') : (v.or w).Rel texts (o.or o') := by
  cases v with
  | fail => cases h; exact h'
  | ok a => obtain ⟨t, rfl, h⟩ := h; exact ⟨t, rfl, h⟩
  | top => trivial
  | maybe a =>
    cases w with
    | fail => cases h'; rw [Option.or_none]; exact h
    | top => trivial
    | ok b =>
      simp only [or]; split
      · rename_i e; subst e
        cases o with
        | none => exact h'
        | some t => exact ⟨t, rfl, h t rfl⟩
      · trivial
    | maybe b =>
      simp only [or]; split
      · rename_i e; subst e
        cases o with
        | none => exact h'
        | some t => intro t' e; cases e; exact h t rfl
      · trivial

theorem rel_or_left {v w : Verdict} {o : Option St} (h : v.Rel texts o) : (v.or w.weak).Rel texts o := by
  have := rel_or h (rel_weak_none (texts := texts) w)
  rwa [Option.or_none] at this

theorem rel_or_weak_right {v w : Verdict} {o : Option St} (h : w.Rel texts o) : (v.weak.or w).Rel texts o :=
  rel_or (o := none) (rel_weak_none v) h

/-- More of the second kind changes nothing. -/
theorem rel_absorb {v w : Verdict} {o o' : Option St} (h : (v.or w.weak).Rel texts o) (h' : w.weak.Rel texts o') :
    (v.or w.weak).Rel texts (o.or o') := by
  cases o with
  | some t => exact h
  | none =>
    rw [Option.none_or]
    cases v with
    | fail => exact h'
    | ok a => obtain ⟨t, e, -⟩ := h; cases e
    | top => trivial
    | maybe a =>
      cases w with
      | fail => cases h'; exact h
      | top => trivial
      | ok b =>
        simp only [weak, or] at h h' ⊢
        split
        · rename_i e; subst e; exact h'
        · trivial
      | maybe b =>
        simp only [weak, or] at h h' ⊢
        split
        · rename_i e; subst e; exact h'
        · trivial

/-- More of the first kind changes nothing. -/
theorem rel_absorb_lazy {v w : Verdict} {o o' : Option St} (h : v.weak.Rel texts o) (h' : (v.weak.or w).Rel texts o') :
    (v.weak.or w).Rel texts (o.or o') := by
  cases o with
  | none => exact h'
  | some t =>
    have h1 : ∀ a, v.weak = maybe a → (maybe a).Rel texts (some t) := fun a e => e ▸ h
    cases v with
    | fail => cases h
    | top => trivial
    | ok a =>
      have := h1 a rfl t rfl
      cases w with
      | fail => intro t' e; cases e; exact this
      | top => trivial
      | ok b => simp only [weak, or]; split; exact ⟨t, rfl, this⟩; trivial
      | maybe b => simp only [weak, or]; split; intro t' e; cases e; exact this; trivial
    | maybe a =>
      have := h1 a rfl t rfl
      cases w with
      | fail => intro t' e; cases e; exact this
      | top => trivial
      | ok b => simp only [weak, or]; split; exact ⟨t, rfl, this⟩; trivial
      | maybe b => simp only [weak, or]; split; intro t' e; cases e; exact this; trivial

end Verdict

end Py
