import Verif.Lemmas.Shape3
import Verif.Model.Numeration
import Verif.Spec.Written

/-!
# The values of written numerations
-/

open Spec

namespace Py

/-- The outcome of the first pattern that may match. -/
def symFirst (sh : Shp) : List Re → Verdict
  | [] => .fail
  | r :: rs => match sym sh r ⟨0, false⟩ with
    | .fail => symFirst sh rs
    | v => v

variable {sh : Shp} {texts : Parts}

theorem symFirst_ok [UnicodeDB] (hs : Shaped sh texts) : ∀ {rs : List Re} {a : ASt}, symFirst sh rs = .ok a →
    ∃ m, firstMatch rs texts.text = some m ∧ MatchAt texts ⟨0, false⟩ a m
  | [], _, h => by cases h
  | r :: rs, a, h => by
    unfold symFirst at h
    unfold firstMatch
    rw [List.findSome?_cons]
    cases hv : sym sh r ⟨0, false⟩ with
    | fail =>
      rw [hv] at h
      rw [reMatch_fail hs hv]
      exact symFirst_ok hs h
    | ok b =>
      rw [hv] at h
      cases h
      obtain ⟨m, h1, h2⟩ := reMatch_shape hs hv
      rw [h1]
      exact ⟨m, rfl, h2⟩
    | maybe b => rw [hv] at h; cases h
    | top => rw [hv] at h; cases h

/-- Where the parts of a numeration are: each between two stretches. -/
structure NumAt where
  vol : Nat × Nat
  volNum : Nat × Nat
  year : Nat × Nat
  page : Nat × Nat
  last : Option (Nat × Nat)
  stop : Nat
deriving DecidableEq, Repr

/-- Where a group is. -/
def capSpan (a : ASt) (g : Nat) : Option (Nat × Nat) :=
  match a.caps.find? (·.g == g) with
  | some b => if !b.p.mid && !b.q.mid && decide (b.p.i < b.q.i) then some (b.p.i, b.q.i) else none
  | none => none

/-- Is a group missing? -/
def capNone (a : ASt) (g : Nat) : Bool := (a.caps.find? (·.g == g)).isNone

/-- The numeration of a shape. -/
def symNum (sh : Shp) : Option NumAt :=
  match symFirst sh numerationPatterns with
  | .ok a =>
    if a.pos.mid || !capNone a G.series then none else
    match capSpan a G.vol, capSpan a G.vol_num, capSpan a G.year, capSpan a G.page with
    | some v, some n, some y, some p =>
      match capSpan a G.page_end with
      | some q => some ⟨v, n, y, p, some q, a.pos.i⟩
      | none => if capNone a G.page_end then some ⟨v, n, y, p, none, a.pos.i⟩ else none
    | _, _, _, _ => none
  | _ => none

/-- The text between two stretches. -/
def Parts.span (t : Parts) (s : Nat × Nat) : Str := between t s.1 s.2

theorem capSpan_group {a : ASt} {p : APos} {m : Match} (h : MatchAt texts p a m) {g : Nat} {s : Nat × Nat} (hs : capSpan a g = some s) :
    m.group g = some (texts.span s) ∧ s.1 < s.2 := by
  unfold capSpan at hs
  split at hs
  · rename_i b hb
    split at hs
    · rename_i hc
      cases hs
      simp only [Bool.and_eq_true, Bool.not_eq_true', decide_eq_true_eq] at hc
      refine ⟨h.group g hb (i := b.p.i) (j := b.q.i) ?_ ?_ (Nat.le_of_lt hc.2), hc.2⟩
      · rw [← hc.1.1]
      · rw [← hc.1.2]
    · cases hs
  · cases hs

theorem capNone_group {a : ASt} {p : APos} {m : Match} (h : MatchAt texts p a m) {g : Nat} (hs : capNone a g = true) : m.group g = none :=
  h.noGroup g (by simpa [capNone] using hs)

theorem orElse_ne {x : Str} (h : x ≠ []) (b : Option Str) : orElse (some x) b = some x := by
  cases x with
  | nil => exact absurd rfl h
  | cons c x => rfl

/-- The numeration of a text of a shape. -/
theorem symNum_sound [UnicodeDB] (hs : Shaped sh texts) {n : NumAt} (h : symNum sh = some n) (hne : ∀ s ∈ [n.volNum, n.page], texts.span s ≠ []) :
    findNumeration texts.text = .ok (some ⟨some (texts.span n.year), extractSeries (texts.span n.vol), some (texts.span n.volNum), some (texts.span n.page),
      n.last.map texts.span, (texts.parts.take n.stop).flatten.length⟩) := by
  unfold symNum at h
  split at h
  · rename_i a hf
    obtain ⟨m, hm, hma⟩ := symFirst_ok hs hf
    split at h
    · cases h
    rename_i hc
    simp only [Bool.or_eq_true, not_or, Bool.not_eq_true, Bool.not_eq_false', Bool.not_eq_eq_eq_not, Bool.not_true] at hc
    split at h
    · rename_i v vn y p h1 h2 h3 h4
      have hser := capNone_group hma (by simpa using hc.2)
      have hstop : m.stop = (texts.parts.take a.pos.i).flatten.length := by
        obtain ⟨⟨i, mid⟩, caps⟩ := a
        have hmid : mid = false := by simpa using hc.1
        subst hmid
        have e1 := hma.startAt
        have e2 := hma.text (Nat.zero_le _)
        rw [Match.stop, e1, e2, take_between (Nat.zero_le i)]
        simp
      have key : ∀ last : Option (Nat × Nat), m.group G.page_end = last.map texts.span → n = ⟨v, vn, y, p, last, a.pos.i⟩ →
          findNumeration texts.text = .ok (some ⟨some (texts.span n.year), extractSeries (texts.span n.vol), some (texts.span n.volNum), some (texts.span n.page),
            n.last.map texts.span, (texts.parts.take n.stop).flatten.length⟩) := by
        intro last hl hn
        subst hn
        unfold findNumeration
        rw [hm]
        dsimp only
        unfold numerationOf
        rw [hser, (capSpan_group hma h1).1]
        simp only [bind, Except.bind, pure, Except.pure, volumeGroup, (capSpan_group hma h2).1, (capSpan_group hma h3).1, (capSpan_group hma h4).1, hl, hstop]
        rw [orElse_ne (hne vn (by simp)), orElse_ne (hne vn (by simp)), orElse_ne (hne p (by simp))]
      split at h
      · rename_i q h5
        cases h
        exact key (some q) (capSpan_group hma h5).1 rfl
      · split at h
        · rename_i h5
          cases h
          exact key none (capNone_group hma h5) rfl
        · cases h
    · cases h
  · cases h

/-! ### The shapes of written numerations -/

/-- A piece of a written numeration: characters, volume, year, page, last page, series letter. -/
inductive Pc where
  | lit (s : Str)
  | v | y | p | q | x
deriving DecidableEq, Repr

/-- What is written. -/
structure Env where
  x : Char
  v : Str
  c : Str
  a : Char
  b : Char
  p : Str
  q : Str

/-- The texts of a piece. -/
def Pc.parts (e : Env) : Pc → List Str
  | .lit s => s.map fun c => [c]
  | .v => [e.v]
  | .y => (e.c.map fun c => [c]) ++ [[e.a], [e.b]]
  | .p => [e.p]
  | .q => [e.q]
  | .x => [[e.x]]

/-- Characters one by one. -/
def litSegs (s : Str) : List Seg := s.map fun c => ⟨false, [c]⟩

/-- The stretches of a piece, given the century. -/
def Pc.segs (c : Str) : Pc → List Seg
  | .lit s => litSegs s
  | .v | .p | .q => [⟨true, py! "0123456789"⟩]
  | .y => litSegs c ++ [⟨false, py! "0123456789"⟩, ⟨false, py! "0123456789"⟩]
  | .x => [⟨false, py! "ABCDEFGH"⟩]

/-- What may be written. -/
structure Env.Ok (e : Env) : Prop where
  x : e.x ∈ py! "ABCDEFGH"
  v : AsciiDigits e.v
  y : AsciiDigits [e.a, e.b]
  p : AsciiDigits e.p
  q : AsciiDigits e.q

theorem all2_append {α β : Type} {R : α → β → Prop} {as as' : List α} {bs bs' : List β} (h : All2 R as bs) (h' : All2 R as' bs') :
    All2 R (as ++ as') (bs ++ bs') := by
  induction h with
  | nil => exact h'
  | cons hx _ ih => exact .cons hx ih

theorem fits_one {c : Char} {cls : List Char} (h : c ∈ cls) : Seg.Fits ⟨false, cls⟩ [c] :=
  ⟨by simp, fun _ => rfl, fun d hd => by rw [List.mem_singleton.1 hd]; exact h⟩

theorem fits_run {v : Str} {cls : List Char} (h : v ≠ []) (hc : ∀ c ∈ v, c ∈ cls) : Seg.Fits ⟨true, cls⟩ v := ⟨h, fun h => Bool.noConfusion h, hc⟩

theorem fits_lit (s : Str) : All2 Seg.Fits (litSegs s) (s.map fun c => [c]) := by
  induction s with
  | nil => exact .nil
  | cons c s ih => exact .cons (fits_one (by simp)) ih

theorem Pc.fits {e : Env} (he : e.Ok) (k : Pc) : All2 Seg.Fits (k.segs e.c) (k.parts e) := by
  cases k with
  | lit s => exact fits_lit s
  | v => exact .cons (fits_run he.v.1 he.v.2) .nil
  | p => exact .cons (fits_run he.p.1 he.p.2) .nil
  | q => exact .cons (fits_run he.q.1 he.q.2) .nil
  | x => exact .cons (fits_one he.x) .nil
  | y => exact all2_append (fits_lit e.c) (.cons (fits_one (he.y.2 _ (by simp))) (.cons (fits_one (he.y.2 _ (by simp))) .nil))

theorem form_fits {e : Env} (he : e.Ok) : ∀ f : List Pc, All2 Seg.Fits (f.flatMap (Pc.segs e.c)) (f.flatMap (Pc.parts e))
  | [] => .nil
  | k :: f => all2_append (k.fits he) (form_fits he f)

/-- The text of a form. -/
def formText (e : Env) (f : List Pc) : Str := (f.flatMap (Pc.parts e)).flatten

/-- The forms of `Written`, each with the pieces of the volume. -/
def forms : List (List Pc) :=
  [[.v, .lit (py! " ("), .y, .lit (py! ") "), .p],
   [.v, .lit (py! "("), .y, .lit (py! ")"), .p],
   [.v, .lit (py! " ("), .y, .lit (py! ") "), .p, .lit (py! "-"), .q],
   [.v, .lit (py! ", "), .p, .lit (py! " ("), .y, .lit (py! ")")],
   [.v, .lit (py! " "), .p, .lit (py! " ("), .y, .lit (py! ")")],
   [.v, .lit (py! ":"), .p, .lit (py! " ("), .y, .lit (py! ")")],
   [.v, .lit (py! ", "), .p, .lit (py! "-"), .q, .lit (py! " ("), .y, .lit (py! ")")],
   [.x, .v, .lit (py! " ("), .y, .lit (py! ") "), .p],
   [.x, .lit (py! " "), .v, .lit (py! " ("), .y, .lit (py! ") "), .p],
   [.x, .v, .lit (py! ", "), .p, .lit (py! " ("), .y, .lit (py! ")")]]

/-- What a form tells. -/
def formTold (e : Env) (f : List Pc) : Told :=
  ⟨if Pc.x ∈ f then some [e.x] else none, e.v, e.c ++ [e.a, e.b], e.p, if Pc.q ∈ f then some e.q else none⟩

theorem flatten_single (s : Str) : (s.map fun c => [c]).flatten = s := by
  induction s with
  | nil => rfl
  | cons c s ih => simp [ih]

theorem written_form {w : Str} {t : Told} (h : Written w t) :
    ∃ e : Env, e.Ok ∧ (e.c = py! "19" ∨ e.c = py! "20") ∧ ∃ f ∈ forms, w = formText e f ∧ t = formTold e f := by
  have hA : 'A' ∈ py! "ABCDEFGH" := by decide
  have h0 : AsciiDigits (py! "0") := by decide
  cases h with
  | volYearPage v y p hv hy hp =>
    obtain ⟨c, a, b, rfl, hc, hab⟩ := hy
    exact ⟨⟨'A', v, c, a, b, p, py! "0"⟩, ⟨hA, hv, hab, hp, h0⟩, hc, forms[0], by simp [forms], by simp [formText, forms, Pc.parts, flatten_single], by simp [formTold, forms]⟩
  | volYearPageTight v y p hv hy hp =>
    obtain ⟨c, a, b, rfl, hc, hab⟩ := hy
    exact ⟨⟨'A', v, c, a, b, p, py! "0"⟩, ⟨hA, hv, hab, hp, h0⟩, hc, forms[1], by simp [forms], by simp [formText, forms, Pc.parts, flatten_single], by simp [formTold, forms]⟩
  | volYearPages v y p q hv hy hp hq =>
    obtain ⟨c, a, b, rfl, hc, hab⟩ := hy
    exact ⟨⟨'A', v, c, a, b, p, q⟩, ⟨hA, hv, hab, hp, hq⟩, hc, forms[2], by simp [forms], by simp [formText, forms, Pc.parts, flatten_single], by simp [formTold, forms]⟩
  | volPageYear v y p hv hy hp =>
    obtain ⟨c, a, b, rfl, hc, hab⟩ := hy
    exact ⟨⟨'A', v, c, a, b, p, py! "0"⟩, ⟨hA, hv, hab, hp, h0⟩, hc, forms[3], by simp [forms], by simp [formText, forms, Pc.parts, flatten_single], by simp [formTold, forms]⟩
  | volPageYearBlank v y p hv hy hp =>
    obtain ⟨c, a, b, rfl, hc, hab⟩ := hy
    exact ⟨⟨'A', v, c, a, b, p, py! "0"⟩, ⟨hA, hv, hab, hp, h0⟩, hc, forms[4], by simp [forms], by simp [formText, forms, Pc.parts, flatten_single], by simp [formTold, forms]⟩
  | volPageYearColon v y p hv hy hp =>
    obtain ⟨c, a, b, rfl, hc, hab⟩ := hy
    exact ⟨⟨'A', v, c, a, b, p, py! "0"⟩, ⟨hA, hv, hab, hp, h0⟩, hc, forms[5], by simp [forms], by simp [formText, forms, Pc.parts, flatten_single], by simp [formTold, forms]⟩
  | volPagesYear v y p q hv hy hp hq =>
    obtain ⟨c, a, b, rfl, hc, hab⟩ := hy
    exact ⟨⟨'A', v, c, a, b, p, q⟩, ⟨hA, hv, hab, hp, hq⟩, hc, forms[6], by simp [forms], by simp [formText, forms, Pc.parts, flatten_single], by simp [formTold, forms]⟩
  | seriesYearPage x v y p hx hv hy hp =>
    obtain ⟨c, a, b, rfl, hc, hab⟩ := hy
    exact ⟨⟨x, v, c, a, b, p, py! "0"⟩, ⟨hx, hv, hab, hp, h0⟩, hc, forms[7], by simp [forms], by simp [formText, forms, Pc.parts, flatten_single], by simp [formTold, forms]⟩
  | seriesBlankYearPage x v y p hx hv hy hp =>
    obtain ⟨c, a, b, rfl, hc, hab⟩ := hy
    exact ⟨⟨x, v, c, a, b, p, py! "0"⟩, ⟨hx, hv, hab, hp, h0⟩, hc, forms[8], by simp [forms], by simp [formText, forms, Pc.parts, flatten_single], by simp [formTold, forms]⟩
  | seriesPageYear x v y p hx hv hy hp =>
    obtain ⟨c, a, b, rfl, hc, hab⟩ := hy
    exact ⟨⟨x, v, c, a, b, p, py! "0"⟩, ⟨hx, hv, hab, hp, h0⟩, hc, forms[9], by simp [forms], by simp [formText, forms, Pc.parts, flatten_single], by simp [formTold, forms]⟩

/-- How many stretches stand in front of a piece. -/
def before (f : List Pc) (k : Pc) : Nat := ((f.takeWhile (· ≠ k)).flatMap (Pc.segs (py! "19"))).length

/-- Where the parts of the numeration of a form are, behind some characters. -/
def formAt (lead : Str) (f : List Pc) : NumAt :=
  let f' := .lit lead :: f
  let v := before f' .v
  let y := before f' .y
  let p := before f' .p
  let q := before f' .q
  ⟨(if Pc.x ∈ f then before f' .x else v, v + 1), (v, v + 1), (y, y + 4), (p, p + 1), if Pc.q ∈ f then some (q, q + 1) else none,
    (f'.flatMap (Pc.segs (py! "19"))).length⟩

/-- The stretch of punctuation that may follow. -/
def stopSeg : Seg := ⟨false, py! ".,;)]"⟩

/-- What may stand in front of a numeration. -/
def leads : List Str := [[], py! " ", py! ", "]

/-- The shape of a form, alone or with more text behind it. -/
def formShape (c lead : Str) (f : List Pc) (more : Bool) : Shp :=
  ⟨(.lit lead :: f).flatMap (Pc.segs c) ++ if more then [stopSeg] else [], more⟩

theorem forms_found : ∀ f ∈ forms, ∀ c ∈ [py! "19", py! "20"], ∀ lead ∈ leads, ∀ more ∈ [true, false],
    symNum (formShape c lead f more) = some (formAt lead f) := by decide +kernel

theorem parts_length {e : Env} (hc : e.c.length = 2) (k : Pc) : (k.parts e).length = (k.segs (py! "19")).length := by
  cases k <;> simp [Pc.parts, Pc.segs, litSegs, hc]

theorem form_length {e : Env} (hc : e.c.length = 2) : ∀ f : List Pc, (f.flatMap (Pc.parts e)).length = (f.flatMap (Pc.segs (py! "19"))).length
  | [] => rfl
  | k :: f => by simp only [List.flatMap_cons, List.length_append, parts_length hc, form_length hc f]

/-- The text of some pieces of a form. -/
theorem span_mid {e : Env} (f1 mid f2 : List Pc) (extra : List Str) (tail : Str) :
    between ⟨(f1 ++ (mid ++ f2)).flatMap (Pc.parts e) ++ extra, tail⟩ (f1.flatMap (Pc.parts e)).length
      ((f1.flatMap (Pc.parts e)).length + (mid.flatMap (Pc.parts e)).length) = formText e mid := by
  unfold between formText
  dsimp only
  rw [List.flatMap_append, List.flatMap_append, List.append_assoc, List.append_assoc, List.take_length_add_append, List.take_left', List.drop_left']
  · rfl
  · rfl

theorem split_at (f : List Pc) {k : Pc} (h : k ∈ f) : ∃ f2, f = f.takeWhile (· ≠ k) ++ ([k] ++ f2) := by
  induction f with
  | nil => cases h
  | cons j f ih =>
    by_cases hj : j = k
    · subst hj
      exact ⟨f, by simp⟩
    · obtain ⟨f2, e⟩ := ih ((List.mem_cons.1 h).resolve_left fun h => hj h.symm)
      refine ⟨f2, ?_⟩
      rw [List.takeWhile_cons_of_pos (by simpa using hj), List.cons_append, ← e]

theorem span_piece {e : Env} (hc : e.c.length = 2) (f : List Pc) {k : Pc} (h : k ∈ f) (extra : List Str) (tail : Str) {n : Nat} (hn : (k.segs (py! "19")).length = n) :
    between ⟨f.flatMap (Pc.parts e) ++ extra, tail⟩ (before f k) (before f k + n) = (k.parts e).flatten := by
  obtain ⟨f2, e1⟩ := split_at f h
  have := span_mid (e := e) (f.takeWhile (· ≠ k)) [k] f2 extra tail
  rw [← e1] at this
  simp only [form_length hc] at this
  rw [before, ← hn]
  simp only [List.flatMap_cons, List.flatMap_nil, List.append_nil] at this
  rw [this]
  simp [formText]

/-! ### Series letters -/

theorem search_digits [UnicodeDB] {v : Str} (hv : AsciiDigits v) : extractSeries v = none := by
  have hs : Shaped ⟨[⟨true, py! "0123456789"⟩], false⟩ ⟨[v], []⟩ := ⟨.cons (fits_run hv.1 hv.2) .nil, fun _ => rfl⟩
  have h1 := noHit_search hs (r := Rx.re_series_from_numeration) (by decide +kernel)
  have h2 := noHit_search hs (r := Rx.re_series_from_numeration_after_volume) (by decide +kernel)
  simp only [Parts.text, List.flatten_cons, List.flatten_nil, List.append_nil] at h1 h2
  rw [extractSeries, h1]
  dsimp only
  rw [h2]

theorem upper_series [UnicodeDB] {x : Char} (hx : x ∈ py! "ABCDEFGH") : upper [x] = [x] := by
  simp only [List.mem_cons, List.not_mem_nil, or_false] at hx
  rcases hx with rfl | rfl | rfl | rfl | rfl | rfl | rfl | rfl <;> rfl

theorem series_front [UnicodeDB] {x : Char} {v : Str} (hx : x ∈ py! "ABCDEFGH") (hv : AsciiDigits v) :
    extractSeries (x :: v) = some [x] ∧ extractSeries (x :: ' ' :: v) = some [x] := by
  have h1 : Shaped ⟨[⟨false, py! "ABCDEFGH"⟩, ⟨true, py! "0123456789"⟩], false⟩ ⟨[[x], v], []⟩ :=
    ⟨.cons (fits_one hx) (.cons (fits_run hv.1 hv.2) .nil), fun _ => rfl⟩
  have h2 : Shaped ⟨[⟨false, py! "ABCDEFGH"⟩, ⟨false, py! " "⟩, ⟨true, py! "0123456789"⟩], false⟩ ⟨[[x], py! " ", v], []⟩ :=
    ⟨.cons (fits_one hx) (.cons (fits_one (by decide)) (.cons (fits_run hv.1 hv.2) .nil)), fun _ => rfl⟩
  constructor
  · obtain ⟨m, e1, e2⟩ := search_shape h1 (r := Rx.re_series_from_numeration) (n := 4) (i := 0) (a := ⟨⟨2, false⟩, [⟨1, ⟨0, false⟩, ⟨1, false⟩⟩]⟩) (by decide +kernel)
    have e3 := e2.group 1 (b := ⟨1, ⟨0, false⟩, ⟨1, false⟩⟩) (i := 0) (j := 1) (by decide) rfl rfl (by decide)
    simp only [Parts.text, List.flatten_cons, List.flatten_nil, List.append_nil, List.cons_append, List.nil_append] at e1
    rw [extractSeries, e1]
    dsimp only
    rw [e3]
    simp [between, upper_series hx]
  · obtain ⟨m, e1, e2⟩ := search_shape h2 (r := Rx.re_series_from_numeration) (n := 4) (i := 0) (a := ⟨⟨3, false⟩, [⟨1, ⟨0, false⟩, ⟨1, false⟩⟩]⟩) (by decide +kernel)
    have e3 := e2.group 1 (b := ⟨1, ⟨0, false⟩, ⟨1, false⟩⟩) (i := 0) (j := 1) (by decide) rfl rfl (by decide)
    simp only [Parts.text, List.flatten_cons, List.flatten_nil, List.append_nil, List.cons_append, List.nil_append] at e1
    rw [extractSeries, e1]
    dsimp only
    rw [e3]
    simp [between, upper_series hx]

/-! ### The values -/

theorem form_has {f : List Pc} (hf : f ∈ forms) : Pc.v ∈ f ∧ Pc.y ∈ f ∧ Pc.p ∈ f ∧ (Pc.x ∈ f → (∃ f2, f = [.x, .v] ++ f2) ∨ ∃ f2, f = [.x, .lit (py! " "), .v] ++ f2) := by
  have h : ∀ f ∈ forms, Pc.v ∈ f ∧ Pc.y ∈ f ∧ Pc.p ∈ f ∧ (Pc.x ∈ f → f = [.x, .v] ++ f.drop 2 ∨ f = [.x, .lit (py! " "), .v] ++ f.drop 3) := by decide
  obtain ⟨h1, h2, h3, h4⟩ := h f hf
  exact ⟨h1, h2, h3, fun hx => (h4 hx).imp (fun h => ⟨_, h⟩) fun h => ⟨_, h⟩⟩

/-- The texts of a form with characters in front, and what follows. -/
def formParts (lead : Str) (e : Env) (f : List Pc) : Str → Parts
  | [] => ⟨(Pc.lit lead :: f).flatMap (Pc.parts e) ++ [], []⟩
  | c :: rest => ⟨(Pc.lit lead :: f).flatMap (Pc.parts e) ++ [[c]], rest⟩

theorem formParts_text (lead : Str) (e : Env) (f : List Pc) (rest : Str) : (formParts lead e f rest).text = lead ++ formText e f ++ rest := by
  cases rest <;> simp [formParts, Parts.text, formText, Pc.parts, flatten_single]

theorem formParts_shaped {lead : Str} {e : Env} (he : e.Ok) {f : List Pc} {rest : Str} (hr : Stops rest) :
    Shaped (formShape e.c lead f (!rest.isEmpty)) (formParts lead e f rest) := by
  have h := form_fits he (.lit lead :: f)
  cases rest with
  | nil => exact ⟨all2_append h .nil, fun _ => rfl⟩
  | cons c rest => exact ⟨all2_append h (.cons (fits_one (hr c rfl)) .nil), fun h => Bool.noConfusion h⟩

theorem form_values [UnicodeDB] {lead : Str} (hl : lead ∈ leads) {e : Env} (he : e.Ok) (hc : e.c = py! "19" ∨ e.c = py! "20") {f : List Pc} (hf : f ∈ forms)
    {rest : Str} (hr : Stops rest) :
    findNumeration (lead ++ formText e f ++ rest) = .ok (some ⟨some (formTold e f).year, (formTold e f).series, some (formTold e f).volume,
      some (formTold e f).page, (formTold e f).last, lead.length + (formText e f).length⟩) := by
  have hc2 : e.c.length = 2 := by rcases hc with h | h <;> rw [h] <;> rfl
  have hfound := forms_found f hf e.c (by simpa using hc) lead hl (!rest.isEmpty) (by cases rest.isEmpty <;> simp)
  obtain ⟨hv, hy, hp, hx⟩ := form_has hf
  have hpiece : ∀ {k : Pc}, k ∈ f → ∀ {n : Nat}, (k.segs (py! "19")).length = n →
      (formParts lead e f rest).span (before (.lit lead :: f) k, before (.lit lead :: f) k + n) = (k.parts e).flatten := by
    intro k hk n hn
    cases rest with
    | nil => exact span_piece hc2 (.lit lead :: f) (List.mem_cons_of_mem _ hk) _ _ hn
    | cons c rest => exact span_piece hc2 (.lit lead :: f) (List.mem_cons_of_mem _ hk) _ _ hn
  have ev : (formParts lead e f rest).span (before (.lit lead :: f) .v, before (.lit lead :: f) .v + 1) = e.v := by
    simpa [Pc.parts] using hpiece hv (n := 1) rfl
  have ep : (formParts lead e f rest).span (before (.lit lead :: f) .p, before (.lit lead :: f) .p + 1) = e.p := by
    simpa [Pc.parts] using hpiece hp (n := 1) rfl
  have ey : (formParts lead e f rest).span (before (.lit lead :: f) .y, before (.lit lead :: f) .y + 4) = e.c ++ [e.a, e.b] := by
    simpa [Pc.parts, flatten_single] using hpiece hy (n := 4) rfl
  have key := symNum_sound (formParts_shaped he hr) hfound (by
    intro s hs
    simp only [formAt, List.mem_cons, List.not_mem_nil, or_false] at hs
    rcases hs with rfl | rfl
    · rw [ev]; exact he.v.1
    · rw [ep]; exact he.p.1)
  rw [formParts_text] at key
  rw [key]
  have estop : ((formParts lead e f rest).parts.take (formAt lead f).stop).flatten.length = lead.length + (formText e f).length := by
    have e1 : (formAt lead f).stop = ((Pc.lit lead :: f).flatMap (Pc.parts e)).length := (form_length hc2 _).symm
    rw [e1]
    cases rest <;>
    · simp only [formParts]
      rw [List.take_left']
      · simp [formText, Pc.parts, flatten_single]
      · rfl
  have eq : (formAt lead f).last.map (formParts lead e f rest).span = (formTold e f).last := by
    simp only [formAt, formTold]
    by_cases hq : Pc.q ∈ f
    · rw [if_pos hq, if_pos hq, Option.map_some]
      simpa [Pc.parts] using hpiece hq (n := 1) rfl
    · rw [if_neg hq, if_neg hq]
      rfl
  have es : extractSeries ((formParts lead e f rest).span (formAt lead f).vol) = (formTold e f).series := by
    simp only [formAt, formTold]
    by_cases hxf : Pc.x ∈ f
    · rw [if_pos hxf, if_pos hxf]
      have hmid : ∀ mid f2 : List Pc, f = mid ++ f2 → before (.lit lead :: f) .x = (litSegs lead).length →
          before (.lit lead :: f) .v + 1 = (litSegs lead).length + (mid.flatMap (Pc.parts e)).length →
          (formParts lead e f rest).span (before (.lit lead :: f) .x, before (.lit lead :: f) .v + 1) = formText e mid := by
        intro mid f2 e1 e2 e3
        rw [e2, e3]
        have e4 : (litSegs lead).length = ([Pc.lit lead].flatMap (Pc.parts e)).length := by simp [litSegs, Pc.parts]
        rw [e4]
        cases rest with
        | nil =>
          have := span_mid (e := e) [Pc.lit lead] mid f2 [] []
          rw [← e1] at this
          exact this
        | cons c rest =>
          have := span_mid (e := e) [Pc.lit lead] mid f2 [[c]] rest
          rw [← e1] at this
          exact this
      rcases hx hxf with ⟨f2, e1⟩ | ⟨f2, e1⟩
      · rw [hmid _ _ e1 (by rw [e1]; simp [before, Pc.segs]) (by rw [e1]; simp [before, Pc.segs, Pc.parts])]
        simpa [formText, Pc.parts] using (series_front he.x he.v).1
      · rw [hmid _ _ e1 (by rw [e1]; simp [before, Pc.segs]) (by rw [e1]; simp [before, Pc.segs, Pc.parts, litSegs])]
        simpa [formText, Pc.parts] using (series_front he.x he.v).2
    · rw [if_neg hxf, if_neg hxf, ev]
      exact search_digits he.v
  rw [es, eq, estop]
  simp only [formAt, ev, ep, ey]
  rfl

end Py
