import Verif.Lemmas.Post

/-!
# Helper lemmas: uniqueness of the year, and numbers next to a deleted year
-/

namespace Py
open Spec

theorem isYear_length [UnicodeDB] {y : Str} (h : IsYear y) : y.length = 4 := by
  obtain ⟨c, a, b, rfl, hc | hc, -⟩ := h <;> subst hc <;> rfl

theorem firstYear_unique [UnicodeDB] {s y y' : Str} (h : FirstYear s y) (h' : FirstYear s y') : y = y' := by
  obtain ⟨a, b, h1, h2, h3⟩ := h
  obtain ⟨a', b', h1', h2', h3'⟩ := h'
  have hl : a.length = a'.length := Nat.le_antisymm (h3 _ _ _ h1' h2') (h3' _ _ _ h1 h2)
  rw [h1, List.append_assoc, List.append_assoc] at h1'
  have h4 := List.append_inj h1' hl
  exact (List.append_inj h4.2 (by rw [isYear_length h2.1, isYear_length h2'.1])).1

theorem lastTextYear_unique [UnicodeDB] {es : List El} {y y' : Str} (h : LastTextYear es y) (h' : LastTextYear es y') :
    y = y' := by
  obtain ⟨a, e, b, h1, h2, h3⟩ := h
  obtain ⟨a', e', b', h1', h2', h3'⟩ := h'
  have key : e = e' := by
    rcases Nat.lt_trichotomy a.length a'.length with hl | hl | hl
    · exfalso
      have : e' ∈ b := by
        have hp : a ++ [e] <+: a' := by
          have p1 : a ++ [e] <+: es := ⟨b, by rw [h1]; simp⟩
          have p2 : a' <+: es := ⟨e' :: b', by rw [h1']⟩
          exact List.prefix_of_prefix_length_le p1 p2 (by simp; omega)
        obtain ⟨q, rfl⟩ := hp
        rw [h1] at h1'
        have : e :: b = [e] ++ q ++ e' :: b' := List.append_cancel_left (as := a) (by simpa using h1')
        simp at this
        rw [this]; simp
      exact FirstYear.not_none h2' (h3 e' this)
    · rw [h1] at h1'
      have := List.append_inj h1' hl
      simp at this
      exact this.2.1
    · exfalso
      have : e ∈ b' := by
        have hp : a' ++ [e'] <+: a := by
          have p1 : a' ++ [e'] <+: es := ⟨b', by rw [h1']; simp⟩
          have p2 : a <+: es := ⟨e :: b, by rw [h1]⟩
          exact List.prefix_of_prefix_length_le p1 p2 (by simp; omega)
        obtain ⟨q, rfl⟩ := hp
        rw [h1'] at h1
        have : e' :: b' = [e'] ++ q ++ e :: b := List.append_cancel_left (as := a') (by simpa using h1)
        simp at this
        rw [this]; simp
      exact FirstYear.not_none h2 (h3' e this)
  subst key
  exact firstYear_unique h2 h2'

/-- A citation has at most one year. -/
theorem yearOf_unique [UnicodeDB] {es : List El} {y y' : Str} (h : YearOf es y) (h' : YearOf es y') : y = y' := by
  rcases h with ⟨e, h1, h2, h3⟩ | ⟨h1, h2⟩ <;> rcases h' with ⟨e', h1', h2', h3'⟩ | ⟨h1', h2'⟩
  · have := firstDated_unique h1 h1'
    subst this
    rw [h2] at h2'; simpa using h2'
  · rcases h1' e h1 with h | h <;> rw [h2] at h <;> simp at h
    exact absurd h h3
  · rcases h1 e' h1' with h | h <;> rw [h2'] at h <;> simp at h
    exact absurd h h3'
  · exact lastTextYear_unique h2 h2'

/-! ### Numbers next to a deleted year -/

theorem erase_none {D : Str → Str → Prop} {s t : Str} (h : Erase D s t)
    (hn : ∀ a d r, s = a ++ d ++ r → ¬ D d r) : t = s := by
  induction h with
  | nil => rfl
  | @keep c s t _ _ ih =>
    rw [ih fun a d r hs hd => hn (c :: a) d r (by simp [hs]) hd]
  | @drop d s t _ hd _ _ => exact absurd hd (hn [] d s (by simp))

theorem noDigitFirst_spaces [UnicodeDB] {v b : Str} (hv : Spaces v) (hb : NoDigitFirst b) : NoDigitFirst (v ++ b) := by
  cases v with
  | nil => exact hb
  | cons c v =>
    intro d hd
    simp at hd; subst hd
    have := hv c (by simp)
    cases hc : isDec c with
    | false => rfl
    | true => rw [isDec_not_space hc] at this; cases this

theorem maxDigits_unique [UnicodeDB] {d y b q : Str} (h : d ++ b = y ++ q) (hd : ∀ c ∈ d, isDec c = true)
    (hy : ∀ c ∈ y, isDec c = true) (hb : NoDigitFirst b) (hq : NoDigitFirst q) : d = y := by
  induction d generalizing y with
  | nil =>
    cases y with
    | nil => rfl
    | cons c y =>
      simp at h
      have := hb c (by rw [h]; rfl)
      rw [hy c (by simp)] at this; cases this
  | cons x d ih =>
    cases y with
    | nil =>
      simp at h
      have := hq x (by rw [← h]; rfl)
      rw [hd x (by simp)] at this; cases this
    | cons c y =>
      simp at h
      rw [ih h.2 (fun c hc => hd c (by simp [hc])) (fun c hc => hy c (by simp [hc])), h.1]

theorem noDigitLast_concat [UnicodeDB] {p : Str} {x : Char} (h : NoDigitLast (p ++ [x])) : isDec x = false :=
  h x (by simp)

/-- The rest of a number is kept when its start is. -/
theorem erase_inside [UnicodeDB] {y : Str} {d : Str} : ∀ {p s t b : Str}, Erase (Spaced y) s t →
    Clear y (p ++ s) → s = d ++ b → (∀ c ∈ d, isDec c = true) → NoDigitFirst b →
    (∀ x, p.getLast? = some x → isDec x = true) → p ≠ [] → ∃ b', t = d ++ b' ∧ NoDigitFirst b' := by
  induction d with
  | nil =>
    intro p s t b h hc hs _ hb hp hpne
    simp at hs
    subst hs
    refine ⟨t, rfl, ?_⟩
    cases h with
    | nil => exact hb
    | keep _ _ => intro c hcc; exact hb c (by simpa using hcc)
    | @drop dd s t _ hd _ =>
      obtain ⟨u, v, rfl, hu, hv, -⟩ := hd
      have := (hc p u v s (by simp) hu hv).1
      obtain ⟨x, hx⟩ : ∃ x, p.getLast? = some x := by
        cases hh : p.getLast? with
        | none => simp at hh; exact absurd hh hpne
        | some x => exact ⟨x, rfl⟩
      have h1 := this x hx
      rw [hp x hx] at h1; cases h1
  | cons x d ih =>
    intro p s t b h hc hs hd hb hp hpne
    cases h with
    | nil => simp at hs
    | @keep c s t hn he =>
      simp at hs
      obtain ⟨rfl, hs⟩ := hs
      obtain ⟨b', h1, h2⟩ := ih (p := p ++ [c]) he (by simpa using hc) hs (fun z hz => hd z (by simp [hz])) hb
        (by intro z hz; simp at hz; subst hz; exact hd c (by simp)) (by simp)
      exact ⟨b', by rw [h1]; rfl, h2⟩
    | @drop dd s t hne hdd he =>
      obtain ⟨u, v, rfl, hu, hv, -⟩ := hdd
      have := (hc p u v s (by simp) hu hv).1
      obtain ⟨x, hx⟩ : ∃ x, p.getLast? = some x := by
        cases hh : p.getLast? with
        | none => simp at hh; exact absurd hh hpne
        | some x => exact ⟨x, rfl⟩
      have h1 := this x hx
      rw [hp x hx] at h1; cases h1

/-- A number other than the year is kept whole. `k` tells whether the last character kept in
front is a digit. -/
theorem erase_number [UnicodeDB] {y : Str} (hy : Decimals y) {s t : Str} (h : Erase (Spaced y) s t) :
    ∀ (k : Bool) (p a d b : Str), Clear y (p ++ s) → s = a ++ d ++ b → Decimals d → d ≠ y → NoDigitLast (p ++ a) →
      NoDigitFirst b → (a = [] → k = false) →
      ∃ a' b', t = a' ++ d ++ b' ∧ NoDigitLast a' ∧ (a' = [] → k = false) ∧ NoDigitFirst b' := by
  induction h with
  | nil =>
    intro k p a d b _ hs hd _ _ _ _
    have := List.append_eq_nil_iff.1 hs.symm
    have := List.append_eq_nil_iff.1 this.1
    exact absurd this.2 hd.1
  | @keep c s t hn he ih =>
    intro k p a d b hc hs hd hdy hp hb hk
    cases a with
    | nil =>
      cases d with
      | nil => exact absurd rfl hd.1
      | cons x d =>
        simp at hs
        obtain ⟨rfl, hs⟩ := hs
        obtain ⟨b', h1, h2⟩ := erase_inside (p := p ++ [c]) he (by simpa using hc) hs
          (fun z hz => hd.2 z (by simp [hz])) hb (by intro z hz; simp at hz; subst hz; exact hd.2 c (by simp)) (by simp)
        exact ⟨[], b', by simp [h1], by simp [NoDigitLast], fun _ => hk rfl, h2⟩
    | cons x a =>
      simp at hs
      obtain ⟨rfl, hs⟩ := hs
      obtain ⟨a', b', h1, h2, h3, h4⟩ := ih (isDec c) (p ++ [c]) a d b (by simpa using hc) (by simpa using hs) hd hdy
        (by simpa using hp) hb (by
          rintro rfl
          exact noDigitLast_concat (p := p) (by simpa using hp))
      refine ⟨c :: a', b', by rw [h1]; rfl, ?_, by simp, h4⟩
      intro z hz
      cases a' with
      | nil =>
        simp at hz; subst hz; exact h3 rfl
      | cons w a' => exact h2 z (by simpa using hz)
  | @drop dd s t hne hdd he ih =>
    intro k p a d b hc hs hd hdy hp hb hk
    obtain ⟨u, v, rfl, hu, hv, hsp⟩ := hdd
    have hcl := hc p u v s (by simp) hu hv
    by_cases hlen : (u ++ y ++ v).length ≤ a.length
    · have hpre : u ++ y ++ v <+: a := by
        have p1 : u ++ y ++ v <+: u ++ y ++ v ++ s := ⟨s, rfl⟩
        have p2 : a <+: u ++ y ++ v ++ s := ⟨d ++ b, by rw [hs]; simp⟩
        exact List.prefix_of_prefix_length_le p1 p2 hlen
      obtain ⟨a2, rfl⟩ := hpre
      have hs2 : s = a2 ++ d ++ b := by
        have : u ++ y ++ v ++ s = u ++ y ++ v ++ (a2 ++ d ++ b) := by rw [hs]; simp
        exact List.append_cancel_left this
      obtain ⟨a', b', h1, h2, h3, h4⟩ := ih k (p ++ (u ++ y ++ v)) a2 d b (by simpa using hc) hs2 hd hdy
        (by simpa using hp) hb (by
          rintro rfl
          exfalso
          obtain ⟨hdne, hdd⟩ := hd
          cases d with
          | nil => exact hdne rfl
          | cons x d =>
            have := hcl.2 x (by rw [hs2]; rfl)
            rw [hdd x (by simp)] at this; cases this)
      exact ⟨a', b', h1, h2, h3, h4⟩
    · exfalso
      -- the number begins inside the deleted part, hence is the year
      have hlt : a.length < (u ++ y ++ v).length := by omega
      have hu' : u.length ≤ a.length := by
        refine Nat.le_of_not_lt fun h => ?_
        obtain ⟨hdne, hdd⟩ := hd
        cases d with
        | nil => exact hdne rfl
        | cons x d =>
          have hx : (u ++ y ++ v ++ s)[a.length]? = some x := by rw [hs]; simp
          rw [List.append_assoc, List.append_assoc, List.getElem?_append_left h] at hx
          have := hu x (List.mem_of_getElem? hx)
          rw [isDec_not_space (hdd x (by simp))] at this; cases this
      have hpre : u <+: a := by
        have p1 : u <+: u ++ y ++ v ++ s := ⟨y ++ v ++ s, by simp⟩
        have p2 : a <+: u ++ y ++ v ++ s := ⟨d ++ b, by rw [hs]; simp⟩
        exact List.prefix_of_prefix_length_le p1 p2 hu'
      obtain ⟨z, rfl⟩ := hpre
      have hs2 : y ++ (v ++ s) = z ++ (d ++ b) := by
        have : u ++ (y ++ (v ++ s)) = u ++ (z ++ (d ++ b)) := by simpa using hs
        exact List.append_cancel_left this
      by_cases hz : z = []
      · subst hz
        exact hdy (maxDigits_unique (by simpa using hs2.symm) hd.2 hy.2 hb (noDigitFirst_spaces hv hcl.2))
      · -- a digit of the year or a space comes right in front
        by_cases hzy : z.length < y.length + 1
        · have hzp : z <+: y := by
            have p1 : z <+: y ++ (v ++ s) := ⟨d ++ b, by rw [hs2]⟩
            have p2 : y <+: y ++ (v ++ s) := ⟨v ++ s, rfl⟩
            exact List.prefix_of_prefix_length_le p1 p2 (by omega)
          obtain ⟨x, hx⟩ : ∃ x, z.getLast? = some x := by
            cases hh : z.getLast? with
            | none => simp at hh; exact absurd hh hz
            | some x => exact ⟨x, rfl⟩
          have h1 := hp x (by rw [← List.append_assoc, List.getLast?_append, hx]; rfl)
          have h2 := hy.2 x (hzp.subset (List.mem_of_getLast? hx))
          rw [h2] at h1; cases h1
        · have hvp : y <+: z := by
            have p1 : z <+: y ++ (v ++ s) := ⟨d ++ b, by rw [hs2]⟩
            have p2 : y <+: y ++ (v ++ s) := ⟨v ++ s, rfl⟩
            exact List.prefix_of_prefix_length_le p2 p1 (by omega)
          obtain ⟨w, rfl⟩ := hvp
          have hs3 : v ++ s = w ++ (d ++ b) := by
            rw [List.append_assoc] at hs2; exact List.append_cancel_left hs2
          have hwv : w.length < v.length := by simp at hlt; omega
          obtain ⟨hdne, hdd⟩ := hd
          cases d with
          | nil => exact hdne rfl
          | cons x d =>
            have hx : (v ++ s)[w.length]? = some x := by rw [hs3]; simp
            rw [List.getElem?_append_left hwv] at hx
            have := hv x (List.mem_of_getElem? hx)
            rw [isDec_not_space (hdd x (by simp))] at this; cases this

end Py
