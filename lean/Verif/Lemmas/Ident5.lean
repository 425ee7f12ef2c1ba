import Verif.Lemmas.Ident4

/-!
# The descriptions of identifiers determine the result
-/

open Spec

namespace Py

theorem rewritten_unique {P : Str → Str → Str → Str → Prop} (hP : Determined P) {b s t : Str} (h : Rewritten P b s t) :
    ∀ {t'}, Rewritten P b s t' → t = t' := by
  induction h with
  | nil =>
    intro t' h'
    generalize hs : ([] : Str) = s at h'
    cases h' with
    | nil => rfl
    | ch => simp at hs
    | hit hne => simp at hs; exact absurd hs.1 hne
  | @ch b c s t hn _ ih =>
    intro t' h'
    generalize hs : c :: s = s' at h'
    cases h' with
    | nil => simp at hs
    | ch _ h' =>
      simp only [List.cons.injEq] at hs
      obtain ⟨rfl, rfl⟩ := hs
      rw [ih h']
    | hit hne hp h' => exact absurd ⟨_, _, _, hs, hp⟩ hn
  | @hit b w r x t hne hp _ ih =>
    intro t' h'
    generalize hs : w ++ r = s' at h'
    cases h' with
    | nil => simp at hs; exact absurd hs.1 hne
    | ch hn h' => exact absurd ⟨_, _, _, hs.symm, hp⟩ hn
    | hit hne' hp' h' =>
      obtain ⟨rfl, rfl⟩ := hP _ _ _ _ _ _ _ hs hp hp'
      rw [ih (List.append_cancel_left hs ▸ h')]

theorem rewrittenBy_unique : ∀ {Ps : List (Str → Str → Str → Str → Prop)}, (∀ P ∈ Ps, Determined P) → ∀ {s t t'}, RewrittenBy Ps s t →
    RewrittenBy Ps s t' → t = t'
  | [], _, _, _, _, .nil, .nil => rfl
  | P :: Ps, hP, _, _, _, .cons h1 h2, .cons h3 h4 => by
    have := rewritten_unique (hP P (by simp)) h1 h3
    subst this
    exact rewrittenBy_unique (fun Q hQ => hP Q (by simp [hQ])) h2 h4

/-- Where nothing is to be replaced the text stays. -/
theorem rewritten_none {P : Str → Str → Str → Str → Prop} {b s t : Str} (h : Rewritten P b s t)
    (hn : ∀ a w r x, s = a ++ w ++ r → ¬ P (b ++ a) w r x) : t = s := by
  induction h with
  | nil => rfl
  | @ch b c s t _ _ ih =>
    rw [ih fun a w r x e => ?_]
    have := hn (c :: a) w r x (by rw [e]; rfl)
    simpa using this
  | @hit b w r x t _ hp _ _ => exact absurd (by simpa using hp) (hn [] w r x rfl)

/-! ### Parts that are determined -/

theorem span_unique {p : Char → Prop} {a a' r r' : Str} (e : a ++ r = a' ++ r') (ha : ∀ c ∈ a, p c) (ha' : ∀ c ∈ a', p c)
    (hr : NotFirst p r) (hr' : NotFirst p r') : a = a' ∧ r = r' := by
  induction a generalizing a' with
  | nil =>
    cases a' with
    | nil => exact ⟨rfl, e⟩
    | cons c a' => exact absurd (ha' c (by simp)) (hr c (by rw [List.nil_append] at e; rw [e]; rfl))
  | cons c a ih =>
    cases a' with
    | nil => exact absurd (ha c (by simp)) (hr' c (by rw [List.nil_append] at e; rw [← e]; rfl))
    | cons d a' =>
      simp only [List.cons_append, List.cons.injEq] at e
      obtain ⟨rfl, e⟩ := e
      obtain ⟨rfl, rfl⟩ := ih e (fun c hc => ha c (by simp [hc])) (fun c hc => ha' c (by simp [hc]))
      exact ⟨rfl, rfl⟩

/-- The same for runs of a bounded length. -/
theorem bounded_unique {p : Char → Prop} {n : Nat} {a a' r r' : Str} (e : a ++ r = a' ++ r') (ha : ∀ c ∈ a, p c) (ha' : ∀ c ∈ a', p c)
    (hn : a.length ≤ n) (hn' : a'.length ≤ n) (hr : a.length = n ∨ NotFirst p r) (hr' : a'.length = n ∨ NotFirst p r') : a = a' := by
  rcases hr with hr | hr
  · rcases hr' with hr' | hr'
    · exact (List.append_inj e (by omega)).1
    · rcases Nat.lt_or_ge a'.length a.length with h | h
      · have e' : a = a' ++ a.drop a'.length := by
          have := congrArg (List.take a'.length) e
          rw [List.take_left, List.take_append_of_le_length (Nat.le_of_lt h)] at this
          have h' := List.take_append_drop a'.length a
          rw [this] at h'
          exact h'.symm
        have hd : a.drop a'.length ≠ [] := by simp; omega
        cases hx : a.drop a'.length with
        | nil => exact absurd hx hd
        | cons c x =>
          rw [hx] at e'
          rw [e', List.append_assoc] at e
          have := List.append_cancel_left e
          exact absurd (ha c (by rw [e']; simp)) (hr' c (by rw [← this]; rfl))
      · exact (List.append_inj e (by omega)).1
  · rcases hr' with hr' | hr'
    · rcases Nat.lt_or_ge a.length a'.length with h | h
      · have e' : a' = a ++ a'.drop a.length := by
          have := congrArg (List.take a.length) e
          rw [List.take_left, List.take_append_of_le_length (Nat.le_of_lt h)] at this
          rw [this, List.length_take, Nat.min_eq_left (Nat.le_of_lt h), List.take_append_drop]
        have hd : a'.drop a.length ≠ [] := by simp; omega
        cases hx : a'.drop a.length with
        | nil => exact absurd hx hd
        | cons c x =>
          rw [hx] at e'
          rw [e', List.append_assoc] at e
          have := List.append_cancel_left e
          exact absurd (ha' c (by rw [e']; simp)) (hr c (by rw [this]; rfl))
      · exact (List.append_inj e (by omega)).1
    · exact (span_unique e ha ha' hr hr').1

theorem optionally_unique {p : Str → Str → Prop} (hp : ∀ x r y r', x ++ r = y ++ r' → p x r → p y r' → x = y) {x r y r' : Str}
    (e : x ++ r = y ++ r') (hx : Optionally p x r) (hy : Optionally p y r') : x = y := by
  rcases hx with hx | ⟨rfl, hx⟩
  · rcases hy with hy | ⟨rfl, hy⟩
    · exact hp _ _ _ _ e hx hy
    · exact absurd ⟨x, r, e.symm, hx⟩ hy
  · rcases hy with hy | ⟨rfl, hy⟩
    · exact absurd ⟨y, r', e, hy⟩ hx
    · rfl

/-! ### Titles and book numbers -/

theorem quoted_determined : Determined QuotedTitle := by
  rintro b w r x w' r' x' e ⟨t, rfl, -, ht, rfl⟩ ⟨t', rfl, -, ht', rfl⟩
  simp only [List.cons_append, List.append_assoc, List.nil_append, List.cons.injEq, true_and] at e
  have hq : ∀ u, NotFirst (fun c => c ≠ '"') ('"' :: u) := by
    intro u c hc
    simp only [List.head?_cons, Option.some.injEq] at hc
    simp [← hc]
  obtain ⟨rfl, -⟩ := span_unique (p := fun c => c ≠ '"') e (fun c hc h => ht (h ▸ hc)) (fun c hc h => ht' (h ▸ hc)) (hq _) (hq _)
  exact ⟨rfl, rfl⟩

theorem isbn_code_first {code r : Str} (h : 10 ≤ code.length) (hc : ∀ c ∈ code, IsbnChar c) :
    NotFirst (fun c => c = ':' ∨ isSpace c = true) (code ++ r) := by
  cases code with
  | nil => simp at h
  | cons c code =>
    intro d hd
    simp only [List.cons_append, List.head?_cons, Option.some.injEq] at hd
    subst hd
    have := hc c (by simp)
    simp only [IsbnChar, List.mem_cons, List.not_mem_nil, or_false] at this
    rcases this with rfl | rfl | rfl | rfl | rfl | rfl | rfl | rfl | rfl | rfl | rfl | rfl | rfl | rfl <;> decide

theorem isbnLabel_le {s n u s' n' u' : Str} (e : s ++ (n ++ u) = s' ++ (n' ++ u')) (h : IsbnLabel s n u) (h' : IsbnLabel s' n' u')
    (hu' : IsbnHere u') : s'.length ≤ s.length := by
  rcases Nat.lt_or_ge s.length s'.length with hl | hl
  · exfalso
    have e' : s' = s ++ s'.drop s.length := by
      have := congrArg (List.take s.length) e
      rw [List.take_left, List.take_append_of_le_length (Nat.le_of_lt hl)] at this
      rw [this, List.length_take, Nat.min_eq_left (Nat.le_of_lt hl), List.take_append_drop]
    refine h.2.2.1 (s'.drop s.length) (n' ++ u') ?_ (by simp; omega) (fun c hc => h'.1 c (List.mem_of_mem_drop hc)) ⟨n', u', rfl, h'.2.1, hu'⟩
    rw [e', List.append_assoc] at e
    exact List.append_cancel_left e
  · exact hl

theorem isbn_determined : Determined IsbnText := by
  rintro b w r x w' r' x' e ⟨l, k, code, rfl, hl, hk, h1, h2, h3, h4, rfl⟩ ⟨l', k', code', rfl, hl', hk', h1', h2', h3', h4', rfl⟩
  have hh : IsbnHere (k ++ code ++ r) := ⟨k, code, r, rfl, hk, h1, h3⟩
  have hh' : IsbnHere (k' ++ code' ++ r') := ⟨k', code', r', rfl, hk', h1', h3'⟩
  have hlab : l = l' ∧ k ++ code ++ r = k' ++ code' ++ r' := by
    rcases hl with ⟨s, n, rfl, hs⟩ | rfl
    · rcases hl' with ⟨s', n', rfl, hs'⟩ | rfl
      · have e1 : s ++ (n ++ (k ++ code ++ r)) = s' ++ (n' ++ (k' ++ code' ++ r')) := by simpa using e
        have hs1 := isbnLabel_le e1 hs hs' hh'
        have hs2 := isbnLabel_le e1.symm hs' hs hh
        obtain ⟨rfl, e2⟩ := List.append_inj e1 (by omega)
        have hn : n = n' := by
          rcases hs.2.2.2 with rfl | hs3
          · rcases hs'.2.2.2 with rfl | hs3'
            · rfl
            · rw [← e2] at hs3'
              exact absurd hh hs3'
          · rcases hs'.2.2.2 with rfl | hs3'
            · rw [e2] at hs3
              exact absurd hh' hs3
            · rcases hs.2.1 with rfl | rfl | rfl
              · exact absurd hh hs3
              · rcases hs'.2.1 with rfl | rfl | rfl
                · exact absurd hh' hs3'
                · rfl
                · simp at e2
              · rcases hs'.2.1 with rfl | rfl | rfl
                · exact absurd hh' hs3'
                · simp at e2
                · rfl
        subst hn
        exact ⟨rfl, List.append_cancel_left e2⟩
      · simp at e
    · rcases hl' with ⟨s', n', rfl, hs'⟩ | rfl
      · simp at e
      · exact ⟨rfl, by simpa using e⟩
  obtain ⟨rfl, e1⟩ := hlab
  rw [List.append_assoc, List.append_assoc] at e1
  obtain ⟨rfl, e2⟩ := span_unique e1 hk hk' (isbn_code_first h1 h3) (isbn_code_first h1' h3')
  have := bounded_unique e2 h3 h3' h2 h2' h4 h4'
  subst this
  exact ⟨rfl, rfl⟩

/-! ### arXiv -/

variable [UnicodeDB]

theorem foldsTo_length {x w : Str} (h : FoldsTo x w) : x.length = w.length := by
  induction h with
  | nil => rfl
  | cons _ _ ih => simp [ih]

/-- Two digits. -/
def Two (y : Str) : Prop := y.length = 2 ∧ ∀ c ∈ y, isDec c = true

omit [UnicodeDB] in
theorem notFirst_append {p : Char → Prop} {a r : Str} (ha : a ≠ []) (h : ∀ c ∈ a, ¬ p c) : NotFirst p (a ++ r) := by
  cases a with
  | nil => exact absurd rfl ha
  | cons c a =>
    intro d hd
    simp only [List.cons_append, List.head?_cons, Option.some.injEq] at hd
    subst hd
    exact h c (by simp)

theorem dec_not_sep {c : Char} (h : isDec c = true) : ¬ (c = ':' ∨ c = '-' ∨ isSpace c = true) := by
  rintro (rfl | rfl | h')
  · exact absurd h Bool.false_ne_true
  · exact absurd h Bool.false_ne_true
  · rw [isDec_not_space h] at h'; exact absurd h' Bool.false_ne_true

theorem dec_not_sep2 {c : Char} (h : isDec c = true) : ¬ (c = '.' ∨ c = '-' ∨ isSpace c = true) := by
  rintro (rfl | rfl | h')
  · exact absurd h Bool.false_ne_true
  · exact absurd h Bool.false_ne_true
  · rw [isDec_not_space h] at h'; exact absurd h' Bool.false_ne_true

theorem asciiDigit_dec {c : Char} (h : c ∈ py! "0123456789") : isDec c = true := by
  simp only [List.mem_cons, List.not_mem_nil, or_false] at h
  rcases h with rfl | rfl | rfl | rfl | rfl | rfl | rfl | rfl | rfl | rfl <;> rfl

theorem month2_two {m : Str} (h : Month2 m) : Two m := by
  obtain ⟨a, b, rfl, h⟩ := h
  refine ⟨rfl, fun c hc => asciiDigit_dec ?_⟩
  simp only [List.mem_cons, List.not_mem_nil, or_false] at h hc ⊢
  rcases h with ⟨rfl, h⟩ | ⟨rfl, h⟩ <;> rcases hc with rfl | rfl <;> grind

theorem year13_two {m : Str} (h : Year13 m) : Two m := by
  obtain ⟨a, b, rfl, h⟩ := h
  refine ⟨rfl, fun c hc => asciiDigit_dec ?_⟩
  simp only [List.mem_cons, List.not_mem_nil, or_false] at h hc ⊢
  rcases h with ⟨h', h⟩ | ⟨h', h⟩ <;> rcases hc with rfl | rfl <;> grind

theorem year91_two {m : Str} (h : Year91 m) : Two m := by
  obtain ⟨a, b, rfl, h⟩ := h
  refine ⟨rfl, fun c hc => asciiDigit_dec ?_⟩
  simp only [List.mem_cons, List.not_mem_nil, or_false] at h hc ⊢
  rcases h with ⟨rfl, h⟩ | ⟨rfl, h⟩ <;> rcases hc with rfl | rfl <;> grind

theorem v_chars {c : Char} (h : FoldsTo [c] (py! "V") ∨ FoldsTo [c] (py! "v")) : c = 'V' ∨ c = 'v' := by
  rcases h with h | h
  · cases h with
    | cons h _ =>
      rcases caseVariants_ascii (by decide) (by decide) h with rfl | rfl
      · exact .inl rfl
      · exact .inr rfl
  · cases h with
    | cons h _ =>
      rcases caseVariants_ascii (by decide) (by decide) h with rfl | rfl
      · exact .inr rfl
      · exact .inl rfl

theorem version_unique {x r y r' : Str} (e : x ++ r = y ++ r') (hx : ArxivVersion x) (hy : ArxivVersion y) : x = y := by
  obtain ⟨g, c, d, rfl, hg, hc, -⟩ := hx
  obtain ⟨g', c', d', rfl, hg', hc', -⟩ := hy
  have hv : ∀ c, FoldsTo [c] (py! "V") → ∀ u, NotFirst (fun a => a = '-' ∨ isSpace a = true) (c :: u) := by
    intro c hc u a ha
    simp only [List.head?_cons, Option.some.injEq] at ha
    subst ha
    rcases v_chars (.inl hc) with rfl | rfl <;> decide
  simp only [List.append_assoc, List.cons_append, List.nil_append] at e
  obtain ⟨rfl, e1⟩ := span_unique e hg hg' (hv c hc _) (hv c' hc' _)
  simp only [List.cons.injEq] at e1
  rw [e1.1, e1.2.1]

theorem cat_char {c : Char} (h : c = '.' ∨ c = '-' ∨ ∃ d ∈ caseVariants c, isAsciiUpper d = true) : c ≠ ']' := by
  rintro rfl
  rcases h with h | h | ⟨d, hd, hu⟩
  · exact absurd h (by decide)
  · exact absurd h (by decide)
  · have : caseVariants ']' = [']', ']'] := rfl
    rw [this] at hd
    simp only [List.mem_cons, List.not_mem_nil, or_false, or_self] at hd
    subst hd
    exact absurd hu (by decide)

theorem bracket_unique {a a' r r' : Str} (e : a ++ ']' :: r = a' ++ ']' :: r')
    (h : ∀ c ∈ a, c = '.' ∨ c = '-' ∨ ∃ d ∈ caseVariants c, isAsciiUpper d = true)
    (h' : ∀ c ∈ a', c = '.' ∨ c = '-' ∨ ∃ d ∈ caseVariants c, isAsciiUpper d = true) : a = a' := by
  have hq : ∀ u, NotFirst (fun c => c ≠ ']') (']' :: u) := by
    intro u c hc
    simp only [List.head?_cons, Option.some.injEq] at hc
    simp [← hc]
  exact (span_unique (p := fun c => c ≠ ']') e (fun c hc => cat_char (h c hc)) (fun c hc => cat_char (h' c hc)) (hq _) (hq _)).1

theorem category_unique {x r y r' : Str} (e : x ++ r = y ++ r') (hx : ArxivCategory x) (hy : ArxivCategory y) : x = y := by
  obtain ⟨a, rfl, -, ha⟩ := hx
  obtain ⟨a', rfl, -, ha'⟩ := hy
  simp only [List.append_assoc, List.cons_append, List.nil_append, List.cons.injEq, true_and] at e
  rw [bracket_unique e ha ha']

theorem two_first {p : Char → Prop} {y r : Str} (h : Two y) (hp : ∀ c, isDec c = true → ¬ p c) : NotFirst p (y ++ r) :=
  notFirst_append (by intro e; have := h.1; rw [e] at this; exact absurd this (by decide)) fun c hc => hp c (h.2 c hc)

theorem hyphen_unique {h h' m m' r r' : Str} (e : h ++ (m ++ r) = h' ++ (m' ++ r')) (hh : h = [] ∨ h = ['-']) (hh' : h' = [] ∨ h' = ['-'])
    (hm : Two m) (hm' : Two m') : h = h' ∧ m ++ r = m' ++ r' := by
  refine span_unique (p := (· = '-')) e ?_ ?_ (two_first hm fun c hc h => dec_not_sep hc (.inr (.inl h)))
    (two_first hm' fun c hc h => dec_not_sep hc (.inr (.inl h)))
  · rcases hh with rfl | rfl <;> simp
  · rcases hh' with rfl | rfl <;> simp

theorem digits_first {p : Char → Prop} {n : Nat} {y r : Str} (hn : 0 < n) (h : DigitsOf n y) (hp : ∀ c, isDec c = true → ¬ p c) :
    NotFirst p (y ++ r) :=
  notFirst_append (by intro e; have := h.1; rw [e] at this; simp at this; omega) fun c hc => hp c (h.2 c hc)

theorem named_determined {year month : Str → Prop} {n : Nat} (hn : 0 < n) (hy : ∀ y, year y → Two y) (hm : ∀ y, month y → Two y) :
    Determined (ArxivNamed year month n) := by
  rintro b w r x w' r' x' e ⟨l, s, yy, h, mm, s2, num, ver, sp, cat, rfl, h1, h2, h3, h4, h5, h6, h7, h8, h9, h10, h11, h12, rfl⟩
    ⟨l', s', yy', h', mm', s2', num', ver', sp', cat', rfl, k1, k2, k3, k4, k5, k6, k7, k8, k9, k10, k11, k12, rfl⟩
  simp only [List.append_assoc] at e
  obtain ⟨rfl, e1⟩ := List.append_inj e (by rw [foldsTo_length h1, foldsTo_length k1])
  obtain ⟨rfl, e2⟩ := span_unique e1 h2 k2 (two_first (hy _ h3) fun _ => dec_not_sep) (two_first (hy _ k3) fun _ => dec_not_sep)
  obtain ⟨rfl, e3⟩ := List.append_inj e2 (by rw [(hy _ h3).1, (hy _ k3).1])
  obtain ⟨rfl, e4⟩ := hyphen_unique e3 h4 k4 (hm _ h5) (hm _ k5)
  obtain ⟨rfl, e5⟩ := List.append_inj e4 (by rw [(hm _ h5).1, (hm _ k5).1])
  obtain ⟨rfl, e6⟩ := span_unique e5 h6 k6 (digits_first hn h7 fun _ => dec_not_sep2) (digits_first hn k7 fun _ => dec_not_sep2)
  obtain ⟨rfl, e7⟩ := List.append_inj e6 (by rw [h7.1, k7.1])
  have hv := optionally_unique (fun _ _ _ _ e => version_unique e) (by simpa using e7) h9 k9
  subst hv
  have e8 := List.append_cancel_left e7
  obtain ⟨rfl, e9⟩ := span_unique e8 h10 k10 h11 k11
  have hc := optionally_unique (fun _ _ _ _ e => category_unique e) e9 h12 k12
  subst hc
  exact ⟨rfl, rfl⟩

theorem bare_determined {year : Str → Prop} {n : Nat} (hy : ∀ y, year y → y.length = 2) : Determined (ArxivBare year n) := by
  rintro b w r x w' r' x' e ⟨yy, mm, num, ver, sp, cat, rfl, -, -, h3, h5, h7, h9, -, h10, h11, h12, rfl⟩
    ⟨yy', mm', num', ver', sp', cat', rfl, -, -, k3, k5, k7, k9, -, k10, k11, k12, rfl⟩
  simp only [List.append_assoc] at e
  obtain ⟨rfl, e1⟩ := List.append_inj e (by rw [hy _ h3, hy _ k3])
  obtain ⟨rfl, e2⟩ := List.append_inj e1 (by rw [(month2_two h5).1, (month2_two k5).1])
  simp only [List.cons_append, List.nil_append, List.cons.injEq, true_and] at e2
  obtain ⟨rfl, e3⟩ := List.append_inj e2 (by rw [h7.1, k7.1])
  have hv := optionally_unique (fun _ _ _ _ e h h' => version_unique e h.1 h'.1) (by simpa using e3) h9 k9
  subst hv
  have e4 := List.append_cancel_left e3
  obtain ⟨rfl, e5⟩ := span_unique e4 h10 k10 h11 k11
  have hc := optionally_unique (fun _ _ _ _ e => category_unique e) e5 h12 k12
  subst hc
  exact ⟨rfl, rfl⟩

theorem catchup_determined : Determined ArxivCatchup := by
  rintro b w r x w' r' x' e ⟨l, s, yy, h, mm, s2, num, sp, a, rfl, h1, h2, h3, h4, h5, h6, h7, h10, ⟨a1, ea, -, h12⟩, rfl⟩
    ⟨l', s', yy', h', mm', s2', num', sp', a', rfl, k1, k2, k3, k4, k5, k6, k7, k10, ⟨a2, ea', -, k12⟩, rfl⟩
  have : a = a1 := by simpa using ea
  subst this
  have : a' = a2 := by simpa using ea'
  subst this
  simp only [List.append_assoc] at e
  obtain ⟨rfl, e1⟩ := List.append_inj e (by rw [foldsTo_length h1, foldsTo_length k1])
  obtain ⟨rfl, e2⟩ := span_unique e1 h2 k2 (two_first h3 fun _ => dec_not_sep) (two_first k3 fun _ => dec_not_sep)
  obtain ⟨rfl, e3⟩ := List.append_inj e2 (by rw [h3.1, k3.1])
  obtain ⟨rfl, e4⟩ := hyphen_unique e3 h4 k4 h5 k5
  obtain ⟨rfl, e5⟩ := List.append_inj e4 (by rw [h5.1, k5.1])
  obtain ⟨rfl, e6⟩ := span_unique e5 h6 k6 (digits_first (by decide) h7 fun _ => dec_not_sep2) (digits_first (by decide) k7 fun _ => dec_not_sep2)
  obtain ⟨rfl, e7⟩ := List.append_inj e6 (by rw [h7.1, k7.1])
  have hb : ∀ u, NotFirst (fun c => isSpace c = true) (['['] ++ u) := fun u => notFirst_append (by simp) (by decide)
  obtain ⟨rfl, e8⟩ := span_unique e7 h10 k10 (hb _) (hb _)
  simp only [List.cons_append, List.nil_append, List.cons.injEq, true_and] at e8
  have := bracket_unique e8 h12 k12
  subst this
  exact ⟨rfl, rfl⟩

theorem archiveName_length {name : Str} {two : Bool} {x : Str} (h : ArchiveName name two x) : x.length = name.length + (if two then 2 else 0) := by
  obtain ⟨u, v, rfl, h, hv⟩ := h
  rw [List.length_append, foldsTo_length h]
  cases two with
  | true => simp only [if_true] at hv ⊢; rw [hv.1]
  | false => simp only [Bool.false_eq_true, if_false] at hv ⊢; rw [hv]; rfl

theorem word_v {c : Char} (h : FoldsTo [c] (py! "v")) : isWord c = true ∧ isDec c = false := by
  rcases v_chars (.inr h) with rfl | rfl <;> exact ⟨rfl, rfl⟩

theorem oldVersion_unique {x r y r' : Str} (e : x ++ r = y ++ r') (hx : x = [] ∨ OldVersion x) (hy : y = [] ∨ OldVersion y)
    (hr : NotFirst (fun c => isWord c = true) r) (hr' : NotFirst (fun c => isWord c = true) r') : x = y := by
  have key : ∀ {x r : Str}, (x = [] ∨ OldVersion x) → NotFirst (fun c => isWord c = true) r → ∀ c ∈ x, isWord c = true := by
    intro x r hx _ c hc
    rcases hx with rfl | ⟨v, d, rfl, hv, -, -, hd⟩
    · simp at hc
    · rcases List.mem_cons.1 hc with rfl | hc
      · exact (word_v hv).1
      · exact isDec_isWord (hd c hc)
  exact (span_unique e (key hx hr) (key hy hr') hr hr').1

theorem oldArxiv_determined {name : Str} {two : Bool} {repl : Option Str} : Determined (OldArxiv name two repl) := by
  rintro b w r x w' r' x' e ⟨n, s, yy, mm, num, ver, rfl, -, -, h1, h2, h3, h4, h5, h6, h7, rfl⟩
    ⟨n', s', yy', mm', num', ver', rfl, -, -, k1, k2, k3, k4, k5, k6, k7, rfl⟩
  simp only [List.append_assoc] at e
  obtain ⟨rfl, e1⟩ := List.append_inj e (by rw [archiveName_length h1, archiveName_length k1])
  have hs : ∀ c, isDec c = true → ¬ (c ∈ py! "|/:-" ∨ isSpace c = true) := by
    rintro c hc (h | h)
    · simp only [List.mem_cons, List.not_mem_nil, or_false] at h
      rcases h with rfl | rfl | rfl | rfl <;> exact absurd hc Bool.false_ne_true
    · rw [isDec_not_space hc] at h; exact absurd h Bool.false_ne_true
  have hsep : ∀ {s : Str}, (s = [] ∨ ∃ c, s = [c] ∧ (c ∈ py! "|/:-" ∨ isSpace c = true)) → ∀ c ∈ s, (c ∈ py! "|/:-" ∨ isSpace c = true) := by
    rintro s (rfl | ⟨c, rfl, hc⟩) d hd
    · simp at hd
    · rw [List.mem_singleton.1 hd]; exact hc
  obtain ⟨rfl, e2⟩ := span_unique e1 (hsep h2) (hsep k2) (two_first (year91_two h3) hs) (two_first (year91_two k3) hs)
  obtain ⟨rfl, e3⟩ := List.append_inj e2 (by rw [(year91_two h3).1, (year91_two k3).1])
  obtain ⟨rfl, e4⟩ := List.append_inj e3 (by rw [(month2_two h4).1, (month2_two k4).1])
  obtain ⟨rfl, e5⟩ := List.append_inj e4 (by rw [h5.1, k5.1])
  have := oldVersion_unique e5 h6 k6 h7 k7
  subst this
  exact ⟨rfl, rfl⟩

/-! ### ATLAS -/

theorem atlas_determined {code : Str → Prop} {name : Str} (hc : ∀ c c' r r', code c → code c' → c ++ r = c' ++ r' → c = c') :
    Determined (AtlasNote code name) := by
  rintro b w r x w' r' x' e ⟨k, c, rfl, -, hk, h, -, rfl⟩ ⟨k', c', rfl, -, hk', h', -, rfl⟩
  simp only [List.append_assoc] at e
  rcases hk with rfl | rfl <;> rcases hk' with rfl | rfl
  · rw [hc c c' r r' h h' (List.append_cancel_left e)]; exact ⟨rfl, rfl⟩
  · simp at e
  · simp at e
  · rw [hc c c' r r' h h' (List.append_cancel_left e)]; exact ⟨rfl, rfl⟩

theorem codeOld_unique {c c' r r' : Str} (h : CodeBefore2010 c) (h' : CodeBefore2010 c') (e : c ++ r = c' ++ r') : c = c' := by
  obtain ⟨y, n, rfl, hy, hn⟩ := h
  obtain ⟨y', n', rfl, hy', hn'⟩ := h'
  rcases hy with rfl | ⟨d, rfl, hd⟩ <;> rcases hy' with rfl | ⟨d', rfl, hd'⟩
  · exact (List.append_inj e (by simp [hn.1, hn'.1])).1
  · simp at e
  · simp at e
  · exact (List.append_inj e (by simp [hn.1, hn'.1])).1

theorem codeNew_unique {c c' r r' : Str} (h : CodeSince2010 c) (h' : CodeSince2010 c') (e : c ++ r = c' ++ r') : c = c' := by
  obtain ⟨a, d, n, rfl, -, -, hn⟩ := h
  obtain ⟨a', d', n', rfl, -, -, hn'⟩ := h'
  exact (List.append_inj e (by simp [hn.1, hn'.1])).1

/-! ### All arXiv passes -/

theorem sem_years {ys : List Str} {pre w post : Str} : Sem (Re.alts (ys.map Re.str)) pre w post ↔ w ∈ ys := by
  match ys with
  | [] => simp [Re.alts, Sem]
  | [y] => simp [Re.alts, Sem]
  | y :: z :: ys =>
    have ih := sem_years (ys := z :: ys) (pre := pre) (w := w) (post := post)
    rw [List.mem_cons, ← ih]
    exact Iff.rfl

omit [UnicodeDB] in
theorem years_groups : ∀ ys : List Str, (Re.alts (ys.map Re.str)).groups = []
  | [] => rfl
  | [_] => rfl
  | _ :: z :: ys => by
    have := years_groups (z :: ys)
    simp only [List.map_cons, Re.alts, Re.groups, List.nil_append] at this ⊢
    exact this

omit [UnicodeDB] in
theorem bare_minLen (Y : Re) (n : Nat) : 0 < (bareRe Y n).minLen := by
  simp only [bareRe, seq_minLen]
  have : 0 < (Re.ch '.').minLen := by decide
  omega

theorem tagArxiv_rewritten {lib : Lib} {ys ys5 : List Str} (h : lib.years = Re.alts (ys.map Re.str)) (h5 : lib.years5 = Re.alts (ys5.map Re.str))
    (line : Str) : RewrittenBy [ArxivNamed Year13 Month2 5, ArxivNamed (DigitsOf 2) (DigitsOf 2) 4, ArxivBare (· ∈ ys5) 5, ArxivBare (· ∈ ys) 4]
      line (tagArxiv lib line) := by
  simp only [tagArxiv]
  refine .cons (t := sub Rx.re_arxiv_5digits arxivTag line) ?_ (.cons (t := sub Rx.re_arxiv arxivTag (sub Rx.re_arxiv_5digits arxivTag line)) ?_
    (.cons (t := sub (Rx.re_new_arxiv_5digits lib.years5) arxivTag (sub Rx.re_arxiv arxivTag (sub Rx.re_arxiv_5digits arxivTag line))) ?_ (.cons ?_ .nil)))
  · rw [arxiv5_eq]; exact named_rewritten (fun _ _ _ => sem_year13) (fun _ _ _ => sem_month) (by decide) (by decide) (by decide) _
  · rw [arxiv_eq]; exact named_rewritten (fun _ _ _ => sem_digits) (fun _ _ _ => sem_digits) (by decide) (by decide) (by decide) _
  · rw [newArxiv5_eq, h5]; exact bare_rewritten (fun _ _ _ => sem_years) (years_groups _) (bare_minLen _ _) _
  · rw [newArxiv_eq, h]; exact bare_rewritten (fun _ _ _ => sem_years) (years_groups _) (bare_minLen _ _) _

/-! ### All of them -/

theorem tagFixed_rewritten {lib : Lib} {ys ys5 : List Str} (h : lib.years = Re.alts (ys.map Re.str)) (h5 : lib.years5 = Re.alts (ys5.map Re.str)) (line : Str) :
    ∃ a t, tagFixed lib line = .ok t ∧ RewrittenBy [PosYearFirst, PosYearMiddle, PosYearLast, PosBrackets] (washLine line) a ∧
      RewrittenBy ([QuotedTitle, IsbnText] ++
        [ArxivNamed Year13 Month2 5, ArxivNamed (DigitsOf 2) (DigitsOf 2) 4, ArxivBare (· ∈ ys5) 5, ArxivBare (· ∈ ys) 4] ++
        ArxivCatchup :: (arxivArchives.map fun a => OldArxiv a.1 a.2.1 a.2.2) ++
        [PosYearFirst, PosYearMiddle, PosYearLast, PosBrackets] ++
        [AtlasNote CodeBefore2010 (py! "ATL-CONF-"), AtlasNote CodeSince2010 (py! "ATLAS-CONF-")]) (washLine a) t := by
  obtain ⟨a, ea, ha⟩ := tagPos_rewritten (washLine line)
  obtain ⟨c, hc1, hc2⟩ := tagArxivMore_rewritten (tagArxiv lib (tagIsbn (tagQuoted (washLine a))))
  obtain ⟨d, ed, hd⟩ := tagPos_rewritten (tagArxivMore (tagArxiv lib (tagIsbn (tagQuoted (washLine a)))))
  have app : ∀ {Ps Qs : List (Str → Str → Str → Str → Prop)} {s t u : Str}, RewrittenBy Ps s t → RewrittenBy Qs t u → RewrittenBy (Ps ++ Qs) s u := by
    intro Ps Qs s t u h1 h2
    induction h1 with
    | nil => exact h2
    | cons h _ ih => exact .cons h (ih h2)
  refine ⟨a, tagAtlas d, ?_, ha, ?_⟩
  · simp only [tagFixed, ea, okBind, ed]
    rfl
  · refine app (app (app (app ?_ (tagArxiv_rewritten h h5 _)) (.cons hc1 hc2)) hd) (tagAtlas_rewritten d)
    exact .cons (tagQuoted_rewritten _) (.cons (tagIsbn_rewritten _) .nil)

end Py
