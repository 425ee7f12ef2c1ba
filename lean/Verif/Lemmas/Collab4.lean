import Verif.Lemmas.Collab3
import Verif.Lemmas.Ident5

/-!
# The marked line is determined
-/

open Spec

namespace Py

variable [UnicodeDB]

omit [UnicodeDB] in
theorem closedTag_ne {w : Str} (h : ClosedTag w) : w ≠ [] := by
  rintro rfl
  rcases h with ⟨_, _, _, e, _⟩ | ⟨_, e, _⟩ <;> simp at e

omit [UnicodeDB] in
theorem blanked_nil {s t : Str} (h : Blanked s t) (e : s = []) : t = [] := by
  cases h with
  | nil => rfl
  | ch => cases e
  | tag hw _ => exact absurd (List.append_eq_nil_iff.1 e).1 (closedTag_ne hw)

omit [UnicodeDB] in
theorem rewrittenUnder_nil {P : Str → Str → Str → Str → Prop} {b s l t : Str} (h : RewrittenUnder P b s l t) (e : s = []) : t = [] := by
  cases h with
  | nil => rfl
  | ch => cases e
  | hit hw _ _ => exact absurd (List.append_eq_nil_iff.1 e).1 hw

omit [UnicodeDB] in
theorem blanked_unique {s t : Str} (h : Blanked s t) : ∀ {t'}, Blanked s t' → t = t' := by
  induction h with
  | nil =>
    intro t' h'
    exact (blanked_nil h' rfl).symm
  | @ch c s t hn _ ih =>
    intro t' h'
    generalize hs : c :: s = s' at h'
    cases h' with
    | nil => cases hs
    | ch hn' h' => cases hs; rw [ih h']
    | tag hw h' => exact absurd ⟨_, _, hs, hw⟩ hn
  | @tag w s t hw _ ih =>
    intro t' h'
    generalize hs : w ++ s = s' at h'
    cases h' with
    | nil => exact absurd (List.append_eq_nil_iff.1 hs).1 (closedTag_ne hw)
    | ch hn' h' => exact absurd ⟨_, _, hs.symm, hw⟩ hn'
    | tag hw' h' =>
      have := closedTag_unique hw hw' hs
      subst this
      have := List.append_cancel_left hs
      subst this
      rw [ih h']

omit [UnicodeDB] in
theorem rewrittenUnder_unique {P : Str → Str → Str → Str → Prop} (hP : Determined P) {b s l t : Str} (h : RewrittenUnder P b s l t) :
    ∀ {t'}, RewrittenUnder P b s l t' → t = t' := by
  induction h with
  | nil =>
    intro t' h'
    exact (rewrittenUnder_nil h' rfl).symm
  | @ch b c d s l t hc hn _ ih =>
    intro t' h'
    generalize hs : c :: s = s' at h'
    generalize hl : d :: l = l' at h'
    cases h' with
    | nil => cases hs
    | ch _ _ h' => cases hs; cases hl; rw [ih h']
    | hit _ hp _ => exact absurd ⟨_, _, _, hs, hp⟩ hn
  | @hit b w r l x t hw hp _ ih =>
    intro t' h'
    generalize hs : w ++ r = s' at h'
    generalize hl : w ++ l = l' at h'
    cases h' with
    | nil => exact absurd (List.append_eq_nil_iff.1 hs).1 hw
    | ch _ hn _ => exact absurd ⟨_, _, _, hs.symm, hp⟩ hn
    | hit _ hp' h' =>
      obtain ⟨rfl, rfl⟩ := hP _ _ _ _ _ _ _ hs hp hp'
      have := List.append_cancel_left hs
      subst this
      have := List.append_cancel_left hl
      subst this
      rw [ih h']

omit [UnicodeDB] in
theorem markedBy_unique : ∀ {Ps : List (Str → Str → Str → Str → Prop)}, (∀ P ∈ Ps, Determined P) → ∀ {s t t'}, MarkedBy Ps s t →
    MarkedBy Ps s t' → t = t'
  | [], _, _, _, _, .nil, .nil => rfl
  | P :: Ps, hP, _, _, _, .cons h0 h1 h2, .cons h0' h3 h4 => by
    have := blanked_unique h0 h0'
    subst this
    have := rewrittenUnder_unique (hP P (by simp)) h1 h3
    subst this
    exact markedBy_unique (fun Q hQ => hP Q (by simp [hQ])) h2 h4

/-! ### One name -/

/-- The letters of `the` and `and`. -/
theorem article_letter {a : Str} (h : FoldsTo a (py! "the") ∨ FoldsTo a (py! "and")) : ∀ c ∈ a, c ∈ py! "thedanTHEDAN" := by
  have d1 : ∀ d ∈ py! "thedan", isAscii d = true ∧ d ∉ py! "IiKkSs" := by decide
  have d2 : ∀ d ∈ py! "thedan", d ∈ py! "thedanTHEDAN" ∧ swapCase d ∈ py! "thedanTHEDAN" := by decide
  have key : ∀ d ∈ py! "thedan", ∀ c, d ∈ caseVariants c → c ∈ py! "thedanTHEDAN" := by
    intro d hd c hc
    rcases caseVariants_ascii (d1 d hd).1 (d1 d hd).2 hc with e | e
    · rw [e]; exact (d2 d hd).1
    · rw [e]; exact (d2 d hd).2
  have gen : ∀ {y a : Str}, FoldsTo a y → (∀ d ∈ y, d ∈ py! "thedan") → ∀ c ∈ a, c ∈ py! "thedanTHEDAN" := by
    intro y a hf
    induction hf with
    | nil => simp
    | @cons c d a y hx _ ih =>
      intro hy c' hc'
      rcases List.mem_cons.1 hc' with rfl | hc'
      · exact key d (hy d (by simp)) _ hx
      · exact ih (fun d hd => hy d (by simp [hd])) c' hc'
  rcases h with h | h
  · exact gen h (by decide)
  · exact gen h (by decide)

theorem article_length {a : Str} (h : FoldsTo a (py! "the") ∨ FoldsTo a (py! "and")) : a.length = 3 := by
  rcases h with h | h <;> exact foldsTo_length h

/-- What follows the name in a reading followed by what may follow. -/
theorem reading_name {name : Str} {coll : Bool} {g r : Str} (h : CollabReading name coll g) (hr : CollabEnd r) :
    ∃ n z, g ++ r = n ++ z ∧ NameText name n ∧ CollabEnd z ∧ (∃ y, g = n ++ y) := by
  unfold CollabReading at h
  cases coll with
  | false => exact ⟨g, r, rfl, by simpa using h, hr, [], by simp⟩
  | true =>
    simp only [if_true] at h
    obtain ⟨n, a, t, rfl, h1, h2, -⟩ := h
    refine ⟨n, a :: t ++ r, by simp, h1, ?_, a :: t, rfl⟩
    intro c hc
    simp only [List.cons_append, List.head?_cons, Option.some.injEq] at hc
    exact .inr (hc ▸ h2)

theorem reading_head {name : Str} (hn : PlainName name) (ho : OwnName name) {coll : Bool} {g : Str} (h : CollabReading name coll g) :
    g ≠ [] ∧ NotFirst (fun c => c ∈ py! "(\"[" ∨ isSpace c = true) g := by
  obtain ⟨n, -, -, h1, -, y, rfl⟩ := reading_name h (r := []) (by intro c hc; cases hc)
  have : n ≠ [] := by
    intro e
    subst e
    have := nameText_length h1
    exact hn.1 (List.length_eq_zero_iff.1 this.symm)
  refine ⟨by simp [this], ?_⟩
  have h2 := ho.head n h1
  intro c hc
  cases n with
  | nil => exact absurd rfl this
  | cons d n => exact h2 c hc

/-- A reading does not begin with an article. -/
theorem reading_article {name : Str} (ho : OwnName name) {coll : Bool} {g r : Str} (h : CollabReading name coll g)
    (hr : CollabEnd r) {a k z : Str} (ha : FoldsTo a (py! "the") ∨ FoldsTo a (py! "and")) (hk : k ≠ []) (hs : ∀ c ∈ k, isSpace c = true) :
    g ++ r ≠ a ++ (k ++ z) := by
  intro e
  obtain ⟨n, y, e1, h1, h2, -⟩ := reading_name h hr
  rw [e1] at e
  have hsp : ∀ c ∈ py! "thedanTHEDAN", isSpace c = false ∧ c ∉ py! "><])\".,:" := by decide
  rcases List.append_eq_append_iff.1 e with ⟨u, hu, hu'⟩ | ⟨u, hu, hu'⟩
  · cases u with
    | nil =>
      have := (ho.word n n [] h1 (by simp) (by simpa [hu] using ha)).1
      exact this rfl
    | cons c u =>
      have hm := article_letter ha c (by simp [hu])
      have := h2 c (by simp [hu'])
      rcases this with h | h
      · exact (hsp c hm).2 h
      · rw [(hsp c hm).1] at h; exact absurd h (by decide)
  · obtain ⟨h3, h4⟩ := ho.word n a u h1 hu ha
    cases u with
    | nil => exact h3 rfl
    | cons c u =>
      cases k with
      | nil => exact hk rfl
      | cons d k =>
        simp only [List.cons_append, List.cons.injEq] at hu'
        exact h4 c rfl (hu'.1 ▸ hs d (by simp))

theorem lead_unique {name : Str} (hn : PlainName name) (ho : OwnName name) {coll : Bool} {b lead lead' g g' r r' : Str}
    (e : lead ++ (g ++ r) = lead' ++ (g' ++ r')) (h : CollabLead b lead) (h' : CollabLead b lead') (hg : CollabReading name coll g)
    (hg' : CollabReading name coll g') (hr : CollabEnd r) (hr' : CollabEnd r') : lead = lead' ∧ g ++ r = g' ++ r' := by
  obtain ⟨o, s, t, rfl, hb, hs, ht⟩ := h
  obtain ⟨o', s', t', rfl, hb', hs', ht'⟩ := h'
  simp only [List.append_assoc] at e
  -- what follows the blanks begins neither with a blank nor with a bracket
  have key : ∀ {t g r : Str}, (t = [] ∨ ∃ a k, t = a ++ k ∧ (FoldsTo a (py! "the") ∨ FoldsTo a (py! "and")) ∧ k ≠ [] ∧ ∀ c ∈ k, isSpace c = true) →
      CollabReading name coll g → NotFirst (fun c => c ∈ py! "(\"[" ∨ isSpace c = true) (t ++ (g ++ r)) := by
    intro t g r ht hg
    have hh := reading_head hn ho hg
    rcases ht with rfl | ⟨a, k, rfl, ha, -, -⟩
    · intro c hc
      cases g with
      | nil => exact absurd rfl hh.1
      | cons d g => exact hh.2 c hc
    · intro c hc
      have hl := article_length ha
      cases a with
      | nil => cases hl
      | cons d a =>
        simp only [List.cons_append, List.head?_cons, Option.some.injEq] at hc
        subst hc
        have := article_letter ha d (by simp)
        revert this
        have : ∀ c ∈ py! "thedanTHEDAN", ¬ (c ∈ py! "(\"[" ∨ isSpace c = true) := by decide
        exact this d
  have k1 := key (r := r) ht hg
  have k2 := key (r := r') ht' hg'
  have weak : ∀ {x : Str}, NotFirst (fun c => c ∈ py! "(\"[" ∨ isSpace c = true) x → NotFirst (fun c => isSpace c = true) x :=
    fun h c hc hs => h c hc (.inr hs)
  -- the opening character and the blanks
  have step : o ++ s = o' ++ s' ∧ t ++ (g ++ r) = t' ++ (g' ++ r') := by
    have sp : ∀ {p : Str} {c : Char}, isSpace c = true → (∀ d ∈ p, isSpace d = true) → ∀ d ∈ c :: p, isSpace d = true := by
      intro p c h1 h2 d hd
      rcases List.mem_cons.1 hd with rfl | hd
      · exact h1
      · exact h2 d hd
    rcases hb with ⟨rfl, -⟩ | ⟨c, rfl, hc⟩ <;> rcases hb' with ⟨rfl, -⟩ | ⟨c', rfl, hc'⟩
    · exact span_unique e hs hs' (weak k1) (weak k2)
    · simp only [List.nil_append, List.cons_append] at e
      rcases hc' with hc' | hc'
      · -- a bracket is neither a blank nor what may follow
        exfalso
        cases s with
        | nil => exact k1 c' (by rw [List.nil_append] at e; rw [e]; rfl) (.inl hc')
        | cons d s =>
          simp only [List.cons_append, List.cons.injEq] at e
          have h1 := hs d (by simp)
          rw [e.1] at h1
          revert h1
          have : ∀ c ∈ py! "(\"[", ¬ isSpace c = true := by decide
          exact this c' hc'
      · exact span_unique (a' := c' :: s') e hs (sp hc' hs') (weak k1) (weak k2)
    · simp only [List.nil_append, List.cons_append] at e
      rcases hc with hc | hc
      · exfalso
        cases s' with
        | nil => exact k2 c (by rw [List.nil_append] at e; rw [← e]; rfl) (.inl hc)
        | cons d s' =>
          simp only [List.cons_append, List.cons.injEq] at e
          have h1 := hs' d (by simp)
          rw [← e.1] at h1
          revert h1
          have : ∀ c ∈ py! "(\"[", ¬ isSpace c = true := by decide
          exact this c hc
      · exact span_unique (a := c :: s) e (sp hc hs) hs' (weak k1) (weak k2)
    · simp only [List.nil_append, List.cons_append, List.cons.injEq] at e
      obtain ⟨rfl, e⟩ := e
      obtain ⟨rfl, e2⟩ := span_unique e hs hs' (weak k1) (weak k2)
      exact ⟨rfl, e2⟩
  obtain ⟨e1, e2⟩ := step
  have last : t = t' ∧ g ++ r = g' ++ r' := by
    rcases ht with rfl | ⟨a, k, rfl, ha, hk, hks⟩ <;> rcases ht' with rfl | ⟨a', k', rfl, ha', hk', hks'⟩
    · exact ⟨rfl, e2⟩
    · exfalso
      simp only [List.nil_append, List.append_assoc] at e2
      exact reading_article ho hg hr ha' hk' hks' e2
    · exfalso
      simp only [List.nil_append, List.append_assoc] at e2
      exact reading_article ho hg' hr' ha hk hks e2.symm
    · simp only [List.append_assoc] at e2
      obtain ⟨rfl, e3⟩ := List.append_inj e2 (by rw [article_length ha, article_length ha'])
      have w1 := weak (key (r := r) (.inl rfl) hg)
      have w2 := weak (key (r := r') (.inl rfl) hg')
      obtain ⟨rfl, e4⟩ := span_unique e3 hks hks' w1 w2
      exact ⟨rfl, e4⟩
  obtain ⟨rfl, e3⟩ := last
  exact ⟨by rw [e1], e3⟩

omit [UnicodeDB] in
theorem trimmed_unique {l s v v' : Str} (h : Trimmed l l s v) (h' : Trimmed l l s v') : v = v' := by
  obtain ⟨a, b, rfl, ha, hb⟩ := h.cut
  obtain ⟨a', b', e, ha', hb'⟩ := h'.cut
  have all : ∀ {a v b a' b' : Str}, (∀ c, v.head? = some c → c ∉ l) → (∀ c ∈ a', c ∈ l) → (∀ c ∈ b', c ∈ l) →
      a ++ v ++ b = a' ++ b' → v = [] := by
    intro a v b a' b' hv h1 h2 e
    cases v with
    | nil => rfl
    | cons c v =>
      have : c ∈ a' ++ b' := by rw [← e]; simp
      rcases List.mem_append.1 this with h | h
      · exact absurd (h1 c h) (hv c rfl)
      · exact absurd (h2 c h) (hv c rfl)
  by_cases hv : v = []
  · subst hv
    exact (all h'.first ha hb (by simpa using e.symm)).symm
  by_cases hv' : v' = []
  · subst hv'
    exact all h.first ha' hb' (by simpa using e)
  have nf : ∀ {v b : Str}, v ≠ [] → (∀ c, v.head? = some c → c ∉ l) → NotFirst (· ∈ l) (v ++ b) := by
    intro v b hne h c hc
    cases v with
    | nil => exact absurd rfl hne
    | cons d v => exact h c hc
  simp only [List.append_assoc] at e
  obtain ⟨-, e2⟩ := span_unique (p := (· ∈ l)) e ha ha' (nf hv h.first) (nf hv' h'.first)
  have e3 := congrArg List.reverse e2
  simp only [List.reverse_append] at e3
  have lr : ∀ {v : Str}, v ≠ [] → (∀ c, v.getLast? = some c → c ∉ l) → NotFirst (· ∈ l) v.reverse := by
    intro v _ h c hc
    rw [List.head?_reverse] at hc
    exact h c hc
  obtain ⟨-, e4⟩ := span_unique (p := (· ∈ l)) e3 (by simpa using hb) (by simpa using hb') (lr hv h.last) (lr hv' h'.last)
  exact List.reverse_inj.1 e4

theorem collabText_determined {name : Str} (hn : PlainName name) (ho : OwnName name) (coll : Bool) : Determined (CollabText name coll) := by
  intro b w r x w' r' x' e h h'
  obtain ⟨lead, g, v, rfl, h1, h2, h3, h4, h5, rfl⟩ := h
  obtain ⟨lead', g', v', rfl, h1', h2', h3', h4', h5', rfl⟩ := h'
  simp only [List.append_assoc] at e
  obtain ⟨rfl, e2⟩ := lead_unique hn ho e h1 h1' h2 h2' h3 h3'
  have l1 := h4 g' r' e2 h2' h3'
  have l2 := h4' g r e2.symm h2 h3
  obtain ⟨rfl, -⟩ := List.append_inj e2 (by omega)
  rw [trimmed_unique h5 h5']
  exact ⟨rfl, rfl⟩

/-- Among the readings at a place there is a longest. -/
theorem longest_reading {name : Str} {coll : Bool} {g r : Str} (hg : CollabReading name coll g) (hr : CollabEnd r) :
    ∃ g' r', g' ++ r' = g ++ r ∧ CollabReading name coll g' ∧ CollabEnd r' ∧
      ∀ g'' r'', g' ++ r' = g'' ++ r'' → CollabReading name coll g'' → CollabEnd r'' → g''.length ≤ g'.length := by
  generalize hk : (g ++ r).length - g.length = k
  induction k using Nat.strongRecOn generalizing g r with
  | _ k ih =>
    by_cases h : ∃ g'' r'', g ++ r = g'' ++ r'' ∧ CollabReading name coll g'' ∧ CollabEnd r'' ∧ g.length < g''.length
    · obtain ⟨g'', r'', e, h1, h2, h3⟩ := h
      have hl := congrArg List.length e
      simp only [List.length_append] at hl hk
      obtain ⟨g', r', e', h4, h5, h6⟩ := ih ((g'' ++ r'').length - g''.length) (by simp only [List.length_append]; omega) h1 h2 rfl
      exact ⟨g', r', by rw [e', e], h4, h5, h6⟩
    · refine ⟨g, r, rfl, hg, hr, fun g'' r'' e h1 h2 => ?_⟩
      exact Nat.le_of_not_lt fun hlt => h ⟨g'', r'', e, h1, h2, hlt⟩

end Py
