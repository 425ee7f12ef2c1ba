import Verif.Lemmas.Author

/-!
# The marked authors are determined
-/

open Spec

namespace Py

/-- At each place there is at most one group, and it is not empty. -/
structure OneGroup (A : Str → Str → Str → AuthorGroup → Prop) : Prop where
  one : ∀ {b w r g w' r' g'}, w ++ r = w' ++ r' → A b w r g → A b w' r' g' → w = w' ∧ g = g'
  some : ∀ {b w r g}, A b w r g → w ≠ []

/-- Reading has come to an end or to a group without underscores. -/
def Stop (A : Str → Str → Str → AuthorGroup → Prop) (b R : Str) : Prop := R = [] ∨ ∃ w r g, R = w ++ r ∧ A b w r g ∧ '_' ∉ w

theorem noGroup_unique {A : Str → Str → Str → AuthorGroup → Prop} (hA : OneGroup A) {b u R : Str} (h : NoGroup A b u R) :
    Stop A (b ++ u) R → ∀ {u' R'}, NoGroup A b u' R' → Stop A (b ++ u') R' → u ++ R = u' ++ R' → u = u' := by
  have clash : ∀ {b w s g R : Str} {g' : AuthorGroup}, A b w s g' → '_' ∈ w → R = w ++ s → Stop A b R → False := by
    intro b w s g R g' h1 h2 e hs
    rcases hs with rfl | ⟨w', r, g, e', h3, h4⟩
    · exact hA.some h1 (List.append_eq_nil_iff.1 e.symm).1
    · rw [e] at e'
      obtain ⟨rfl, -⟩ := hA.one e' h1 h3
      exact h4 h2
  have none : ∀ {b s R : Str} {c : Char}, (¬ ∃ w r' g, c :: s = w ++ r' ∧ A b w r' g) → R = c :: s → Stop A b R → False := by
    intro b s R c hn e hs
    rcases hs with rfl | ⟨w', r, g, e', h3, h4⟩
    · cases e
    · exact hn ⟨w', r, g, by rw [← e, e'], h3⟩
  induction h with
  | @nil b R =>
    intro hs u' R' h' hs' e
    rw [List.append_nil] at hs
    cases h' with
    | nil => rfl
    | ch hn _ => exact (none hn (by simpa using e) hs).elim
    | over h1 h2 _ => exact (clash (g := []) h1 h2 (by simpa using e) hs).elim
  | @ch b c u R hn _ ih =>
    intro hs u' R' h' hs' e
    generalize hx : u' = x at h'
    cases h' with
    | nil =>
      subst hx
      rw [List.append_nil] at hs'
      exact (none hn (by simpa using e.symm) hs').elim
    | @ch _ d v _ hn' h' =>
      subst hx
      simp only [List.cons_append, List.cons.injEq] at e
      obtain ⟨rfl, e⟩ := e
      rw [ih (by simpa using hs) h' (by simpa using hs') e]
    | over h1 h2 h3 =>
      subst hx
      exact (hn ⟨_, _, _, by simpa using e, h1⟩).elim
  | @over b w u R g h1 h2 _ ih =>
    intro hs u' R' h' hs' e
    generalize hx : u' = x at h'
    cases h' with
    | nil =>
      subst hx
      rw [List.append_nil] at hs'
      exact (clash (g := []) h1 h2 (by simpa using e.symm) hs').elim
    | @ch _ d v _ hn' h' =>
      subst hx
      exact (hn' ⟨_, _, _, by simpa using e.symm, h1⟩).elim
    | @over _ w' v _ g' h3 h4 h5 =>
      subst hx
      have e' : w ++ (u ++ R) = w' ++ (v ++ R') := by simpa using e
      obtain ⟨rfl, -⟩ := hA.one e' h1 h3
      rw [ih (by simpa using hs) h5 (by simpa using hs') (List.append_cancel_left e')]

variable [UnicodeDB]

theorem authorHere_one : OneGroup AuthorHere := by
  constructor
  · rintro b w r g w' r' g' e ⟨m, h1, rfl, rfl⟩ ⟨m', h2, rfl, rfl⟩
    rw [e, h2] at h1
    cases h1
    exact ⟨rfl, rfl⟩
  · rintro b w r g ⟨m, h1, rfl, rfl⟩ e
    have := lang_minLen _ _ (matchHere_ok h1).1.lang
    have h0 := auth_minLen
    rw [e] at this
    simp at this
    omega

omit [UnicodeDB] in
theorem etAl_determined : Determined EtAl := by
  rintro b w r x w' r' x' e ⟨e1, t1, s, a, l, p, rfl, -, -, ha, hl, hs, hp, hp2, rfl⟩ ⟨e2, t2, s', a', l', p', rfl, -, -, ha', hl', hs', hp', hp2', rfl⟩
  refine ⟨?_, rfl⟩
  simp only [List.cons_append, List.append_assoc, List.cons.injEq] at e
  obtain ⟨rfl, rfl, e⟩ := e
  have hsep : ∀ {s : Str}, ((∃ c k, s = c :: k ∧ c ∈ [',', '.'] ∧ ∀ d ∈ k, isSpace d = true) ∨ (s ≠ [] ∧ ∀ d ∈ s, isSpace d = true)) →
      ∀ c ∈ s, c ∈ [',', '.'] ∨ isSpace c = true := by
    rintro s (⟨c, k, rfl, h1, h2⟩ | ⟨h1, h2⟩) d hd
    · rcases List.mem_cons.1 hd with rfl | hd
      · exact .inl h1
      · exact .inr (h2 d hd)
    · exact .inr (h2 d hd)
  have hlet : ∀ {a : Char} {z : Str}, a ∈ ['A', 'a'] → ∀ c, (a :: z).head? = some c → ¬ (c ∈ [',', '.'] ∨ isSpace c = true) := by
    intro a z ha c hc
    cases hc
    simp only [List.mem_cons, List.not_mem_nil, or_false] at ha
    rcases ha with rfl | rfl <;> decide
  obtain ⟨rfl, e3⟩ := split_unique e (hsep hs) (hsep hs') (hlet ha) (hlet ha')
  simp only [List.cons.injEq] at e3
  obtain ⟨rfl, rfl, e4⟩ := e3
  have : p = p' := by
    match p, p', hp, hp', hp2, hp2', e4 with
    | [], [], _, _, _, _, _ => rfl
    | [], c :: q, _, h2, h3, _, e =>
      rcases h3 with h3 | ⟨-, h3⟩
      · cases h3
      · exact absurd (h2 c (by simp)) (h3 c (by rw [List.nil_append] at e; rw [e]; rfl))
    | c :: q, [], h1, _, _, h4, e =>
      rcases h4 with h4 | ⟨-, h4⟩
      · cases h4
      · exact absurd (h1 c (by simp)) (h4 c (by rw [List.nil_append] at e; rw [← e]; rfl))
    | [c], [d], _, _, _, _, e => simp at e; rw [e.1]
    | [c], d :: d' :: q, _, h2, h3, _, e =>
      rcases h3 with h3 | ⟨-, h3⟩
      · cases h3
      · exact absurd (h2 d' (by simp)) (h3 d' (by simp at e; rw [e.2]; rfl))
    | c :: c' :: q, [d], h1, _, _, h4, e =>
      rcases h4 with h4 | ⟨-, h4⟩
      · cases h4
      · exact absurd (h1 c' (by simp)) (h4 c' (by simp at e; rw [← e.2]; rfl))
    | c :: c' :: q, d :: d' :: q', _, _, h3, h4, e =>
      simp at e h3 h4
      have e1 : q = [] := by rcases h3 with h3 | h3; exact h3; omega
      have e2 : q' = [] := by rcases h4 with h4 | h4; exact h4; omega
      rw [e.1, e.2.1, e1, e2]
  rw [this]

omit [UnicodeDB] in
theorem authorText_unique {w v v' : Str} (h : AuthorText w v) (h' : AuthorText w v') : v = v' := by
  obtain ⟨a, d, u, x, h1, rfl, h2, h3, h4, h5⟩ := h
  obtain ⟨a', d', u', x', k1, rfl, k2, k3, k4, k5⟩ := h'
  have e := rewritten_unique etAl_determined h1 k1
  obtain ⟨rfl, rfl⟩ := split_unique e h2 k2 h3 k3
  have := trimmed_unique h4 k4
  subst this
  rcases h5 with ⟨h5, rfl⟩ | ⟨h5, h6⟩ <;> rcases k5 with ⟨k5, rfl⟩ | ⟨k5, k6⟩
  · rfl
  · exact absurd h5 k5
  · exact absurd k5 h5
  · exact trimmed_unique h6 k6

omit [UnicodeDB] in
theorem authorMark_unique {g : AuthorGroup} {w t x x' : Str} (h : AuthorMark g w t x) (h' : AuthorMark g w t x') : x = x' := by
  obtain ⟨k, v, s, rfl, rfl, h⟩ := h
  obtain ⟨k', v', s', rfl, rfl, h'⟩ := h'
  rcases h with ⟨h1, rfl, h2⟩ | ⟨h1, rfl, h2⟩ <;> rcases h' with ⟨k1, rfl, k2⟩ | ⟨k1, rfl, k2⟩
  · obtain ⟨n, n', h3, h4, rfl⟩ := h2
    obtain ⟨m, m', k3, k4, rfl⟩ := k2
    have := rewritten_unique etAl_determined h3 k3
    subst this
    rw [trimmed_unique h4 k4]
  · rw [h1] at k1; cases k1
  · rw [h1] at k1; cases k1
  · rw [authorText_unique h2 k2]

/-- What becomes of one group. -/
def OneMarked (N : Str → Prop) (u v w : Str) (g : AuthorGroup) (t z : Str) : Prop :=
  (g.ed = false ∧ Doubtful N u g ∧ z = v ++ (w ++ t)) ∨
  ((g.ed = true ∨ ¬ Doubtful N u g) ∧ ¬ Widened N u g ∧ ∃ x, AuthorMark g w t x ∧ z = v ++ (x ++ t)) ∨
  (Widened N u g ∧ ∃ x, AuthorMark g (v ++ w) t x ∧ z = x ++ t)

theorem oneMarked_unique {N : Str → Prop} {u v w : Str} {g : AuthorGroup} {t z z' : Str} (h : OneMarked N u v w g t z)
    (h' : OneMarked N u v w g t z') : z = z' := by
  have no : ∀ {u g}, Doubtful N u g → ¬ Widened N u g := by
    rintro u g (h | ⟨h1, h2⟩) ⟨k1, k2, k3⟩
    · exact k1 h
    · exact h2 k3
  rcases h with ⟨h1, h2, rfl⟩ | ⟨h1, h2, x, h3, rfl⟩ | ⟨h1, x, h3, rfl⟩ <;> rcases h' with ⟨k1, k2, rfl⟩ | ⟨k1, k2, y, k3, rfl⟩ | ⟨k1, y, k3, rfl⟩
  · rfl
  · rcases k1 with k1 | k1
    · rw [h1] at k1; cases k1
    · exact absurd h2 k1
  · exact absurd k1 (no h2)
  · rcases h1 with h1 | h1
    · rw [h1] at k1; cases k1
    · exact absurd k2 h1
  · rw [authorMark_unique h3 k3]
  · exact absurd k1 h2
  · exact absurd h1 (no k2)
  · exact absurd h1 k2
  · rw [authorMark_unique h3 k3]

theorem authorsMarked_cases {A : Str → Str → Str → AuthorGroup → Prop} {N : Str → Prop} {b s l z : Str} (h : AuthorsMarked A N b s l z) :
    (NoGroup A b s [] ∧ CoveredBy s l ∧ z = l) ∨ ∃ u v w r l' t g, s = u ++ (w ++ r) ∧ l = v ++ (w ++ l') ∧ NoGroup A b u (w ++ r) ∧ CoveredBy u v ∧
      A (b ++ u) w r g ∧ '_' ∉ w ∧ OneMarked N u v w g t z ∧ AuthorsMarked A N (b ++ u ++ w) r l' t := by
  cases h with
  | rest h1 h2 => exact .inl ⟨h1, h2, rfl⟩
  | keep h1 h2 h3 h4 h5 h6 h7 => exact .inr ⟨_, _, _, _, _, _, _, rfl, rfl, h1, h2, h3, h4, .inl ⟨h5, h6, rfl⟩, h7⟩
  | mark h1 h2 h3 h4 h5 h6 h7 h8 => exact .inr ⟨_, _, _, _, _, _, _, rfl, rfl, h1, h2, h3, h4, .inr (.inl ⟨h5, h6, _, h7, rfl⟩), h8⟩
  | wide h1 h2 h3 h4 h5 h6 h7 => exact .inr ⟨_, _, _, _, _, _, _, rfl, rfl, h1, h2, h3, h4, .inr (.inr ⟨h5, _, h6, rfl⟩), h7⟩

theorem authorsMarked_unique {A : Str → Str → Str → AuthorGroup → Prop} {N : Str → Prop} (hA : OneGroup A) {b s l z z' : Str}
    (h : AuthorsMarked A N b s l z) (h' : AuthorsMarked A N b s l z') : z = z' := by
  generalize hn : s.length = n
  induction n using Nat.strongRecOn generalizing b s l z z' with
  | _ n ih =>
    rcases authorsMarked_cases h with ⟨h1, h2, rfl⟩ | ⟨u, v, w, r, l1, t, g, rfl, rfl, h1, h2, h3, h4, h5, h6⟩ <;>
      rcases authorsMarked_cases h' with ⟨k1, k2, rfl⟩ | ⟨u', v', w', r', l2, t', g', es, el, k1, k2, k3, k4, k5, k6⟩
    · rfl
    · subst es
      have := noGroup_unique hA h1 (.inl rfl) k1 (.inr ⟨_, _, _, rfl, k3, k4⟩) (by simp)
      have h7 := congrArg List.length this
      have h8 := List.length_pos_iff.2 (hA.some k3)
      simp only [List.length_append] at h7
      omega
    · have := noGroup_unique hA k1 (.inl rfl) h1 (.inr ⟨_, _, _, rfl, h3, h4⟩) (by simp)
      have h7 := congrArg List.length this
      have h8 := List.length_pos_iff.2 (hA.some h3)
      simp only [List.length_append] at h7
      omega
    · have e := noGroup_unique hA h1 (.inr ⟨_, _, _, rfl, h3, h4⟩) k1 (.inr ⟨_, _, _, rfl, k3, k4⟩) es
      subst e
      have es2 := List.append_cancel_left es
      obtain ⟨rfl, rfl⟩ := hA.one es2 h3 k3
      obtain rfl := List.append_cancel_left es2
      have hv : v.length = v'.length := by rw [← Under.length h2, ← Under.length k2]
      obtain ⟨rfl, el2⟩ := List.append_inj el hv
      obtain rfl := List.append_cancel_left el2
      have := List.length_pos_iff.2 (hA.some h3)
      have := ih r.length (by simp at hn; omega) h6 k6 rfl
      subst this
      exact oneMarked_unique h5 k5

/-! ### Spellings of the knowledge base -/

omit [UnicodeDB] in
theorem replace_rewritten {old new : Str} (ho : old ≠ []) (s : Str) : Rewritten (fun _ w _ x => w = old ∧ x = new) [] s (replace s old new) := by
  have key : ∀ (s b : Str), Rewritten (fun _ w _ x => w = old ∧ x = new) b s (replaceGo old new 0 s) := by
    intro s
    generalize hn : s.length = n
    induction n using Nat.strongRecOn generalizing s with
    | _ n ih =>
      intro b
      have skip : ∀ (k : Nat) (s : Str), replaceGo old new k s = replaceGo old new 0 (s.drop k) := by
        intro k
        induction k with
        | zero => intro s; simp
        | succ k ihk =>
          intro s
          cases s with
          | nil => simp [replaceGo]
          | cons c s => simp only [replaceGo, List.drop_succ_cons]; exact ihk s
      cases s with
      | nil => exact .nil
      | cons c s =>
        simp only [replaceGo]
        by_cases hp : old.isPrefixOf (c :: s) = true
        · rw [if_pos hp, skip]
          obtain ⟨r, hr⟩ := List.isPrefixOf_iff_prefix.1 hp
          have : s.drop (old.length - 1) = r := by
            cases old with
            | nil => exact absurd rfl ho
            | cons d old =>
              simp only [List.cons_append, List.cons.injEq] at hr
              rw [← hr.2]
              simp
          rw [this, ← hr]
          refine .hit ho ⟨rfl, rfl⟩ (ih r.length ?_ r rfl _)
          rw [← hn, ← hr, List.length_append]
          have := List.length_pos_iff.2 ho
          omega
        · rw [if_neg hp]
          refine .ch ?_ (ih s.length (by rw [← hn]; simp) s rfl _)
          rintro ⟨w, r, x, e, rfl, -⟩
          exact hp (List.isPrefixOf_iff_prefix.2 ⟨r, e.symm⟩)
  exact key s []

omit [UnicodeDB] in
theorem respelt : ∀ {kb : List (Str × Str)}, (∀ p ∈ kb, p.1 ≠ []) → ∀ line : Str,
    RewrittenBy (kb.map fun p => fun _ w _ x => w = p.1 ∧ x = p.2) line (kb.foldl (fun l p => replace l p.1 p.2) line)
  | [], _, _ => .nil
  | p :: kb, h, line => .cons (replace_rewritten (h p (by simp)) line) (respelt (fun q hq => h q (by simp [hq])) _)

theorem tagAuthors_spec (lib : Lib) (line D : Str) (kb : List (Str × Str)) (hD : kb.foldl (fun l p => replace l p.1 p.2) line = D)
    (hu : (finditer Rx.RE_AUTH (stripTags (lib.unidecode D))).length ≤ (finditer Rx.RE_AUTH (stripTags D)).length)
    (hN : NoNesting D) (hn : '\n' ∉ D) :
    ∃ B t, tagAuthors lib line kb = .ok t ∧ Blanked D B ∧ AuthorsMarked AuthorHere WeakerFinds [] B D t := by
  have hB := (Props.C27_partial D hN).1
  obtain ⟨t, h1, h2⟩ := authors_scanned (scan_scanned' auth_minLen (stripTags D)) (b := []) (u := []) (p := []) (v := []) (l := D) rfl .nil rfl .nil
    (blanked_under hB) (by simpa using hn)
  refine ⟨_, t, ?_, hB, by simpa using h2⟩
  unfold tagAuthors
  simp only [hD]
  rw [if_neg (by omega)]
  simpa [finditer] using h1

end Py
