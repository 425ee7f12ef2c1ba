import Verif.Model.Kbs
import Verif.Spec.Kbs
import Verif.Lemmas.Titles

/-!
# Lemmas about masks of report numbers
-/

open Spec

namespace Py

theorem simGo_skip (T : List (Str × Str)) (n : Nat) (s : Str) : simGo T n s = simGo T 0 (s.drop n) := by
  induction n generalizing s with
  | zero => simp
  | succ n ih =>
    cases s with
    | nil => simp [simGo]
    | cons c s => rw [simGo, ih, List.drop_succ_cons]

theorem replaceGo_skip (k r : Str) (n : Nat) (s : Str) : replaceGo k r n s = replaceGo k r 0 (s.drop n) := by
  induction n generalizing s with
  | zero => simp
  | succ n ih =>
    cases s with
    | nil => simp [replaceGo]
    | cons c s => rw [replaceGo, ih, List.drop_succ_cons]

theorem replaceGo_free {k r x : Str} (h : ∀ c ∈ x, k.head? ≠ some c) (hk : k ≠ []) (y : Str) :
    replaceGo k r 0 (x ++ y) = x ++ replaceGo k r 0 y := by
  induction x with
  | nil => rfl
  | cons c x ih =>
    obtain ⟨d, k', rfl⟩ := List.exists_cons_of_ne_nil hk
    have hne : d ≠ c := by have := h c (by simp); simpa using this
    rw [List.cons_append, replaceGo, if_neg (by simp [List.isPrefixOf, hne]), ih fun c hc => h c (by simp [hc])]
    rfl

theorem replaceGo_hit {k r : Str} (hk : k ≠ []) (y : Str) : replaceGo k r 0 (k ++ y) = r ++ replaceGo k r 0 y := by
  obtain ⟨d, k', rfl⟩ := List.exists_cons_of_ne_nil hk
  rw [List.cons_append, replaceGo, if_pos (by simp [List.isPrefixOf]), replaceGo_skip]
  simp

/-- A text without characters of replacement texts stands in the result only where it stood. -/
theorem sim_prefix {T : List (Str × Str)} : ∀ (k s : Str), (∀ p ∈ T, p.2 ≠ [] ∧ ∀ c ∈ p.2, c ∉ k) → k <+: simGo T 0 s → k <+: s
  | [], s, _, _ => List.nil_prefix
  | d :: k, [], _, h => by rw [simGo] at h; exact h
  | d :: k, c :: s, hT, h => by
    rw [simGo] at h
    split at h
    · next p hp =>
      exfalso
      obtain ⟨h1, h2⟩ := hT p (List.mem_of_find?_eq_some hp)
      obtain ⟨x, r, e⟩ := List.exists_cons_of_ne_nil h1
      rw [e, List.cons_append, List.cons_prefix_cons] at h
      exact h2 x (by rw [e]; simp) (by simp [h.1])
    · rw [List.cons_prefix_cons] at h
      rw [List.cons_prefix_cons]
      exact ⟨h.1, sim_prefix k s (fun p hp => ⟨(hT p hp).1, fun c hc hm => (hT p hp).2 c hc (by simp [hm])⟩) h.2⟩

/-- An earlier token that begins inside `k` would already begin at, or before, `k`. -/
def inner (T : List (Str × Str)) (k : Str) : Bool :=
  (List.range k.length).all fun o => o == 0 || T.all fun p =>
    !((k.drop o).isPrefixOf p.1 || p.1.isPrefixOf (k.drop o)) ||
      T.any fun q => q.1.isPrefixOf (k.take o ++ p.1)

theorem prefix_both {a b s : Str} (h1 : a <+: s) (h2 : b <+: s) : a <+: b ∨ b <+: a := List.prefix_or_prefix_of_prefix h1 h2

/-- Nothing is replaced inside `k` when no earlier token begins where `k` does. -/
theorem sim_inner {T : List (Str × Str)} {k s : Str} (hin : inner T k = true)
    (hn : ∀ p ∈ T, ¬ p.1 <+: k ++ s) : simGo T 0 (k ++ s) = k ++ simGo T 0 s := by
  have key : ∀ (x y : Str), k = x ++ y → simGo T 0 (y ++ s) = y ++ simGo T 0 s := by
    intro x y
    induction y generalizing x with
    | nil => intro _; rfl
    | cons c y ih =>
      intro e
      rw [List.cons_append, simGo]
      have hnone : (T.find? fun p => p.1.isPrefixOf (c :: (y ++ s))) = none := by
        rw [List.find?_eq_none]
        intro p hp hpre
        have hpre' : p.1 <+: c :: (y ++ s) := by simpa using hpre
        cases x with
        | nil => exact hn p hp (by rw [e]; exact hpre')
        | cons x0 x =>
          have h1 := List.all_eq_true.1 hin (x0 :: x).length (List.mem_range.2 (by rw [e]; simp))
          simp only [List.length_cons, Bool.or_eq_true, beq_iff_eq, Nat.add_one_ne_zero, false_or] at h1
          have h2 := List.all_eq_true.1 h1 p hp
          have hdrop : k.drop ((x0 :: x).length) = c :: y := by rw [e, List.drop_left]
          have htake : k.take ((x0 :: x).length) = x0 :: x := by rw [e, List.take_left]
          simp only [List.length_cons] at hdrop htake
          rw [hdrop, htake] at h2
          have hcomp : ((c :: y).isPrefixOf p.1 || p.1.isPrefixOf (c :: y)) = true := by
            rcases prefix_both (List.prefix_append (c :: y) s) hpre' with h | h
            · simp [h]
            · simp [h]
          rw [hcomp, Bool.not_true, Bool.false_or] at h2
          obtain ⟨q, hq, hq'⟩ := List.any_eq_true.1 h2
          refine hn q hq ?_
          have : q.1 <+: (x0 :: x) ++ p.1 := by simpa using hq'
          refine this.trans ?_
          rw [e, List.append_assoc]
          exact List.prefix_append_right_inj _ |>.2 hpre'
      rw [hnone]
      rw [ih (x ++ [c]) (by rw [e]; simp)]
      rfl
  exact key [] k rfl

/-- One more replacement after simultaneous ones. -/
theorem sim_step {T : List (Str × Str)} {k r : Str} (hk : k ≠ []) (hT : ∀ p ∈ T, p.1 ≠ [] ∧ p.2 ≠ [] ∧ ∀ c ∈ p.2, c ∉ k)
    (hin : inner T k = true) (s : Str) : replaceGo k r 0 (simGo T 0 s) = simGo (T ++ [(k, r)]) 0 s := by
  generalize hn : s.length = n
  induction n using Nat.strongRecOn generalizing s with
  | ind n ih =>
    cases s with
    | nil => rfl
    | cons c s =>
      rw [simGo, simGo, List.find?_append]
      cases hf : T.find? fun p => p.1.isPrefixOf (c :: s) with
      | some p =>
        simp only [Option.some_or]
        have hp := hT p (List.mem_of_find?_eq_some hf)
        rw [simGo_skip T, simGo_skip (T ++ [(k, r)]), replaceGo_free ?_ hk, ih _ ?_ _ rfl]
        · rw [← hn]; simp; omega
        · intro c hc e
          exact hp.2.2 c hc (List.mem_of_head? e)
      | none =>
        have hnone : ∀ p ∈ T, ¬ p.1 <+: c :: s := by
          intro p hp h
          have := List.find?_eq_none.1 hf p hp
          simp [h] at this
        by_cases hpre : k <+: c :: s
        · simp only [Option.none_or, List.find?_cons, List.isPrefixOf_iff_prefix.2 hpre]
          obtain ⟨s', e⟩ := hpre
          have e2 : c :: simGo T 0 s = simGo T 0 (c :: s) := by rw [simGo, hf]
          rw [e2, ← e, sim_inner hin (by rw [e]; exact hnone), replaceGo_hit hk, simGo_skip (T ++ [(k, r)])]
          have e3 : s.drop (k.length - 1) = s' := by
            have := congrArg (List.drop k.length) e
            rw [List.drop_left] at this
            obtain ⟨d, k', rfl⟩ := List.exists_cons_of_ne_nil hk
            simpa using this.symm
          rw [e3, ih s'.length ?_ s' rfl]
          have := congrArg List.length e
          have hpos := List.length_pos_iff.2 hk
          simp only [List.length_append] at this
          omega
        · have hne : k.isPrefixOf (c :: s) = false := by
            cases h : k.isPrefixOf (c :: s) with
            | false => rfl
            | true => exact absurd (List.isPrefixOf_iff_prefix.1 h) hpre
          simp only [Option.none_or, List.find?_cons, hne, List.find?_nil]
          rw [replaceGo, if_neg, ih s.length (by rw [← hn]; simp) s rfl]
          intro h
          have h' : k <+: simGo T 0 (c :: s) := by
            rw [simGo, hf]; exact List.isPrefixOf_iff_prefix.1 h
          exact hpre (sim_prefix k (c :: s) (fun p hp => (hT p hp).2) h')

theorem sim_nil (s : Str) : simGo [] 0 s = s := by
  induction s with
  | nil => rfl
  | cons c s ih => rw [simGo]; simp [ih]

/-- One by one is all at once. -/
theorem mask_simultaneous (p : Str) : maskReplacements.foldl (fun p r => replace p r.1 r.2) p = simultaneous maskTable p := by
  unfold simultaneous maskReplacements
  simp only [List.foldl_cons, List.foldl_nil, replace]
  conv => lhs; rw [← sim_nil p]
  rw [sim_step (by decide) (by decide) (by decide), sim_step (by decide) (by decide) (by decide),
    sim_step (by decide) (by decide) (by decide), sim_step (by decide) (by decide) (by decide),
    sim_step (by decide) (by decide) (by decide), sim_step (by decide) (by decide) (by decide),
    sim_step (by decide) (by decide) (by decide), sim_step (by decide) (by decide) (by decide),
    sim_step (by decide) (by decide) (by decide)]
  rfl

theorem sim_append {T : List (Str × Str)} (hT : ∀ p ∈ T, p.1 ≠ []) (b : Str) : ∀ (a : Str), NoStraddle T a b →
    simGo T 0 (a ++ b) = simGo T 0 a ++ simGo T 0 b := by
  intro a
  generalize hn : a.length = n
  induction n using Nat.strongRecOn generalizing a with
  | ind n ih =>
    intro h
    cases a with
    | nil => rfl
    | cons c a =>
      have hsuf : ∀ a', a' <:+ c :: a → NoStraddle T a' b := by
        intro a' hs p hp x y e hx hy hh
        exact h p hp x y e hx hy ⟨hh.1.trans hs, hh.2⟩
      have hfind : (T.find? fun p => p.1.isPrefixOf (c :: (a ++ b))) = T.find? fun p => p.1.isPrefixOf (c :: a) := by
        have : ∀ p ∈ T, p.1.isPrefixOf (c :: (a ++ b)) = p.1.isPrefixOf (c :: a) := by
          intro p hp
          rw [Bool.eq_iff_iff, List.isPrefixOf_iff_prefix, List.isPrefixOf_iff_prefix]
          constructor
          · intro hpre
            rcases prefix_both hpre (List.prefix_append (c :: a) b) with h' | ⟨y, e⟩
            · exact h'
            · cases y with
              | nil => rw [← e]; simp
              | cons y0 y =>
                exfalso
                refine h p hp (c :: a) (y0 :: y) e.symm (by simp) (by simp) ⟨List.suffix_rfl, ?_⟩
                rw [← e] at hpre
                exact (List.prefix_append_right_inj (c :: a)).1 hpre
          · intro hpre
            exact hpre.trans (List.prefix_append (c :: a) b)
        clear ih h hsuf
        induction T with
        | nil => rfl
        | cons q T ihT =>
          rw [List.find?_cons, List.find?_cons, this q (by simp), ihT (fun p hp => hT p (by simp [hp])) (fun p hp => this p (by simp [hp]))]
      rw [List.cons_append, simGo, simGo, hfind]
      cases hf : T.find? fun p => p.1.isPrefixOf (c :: a) with
      | none =>
        simp only
        rw [ih a.length (by rw [← hn]; simp) a rfl (hsuf a (List.suffix_cons c a))]
        rfl
      | some p =>
        have hp := hT p (List.mem_of_find?_eq_some hf)
        have hpre : p.1 <+: c :: a := by simpa using List.find?_some hf
        have hlen := hpre.length_le
        simp only [List.length_cons] at hlen
        simp only
        rw [simGo_skip, simGo_skip T _ a, List.drop_append_of_le_length (by omega),
          ih (a.drop (p.1.length - 1)).length (by rw [← hn]; simp; omega) _ rfl
            (hsuf _ ((List.drop_suffix _ _).trans (List.suffix_cons c a)))]
        simp

/-! ### Quoted text and character classes -/

theorem sim_mem {T : List (Str × Str)} {P : Char → Prop} (hT : ∀ p ∈ T, ∀ c ∈ p.2, P c) (s : Str) (h : ∀ c ∈ s, P c) :
    ∀ c ∈ simGo T 0 s, P c := by
  generalize hn : s.length = n
  induction n using Nat.strongRecOn generalizing s with
  | ind n ih =>
    cases s with
    | nil => intro c hc; simp [simGo] at hc
    | cons d s =>
      intro c hc
      rw [simGo] at hc
      split at hc
      · next p hp =>
        rw [simGo_skip, List.mem_append] at hc
        rcases hc with hc | hc
        · exact hT p (List.mem_of_find?_eq_some hp) c hc
        · exact ih (s.drop (p.1.length - 1)).length (by rw [← hn]; simp; omega) _
            (fun c hc => h c (List.mem_cons_of_mem _ (List.mem_of_mem_drop hc))) rfl c hc
      · rcases List.mem_cons.1 hc with rfl | hc
        · exact h c (by simp)
        · exact ih s.length (by rw [← hn]; simp) s (fun c hc => h c (by simp [hc])) rfl c hc

/-- A closing square bracket never follows a blank. -/
abbrev Tight : Char → Char → Prop := fun x y => y = ']' → x ≠ ' '

theorem sim_tight {T : List (Str × Str)} (hT : ∀ p ∈ T, Adj Tight p.2 ∧ p.2.head? ≠ some ']') (s : Str) (h : ']' ∉ s) :
    Adj Tight (simGo T 0 s) ∧ (simGo T 0 s).head? ≠ some ']' := by
  generalize hn : s.length = n
  induction n using Nat.strongRecOn generalizing s with
  | ind n ih =>
    cases s with
    | nil => simp [simGo, Adj]
    | cons d s =>
      rw [simGo]
      split
      · next p hp =>
        obtain ⟨h1, h2⟩ := hT p (List.mem_of_find?_eq_some hp)
        rw [simGo_skip]
        obtain ⟨h3, h4⟩ := ih (s.drop (p.1.length - 1)).length (by rw [← hn]; simp; omega) _
            (fun hc => h (List.mem_cons_of_mem _ (List.mem_of_mem_drop hc))) rfl
        refine ⟨adj_append h1 h3 ?_, ?_⟩
        · intro x y hx hy e
          subst e
          exact absurd hy h4
        · cases hp2 : p.2 with
          | nil => simpa using h4
          | cons x r => rw [hp2] at h2; simpa using h2
      · obtain ⟨h3, h4⟩ := ih s.length (by rw [← hn]; simp) s (fun hc => h (by simp [hc])) rfl
        refine ⟨?_, by simp; rintro rfl; exact h (by simp)⟩
        refine adj_append (a := [d]) (by simp [Adj]) h3 ?_
        intro x y hx hy e
        subst e
        exact absurd hy h4

theorem mask_plain [UnicodeDB] {p : Str} (h1 : '"' ∉ p) (h2 : ']' ∉ p) : maskToRegex p = simultaneous maskTable p := by
  unfold maskToRegex
  simp only []
  rw [mask_simultaneous]
  have hq : ∀ c ∈ simultaneous maskTable p, c ≠ '"' :=
    sim_mem (P := fun c => c ≠ '"') (by decide) p (by rintro c hc rfl; exact h1 hc)
  obtain ⟨ht, -⟩ := sim_tight (T := maskTable) (by simp [maskTable, Adj, Tight]) p h2
  have e1 : sub Rx.re_extract_quoted_text (fun m => m.tgroup 1) (simultaneous maskTable p) = simultaneous maskTable p := by
    refine sub_id (by decide) fun a b m e hs => ?_
    obtain ⟨w1, w2, e1, h3, -⟩ := hs
    rw [sem_ch] at h3
    refine absurd rfl (hq '"' ?_)
    rw [e, e1, h3]
    simp
  rw [e1]
  refine sub_id (by decide) fun a b m e hs => ?_
  obtain ⟨w1, w2, e2, -, w3, w4, e3, -, h3⟩ := hs
  have h3 : w4 = py! " ]" := h3
  have := adj_iff.1 ht (a ++ w1 ++ w3) ' ' ']' b (by
    show simultaneous maskTable p = _
    rw [e, e2, e3, h3]; simp)
  exact absurd rfl (this rfl)

theorem match_quoted [UnicodeDB] {adv : Bool} {pre post : Str} {m : Match}
    (h : matchHere Rx.re_extract_quoted_text adv pre post = some m) :
    m.txt = '"' :: m.tgroup 1 ++ ['"'] ∧ '"' ∉ m.tgroup 1 := by
  obtain ⟨t, ht, h1, -, -, h3⟩ := matchHere_cap h
  obtain ⟨u, q, hq, ht⟩ := run_seq_step ht
  obtain ⟨v, w, hw, hc, ht⟩ := run_group_step ht
  obtain ⟨q', hq'⟩ := run_step ht
  have hg : m.tgroup 1 = w := by rw [Match.tgroup, h3, hq'.cap _ (by decide), hc]; rfl
  have htxt : m.txt = q ++ w ++ q' := by
    have e : post = q ++ (w ++ (q' ++ t.post)) := by rw [← hq'.post, ← hw.post, ← hq.post]
    rw [h1, ← List.append_assoc, ← List.append_assoc] at e
    exact List.append_cancel_right e
  rw [hg, htxt, sem_ch.1 hq.sem, sem_ch.1 hq'.sem]
  refine ⟨rfl, fun hm => ?_⟩
  have := (sem_plus_set.1 hw.sem).2 _ hm
  simp [CSet.mem, CItem.mem] at this

theorem quoted_free [UnicodeDB] {f : Match → Str} {y : Str} (h : '"' ∉ y) : sub Rx.re_extract_quoted_text f y = y := by
  refine sub_id (by decide) fun a b m e hs => ?_
  obtain ⟨w1, w2, e1, h3, -⟩ := hs
  rw [sem_ch] at h3
  refine absurd ?_ h
  rw [e, e1, h3]
  simp

theorem scanned_quoted [UnicodeDB] {q y : Str} (hq : q ≠ []) (hq' : '"' ∉ q) (hy : '"' ∉ y) : ∀ (x pre : Str) (ps : List Piece),
    '"' ∉ x → Scanned Rx.re_extract_quoted_text pre (x ++ ('"' :: q ++ '"' :: y)) ps →
    ps.flatMap (Piece.out fun m => m.tgroup 1) = x ++ (q ++ y) := by
  intro x
  induction x with
  | nil =>
    intro pre ps _ h
    generalize hs : ([] : Str) ++ ('"' :: q ++ '"' :: y) = s at h
    cases h with
    | nil => simp at hs
    | @ch pre c t ps h1 h2 =>
      exfalso
      refine (matchHere_none _ _ _).1 h1 ⟨'"' :: q ++ ['"'], y, by rw [← hs]; simp, ?_⟩
      refine ⟨['"'], q ++ ['"'], rfl, sem_ch.2 rfl, q, ['"'], rfl, ?_, sem_ch.2 rfl⟩
      refine sem_plus_set.2 ⟨hq, fun c hc => ?_⟩
      have : c ≠ '"' := by rintro rfl; exact hq' hc
      simp [CSet.mem, CItem.mem, this]
    | @hit pre t ps m h1 h2 h3 =>
      obtain ⟨e1, e2⟩ := match_quoted h1
      rw [e1] at hs
      have hs : q ++ '"' :: y = m.tgroup 1 ++ '"' :: t := by simpa using hs
      have hcut : ∀ {a b c d : Str}, '"' ∉ a → '"' ∉ b → a ++ '"' :: c = b ++ '"' :: d → a = b ∧ c = d := by
        intro a
        induction a with
        | nil =>
          intro b c d _ hb e
          cases b with
          | nil => simpa using e
          | cons x b => simp at e; exact absurd e.1 (by rintro rfl; simp at hb)
        | cons x a ih =>
          intro b c d ha hb e
          cases b with
          | nil => simp at e; exact absurd e.1 (by rintro rfl; simp at ha)
          | cons z b =>
            simp only [List.cons_append, List.cons.injEq] at e
            simp only [List.mem_cons, not_or] at ha hb
            obtain ⟨h4, h5⟩ := ih ha.2 hb.2 e.2
            exact ⟨by rw [e.1, h4], h5⟩
      obtain ⟨e3, rfl⟩ := hcut hq' e2 hs
      rw [List.flatMap_cons, Piece.out, ← e3, List.nil_append]
      congr 1
      refine scanned_id h3 fun a b m' e hm => ?_
      obtain ⟨h5, -⟩ := match_quoted hm
      refine absurd ?_ hy
      rw [e, h5]
      simp
  | cons c x ih =>
    intro pre ps hx h
    simp only [List.mem_cons, not_or] at hx
    generalize hs : (c :: x) ++ ('"' :: q ++ '"' :: y) = s at h
    cases h with
    | nil => simp at hs
    | @ch pre c' t ps h1 h2 =>
      rw [List.cons_append] at hs
      obtain ⟨rfl, rfl⟩ := List.cons.inj hs
      rw [List.flatMap_cons, ih _ _ hx.2 h2]
      rfl
    | @hit pre t ps m h1 h2 h3 =>
      obtain ⟨e1, -⟩ := match_quoted h1
      rw [e1] at hs
      simp at hs
      exact absurd hs.1.symm hx.1

/-- Characters that begin no token. -/
def Literal (q : Str) : Prop := ∀ c ∈ q, c ∉ ['9', 'w', 'a', 'v', 'm', 'y', 's', '/', '"', ']']

theorem sim_literal {q : Str} (h : Literal q) : simGo maskTable 0 q = q := by
  induction q with
  | nil => rfl
  | cons c q ih =>
    have hc := h c (by simp)
    have : (maskTable.find? fun p => p.1.isPrefixOf (c :: q)) = none := by
      rw [List.find?_eq_none]
      intro p hp
      have hh : ∀ p ∈ maskTable, ∃ d t, p.1 = d :: t ∧ d ∈ ['9', 'w', 'a', 'v', 'm', 'y', 's', '/', '"', ']'] := by
        simp [maskTable]
      obtain ⟨d, t, e, hd⟩ := hh p hp
      rw [e]
      simp only [List.isPrefixOf, Bool.and_eq_true, beq_iff_eq, not_and]
      rintro rfl
      exact absurd hd hc
    rw [simGo, this]
    simp only
    rw [ih fun c hc => h c (by simp [hc])]

theorem straddle_mid {a b : Str} {c : Char} (h : ∀ p ∈ maskTable, c ∉ p.1) : NoStraddle maskTable a (c :: b) ∧ NoStraddle maskTable (a ++ [c]) b := by
  constructor
  · intro p hp x y e hx hy hh
    obtain ⟨-, z, hz⟩ := hh
    obtain ⟨y0, y', rfl⟩ := List.exists_cons_of_ne_nil hy
    simp at hz
    exact h p hp (by rw [e, hz.1]; simp)
  · intro p hp x y e hx hy hh
    obtain ⟨⟨z, hz⟩, -⟩ := hh
    obtain ⟨x', x0, rfl⟩ : ∃ x' x0, x = x' ++ [x0] := ⟨x.dropLast, x.getLast hx, (List.dropLast_concat_getLast hx).symm⟩
    rw [← List.append_assoc] at hz
    have := List.append_inj_right' hz rfl
    simp at this
    exact h p hp (by rw [e, this]; simp)

theorem mask_quoted [UnicodeDB] {a q b : Str} (hq : q ≠ []) (hl : Literal q) (ha : '"' ∉ a ∧ ']' ∉ a) (hb : '"' ∉ b ∧ ']' ∉ b) :
    maskToRegex (a ++ '"' :: q ++ '"' :: b) = maskToRegex a ++ q ++ maskToRegex b := by
  have hT : ∀ p ∈ maskTable, p.1 ≠ [] := by decide
  have hn : ∀ p ∈ maskTable, '"' ∉ p.1 := by decide
  rw [mask_plain ha.1 ha.2, mask_plain hb.1 hb.2]
  unfold maskToRegex
  simp only []
  rw [mask_simultaneous]
  have e1 : simultaneous maskTable (a ++ '"' :: q ++ '"' :: b) = simultaneous maskTable a ++ ('"' :: q ++ '"' :: simultaneous maskTable b) := by
    unfold simultaneous
    rw [List.append_assoc, sim_append hT ('"' :: q ++ '"' :: b) a (straddle_mid (b := q ++ '"' :: b) hn).1]
    have e2 : simGo maskTable 0 ('"' :: q ++ '"' :: b) = simGo maskTable 0 ('"' :: q) ++ simGo maskTable 0 ('"' :: b) :=
      sim_append hT _ _ (straddle_mid hn).1
    have e3 : ∀ z, simGo maskTable 0 ('"' :: z) = '"' :: simGo maskTable 0 z := fun z => by
      have := sim_append hT z ['"'] (straddle_mid (a := []) hn).2
      exact this
    rw [e2, e3, e3, sim_literal hl]
  have hqa : '"' ∉ simultaneous maskTable a := fun hm =>
    sim_mem (P := fun c => c ≠ '"') (by decide) a (by rintro c hc rfl; exact ha.1 hc) _ hm rfl
  have hqb : '"' ∉ simultaneous maskTable b := fun hm =>
    sim_mem (P := fun c => c ≠ '"') (by decide) b (by rintro c hc rfl; exact hb.1 hc) _ hm rfl
  have e2 : sub Rx.re_extract_quoted_text (fun m => m.tgroup 1) (simultaneous maskTable (a ++ '"' :: q ++ '"' :: b)) =
      simultaneous maskTable a ++ (q ++ simultaneous maskTable b) := by
    rw [e1]
    exact scanned_quoted hq (fun hm => by have := hl _ hm; simp at this) hqb _ _ _ hqa (scan_scanned' (by decide) _)
  rw [e2, List.append_assoc]
  refine sub_id (by decide) fun x y m e hs => ?_
  obtain ⟨w1, w2, e2, -, w3, w4, e3, -, h3⟩ := hs
  have h3 : w4 = py! " ]" := h3
  have hT' : ∀ p ∈ maskTable, Adj Tight p.2 ∧ p.2.head? ≠ some ']' := by simp [maskTable, Adj, Tight]
  obtain ⟨ta, -⟩ := sim_tight hT' a ha.2
  obtain ⟨tb, tb'⟩ := sim_tight hT' b hb.2
  have hq2 : ∀ c ∈ q, c ≠ ']' := by rintro c hc rfl; have := hl _ hc; simp at this
  have tq : Adj Tight (q ++ simGo maskTable 0 b) := by
    refine adj_append ?_ tb fun x y _ hy e => absurd (e ▸ hy) tb'
    rw [adj_iff]
    intro a' x y b' e' ey
    exact absurd ey (hq2 y (by rw [e']; simp))
  have tt : Adj Tight (simGo maskTable 0 a ++ (q ++ simGo maskTable 0 b)) := by
    refine adj_append ta tq fun x y _ hy ey => ?_
    subst ey
    obtain ⟨q0, q', rfl⟩ := List.exists_cons_of_ne_nil hq
    simp at hy
    exact absurd hy (hq2 q0 (by simp))
  have := adj_iff.1 tt (x ++ w1 ++ w3) ' ' ']' y (by
    show simultaneous maskTable a ++ (q ++ simultaneous maskTable b) = _
    rw [e, e2, e3, h3]; simp)
  exact absurd rfl (this rfl)

/-! ### The width of a mask -/

theorem sem_class [UnicodeDB] {pre w post : Str} : Sem Rx.re_regexp_character_class pre w post ↔ IsClass w := by
  have hset : ∀ c, (CSet.mem ⟨true, false, [.ch ']']⟩ c) = true ↔ c ≠ ']' := by
    intro c; simp [CSet.mem, CItem.mem]
  constructor
  · rintro ⟨w1, w2, rfl, h1, w3, w4, rfl, h2, h3⟩
    rw [sem_ch] at h1 h3
    obtain ⟨h5, h4⟩ := sem_plus_set.1 h2
    subst h1 h3
    exact ⟨w3, rfl, h5, fun hm => (hset _).1 (h4 _ hm) rfl⟩
  · rintro ⟨body, rfl, h1, h2⟩
    exact ⟨['['], body ++ [']'], rfl, sem_ch.2 rfl, body, [']'], rfl,
      sem_plus_set.2 ⟨h1, fun c hc => (hset c).2 (by rintro rfl; exact h2 hc)⟩, sem_ch.2 rfl⟩

theorem scanned_width [UnicodeDB] {pre s : Str} {ps : List Piece} (h : Scanned Rx.re_regexp_character_class pre s ps) :
    Width s (ps.flatMap (Piece.out fun _ => ['1'])).length := by
  induction h with
  | nil => exact .nil
  | @ch pre c t ps h1 _ ih =>
    rw [List.flatMap_cons, List.length_append, Nat.add_comm]
    refine .chr ?_ ih
    intro w s' e hc
    exact (matchHere_none _ _ _).1 h1 ⟨w, s', e, sem_class.2 hc⟩
  | @hit pre t ps m h1 _ _ ih =>
    rw [List.flatMap_cons, List.length_append, Nat.add_comm]
    obtain ⟨rest, -, h2⟩ := matchHere_sem h1
    exact .cls (sem_class.1 h2) ih

theorem mask_width [UnicodeDB] (p : Str) : Width p (sub Rx.re_regexp_character_class (fun _ => ['1']) p).length :=
  scanned_width (scan_scanned' (by decide) p)

theorem class_unique {w w' s s' : Str} (h : IsClass w) (h' : IsClass w') (e : w ++ s = w' ++ s') : w = w' ∧ s = s' := by
  obtain ⟨b, rfl, -, h1⟩ := h
  obtain ⟨b', rfl, -, h2⟩ := h'
  have e' : b ++ ']' :: s = b' ++ ']' :: s' := by simpa using e
  clear e
  induction b generalizing b' with
  | nil =>
    cases b' with
    | nil => simpa using e'
    | cons x b' => simp at e'; exact absurd e'.1 (by rintro rfl; simp at h2)
  | cons x b ih =>
    cases b' with
    | nil => simp at e'; exact absurd e'.1 (by rintro rfl; simp at h1)
    | cons y b' =>
      simp only [List.cons_append, List.cons.injEq] at e'
      obtain ⟨rfl, e'⟩ := e'
      obtain ⟨h3, h4⟩ := ih (by simp at h1; exact h1.2) b' (by simp at h2; exact h2.2) e'
      simp at h3
      exact ⟨by rw [h3], h4⟩

theorem width_unique {s : Str} {n m : Nat} (h : Width s n) (h' : Width s m) : n = m := by
  induction h generalizing m with
  | nil =>
    generalize hq : ([] : Str) = q at h'
    cases h' with
    | nil => rfl
    | cls hc _ =>
      obtain ⟨b, rfl, -⟩ := hc
      simp at hq
    | chr _ _ => simp at hq
  | @cls w s n hc _ ih =>
    generalize hq : w ++ s = q at h'
    cases h' with
    | nil =>
      obtain ⟨b, rfl, -⟩ := hc
      simp at hq
    | @cls w' s' n' hc' h2 =>
      obtain ⟨rfl, rfl⟩ := class_unique hc hc' hq
      rw [ih h2]
    | @chr c s' n' hno h2 => exact absurd hc (hno w s hq.symm)
  | @chr c s n hno _ ih =>
    generalize hq : c :: s = q at h'
    cases h' with
    | nil => simp at hq
    | @cls w' s' n' hc' h2 => exact absurd hc' (hno w' s' hq)
    | @chr c' s' n' _ h2 =>
      obtain ⟨rfl, rfl⟩ := List.cons.inj hq
      rw [ih h2]

/-! ### Institutes -/

/-- How the builder reads a line. -/
def reportKind [UnicodeDB] (raw : Str) : ReportLine :=
  if (search re_institute_name raw).isSome then .institute
  else match search re_preprint_classification raw with
    | some m => .categ (m.tgroup 1) (m.tgroup 2)
    | none => match search re_numeration_pattern raw with
      | some m => .mask (m.tgroup 1)
      | none => .other

/-- What is stored for one institute at line `n`. -/
def Stored [UnicodeDB] (compile : Str → Py Re) (pats : List ((Nat × Str) × Re)) (std : List ((Nat × Str) × Str))
    (n : Nat) (sec : List (Str × Str) × List Str) : Prop :=
  ∀ c s, LastFor c s sec.1 → dget std (n, c) = some s ∧
    ∃ r, compile (categPattern c (numerationGroup (orderMasks sec.2))) = .ok r ∧ dget pats (n, c) = some r

theorem addInstitute_fold [UnicodeDB] (compile : Str → Py Re) (n : Nat) (num : Str) : ∀ (l : List (Str × Str)) (k k' : ReportKb),
    l.foldlM (fun (k : ReportKb) c => do
      let r ← compile (categPattern c.1 num)
      return ({ k with pats := dset k.pats (n, c.1) r, std := dset k.std (n, c.1) c.2 } : ReportKb)) k = .ok k' →
    k'.line = k.line ∧
    (∀ n' c, n' ≠ n ∨ c ∉ l.map (·.1) → dget k'.std (n', c) = dget k.std (n', c) ∧ dget k'.pats (n', c) = dget k.pats (n', c)) ∧
    ∀ c s, LastFor c s l → dget k'.std (n, c) = some s ∧ ∃ r, compile (categPattern c num) = .ok r ∧ dget k'.pats (n, c) = some r := by
  intro l
  induction l with
  | nil =>
    intro k k' h
    have h : k = k' := by simpa [pure, Except.pure] using h
    subst h
    refine ⟨rfl, fun _ _ _ => ⟨rfl, rfl⟩, ?_⟩
    rintro c s ⟨a, b, e, -⟩
    simp at e
  | cons p l ih =>
    intro k k' h
    rw [List.foldlM_cons] at h
    cases hc : compile (categPattern p.1 num) with
    | error e => rw [hc] at h; simp [bind, Except.bind] at h
    | ok r =>
      rw [hc] at h
      obtain ⟨h1, h2, h3⟩ := ih _ _ h
      refine ⟨h1, ?_, ?_⟩
      · intro n' c hn
        obtain ⟨h4, h5⟩ := h2 n' c (by
          rcases hn with hn | hn
          · exact .inl hn
          · exact .inr fun hm => hn (by simp only [List.map_cons, List.mem_cons]; exact .inr hm))
        have hne : ¬ ((n, p.1) = (n', c)) := by
          intro e
          obtain ⟨e1, e2⟩ := Prod.mk.inj e
          rcases hn with hn | hn
          · exact hn e1.symm
          · exact hn (by simp [← e2])
        rw [h4, h5, dget_dset, dget_dset, if_neg hne, if_neg hne]
        exact ⟨rfl, rfl⟩
      · rintro c s ⟨a, b, e, hb⟩
        cases a with
        | nil =>
          obtain ⟨rfl, rfl⟩ := List.cons.inj e
          obtain ⟨h4, h5⟩ := h2 n c (.inr hb)
          refine ⟨by rw [h4, dget_dset, if_pos rfl], r, hc, by rw [h5, dget_dset, if_pos rfl]⟩
        | cons q a =>
          obtain ⟨-, e⟩ := List.cons.inj e
          exact h3 c s ⟨a, b, e, hb⟩

theorem addInstitute_ok [UnicodeDB] {compile : Str → Py Re} {kb k : ReportKb} (h : addInstitute compile kb = .ok k) :
    k.line = kb.line ∧
    (∀ n c, n ≠ kb.line ∨ Usable (kb.categs, kb.masks) = false →
      dget k.std (n, c) = dget kb.std (n, c) ∧ dget k.pats (n, c) = dget kb.pats (n, c)) ∧
    (Usable (kb.categs, kb.masks) = true → Stored compile k.pats k.std kb.line (kb.categs, kb.masks)) := by
  unfold addInstitute at h
  split at h
  · next hu =>
    have h : kb = k := by simpa using h
    subst h
    refine ⟨rfl, fun _ _ _ => ⟨rfl, rfl⟩, ?_⟩
    intro hu'
    simp only [Usable, Bool.and_eq_true, Bool.not_eq_true'] at hu'
    rw [hu'.1, hu'.2] at hu
    cases hu
  · next hu =>
    obtain ⟨h1, h2, h3⟩ := addInstitute_fold compile kb.line _ _ _ _ h
    refine ⟨h1, ?_, fun _ => h3⟩
    intro n c hn
    rcases hn with hn | hn
    · exact h2 n c (.inl hn)
    · exfalso
      apply hu
      simp only [Usable, Bool.and_eq_false_iff, Bool.not_eq_false'] at hn
      simpa using hn

theorem reports_go [UnicodeDB] (compile : Str → Py Re) : ∀ (lines : List Str) (kb k1 k2 : ReportKb),
    lines.foldlM (reportLine compile) kb = .ok k1 → addInstitute compile k1 = .ok k2 →
    ∃ ns : List Nat, ns.Pairwise (· < ·) ∧ (∀ n ∈ ns, (if kb.categs = [] then kb.line + 1 else kb.line) ≤ n) ∧
      (∀ n c, n < (if kb.categs = [] then kb.line + 1 else kb.line) →
        dget k2.std (n, c) = dget kb.std (n, c) ∧ dget k2.pats (n, c) = dget kb.pats (n, c)) ∧
      All2 (Stored compile k2.pats k2.std) ns
        ((institutes kb.categs kb.masks ((lines.filter fun l => !startsWith l ['#']).map reportKind)).filter Usable) := by
  intro lines
  induction lines with
  | nil =>
    intro kb k1 k2 h1 h2
    have h1 : kb = k1 := by simpa [pure, Except.pure] using h1
    subst h1
    obtain ⟨-, h3, h4⟩ := addInstitute_ok h2
    simp only [List.filter_nil, List.map_nil, institutes]
    cases hu : Usable (kb.categs, kb.masks) with
    | false =>
      exact ⟨[], .nil, by simp, fun n c _ => h3 n c (.inr hu), by rw [List.filter_cons, hu]; exact .nil⟩
    | true =>
      have hne : kb.categs ≠ [] := by
        intro e
        rw [e] at hu
        simp [Usable] at hu
      rw [if_neg hne]
      exact ⟨[kb.line], List.pairwise_singleton _ _, by simp, fun n c hn => h3 n c (.inl (by omega)),
        by rw [List.filter_cons, hu]; exact .cons (h4 hu) .nil⟩
  | cons l lines ih =>
    intro kb k1 k2 h1 h2
    rw [List.foldlM_cons] at h1
    obtain ⟨kb', hl, h1⟩ := bind_ok h1
    unfold reportLine at hl
    by_cases hcom : startsWith l ['#'] = true
    · rw [if_pos hcom] at hl
      have hl : kb = kb' := by simpa using hl
      subst hl
      rw [List.filter_cons, hcom]
      exact ih _ _ _ h1 h2
    · rw [if_neg hcom] at hl
      have hf : (l :: lines).filter (fun l => !startsWith l ['#']) = l :: lines.filter (fun l => !startsWith l ['#']) := by
        rw [List.filter_cons, if_pos (by simpa using hcom)]
      rw [hf, List.map_cons]
      simp only [] at hl
      unfold reportKind
      split at hl
      · next hi =>
        rw [if_pos hi]
        obtain ⟨k, ha, hl⟩ := bind_ok hl
        have hl : { k with categs := [], masks := [] } = kb' := by simpa [pure, Except.pure] using hl
        obtain ⟨h3, h4, h5⟩ := addInstitute_ok ha
        obtain ⟨ns, i1, i2, i3, i4⟩ := ih _ _ _ h1 h2
        rw [← hl] at i2 i3 i4
        simp only [if_true, h3] at i2 i3 i4
        simp only [institutes]
        cases hu : Usable (kb.categs, kb.masks) with
        | false =>
          refine ⟨ns, i1, fun n hn => ?_, fun n c hn => ?_, ?_⟩
          · have := i2 n hn
            split <;> omega
          · obtain ⟨j1, j2⟩ := i3 n c (by split at hn <;> omega)
            obtain ⟨j3, j4⟩ := h4 n c (.inr hu)
            rw [j1, j2, j3, j4]
            exact ⟨rfl, rfl⟩
          · rw [List.filter_cons, hu]
            exact i4
        | true =>
          have hne : kb.categs ≠ [] := by
            intro e
            rw [e] at hu
            simp [Usable] at hu
          refine ⟨(kb.line + 1) :: ns, .cons (fun n hn => ?_) i1, fun n hn => ?_, fun n c hn => ?_, ?_⟩
          · have := i2 n hn
            omega
          · rw [if_neg hne]
            rcases List.mem_cons.1 hn with rfl | hn
            · omega
            · have := i2 n hn
              omega
          · rw [if_neg hne] at hn
            obtain ⟨j1, j2⟩ := i3 n c (by omega)
            obtain ⟨j3, j4⟩ := h4 n c (.inl (by simp only []; omega))
            rw [j1, j2, j3, j4]
            exact ⟨rfl, rfl⟩
          · rw [List.filter_cons, hu]
            refine .cons ?_ i4
            intro c s hs
            obtain ⟨j1, r, j2, j3⟩ := h5 hu c s hs
            obtain ⟨j4, j5⟩ := i3 (kb.line + 1) c (by omega)
            exact ⟨by rw [j4]; exact j1, r, j2, by rw [j5]; exact j3⟩
      · next hi =>
        rw [if_neg hi]
        have fin : ∀ kb' : ReportKb, kb'.line = kb.line + 1 → kb'.std = kb.std → kb'.pats = kb.pats →
            lines.foldlM (reportLine compile) kb' = .ok k1 → ∃ ns : List Nat, ns.Pairwise (· < ·) ∧ (∀ n ∈ ns, (if kb.categs = [] then kb.line + 1 else kb.line) ≤ n) ∧
              (∀ n c, n < (if kb.categs = [] then kb.line + 1 else kb.line) →
                dget k2.std (n, c) = dget kb.std (n, c) ∧ dget k2.pats (n, c) = dget kb.pats (n, c)) ∧
              All2 (Stored compile k2.pats k2.std) ns
                ((institutes kb'.categs kb'.masks ((lines.filter fun l => !startsWith l ['#']).map reportKind)).filter Usable) := by
          intro kb' e1 e2 e3 h1
          obtain ⟨ns, i1, i2, i3, i4⟩ := ih _ _ _ h1 h2
          rw [e1] at i2 i3
          rw [e2, e3] at i3
          refine ⟨ns, i1, fun n hn => ?_, fun n c hn => ?_, i4⟩
          · have := i2 n hn
            split <;> split at this <;> omega
          · exact i3 n c (by split <;> split at hn <;> omega)
        split at hl
        · next m hm =>
          have hl : _ = kb' := Except.ok.inj hl
          simp only [hm, institutes]
          subst hl
          exact fin { kb with line := kb.line + 1, categs := kb.categs ++ [(m.tgroup 1, m.tgroup 2)] } rfl rfl rfl h1
        · next hm =>
          simp only [hm]
          split at hl
          · next m hm' =>
            have hl : _ = kb' := Except.ok.inj hl
            simp only [hm', institutes]
            subst hl
            exact fin { kb with line := kb.line + 1, masks := kb.masks ++ [m.tgroup 1] } rfl rfl rfl h1
          · next hm' =>
            have hl : _ = kb' := Except.ok.inj hl
            simp only [hm', institutes]
            subst hl
            exact fin { kb with line := kb.line + 1 } rfl rfl rfl h1

end Py
