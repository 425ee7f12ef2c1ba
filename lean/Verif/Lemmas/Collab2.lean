import Verif.Lemmas.Collab

/-!
# Marking collaborations keeps tags apart
-/

open Spec

namespace Py

/-- An opening tag. -/
def Opening (w : Str) : Prop := ∃ n, w = py! "<cds." ++ n ++ ['>'] ∧ TagName n

/-- Every opening tag belongs to a closed one. -/
inductive Flat : Str → Prop
  | nil : Flat []
  | ch {c s} : (¬ ∃ w r, c :: s = w ++ r ∧ Opening w) → Flat s → Flat (c :: s)
  | tag {w s} : ClosedTag w → Flat s → Flat (w ++ s)

theorem opening_rest {w : Str} (h : Opening w) : ∃ u, w = '<' :: u ∧ '<' ∉ u ∧ u.head? = some 'c' := by
  obtain ⟨n, rfl, -, hn⟩ := h
  refine ⟨py! "cds." ++ n ++ ['>'], rfl, ?_, rfl⟩
  simp only [List.mem_append, not_or]
  exact ⟨⟨by decide, fun hm => absurd (hn _ hm) (by decide)⟩, by decide⟩

/-- Inside a closed tag no other one begins. -/
theorem closed_inside {w : Str} (h : ClosedTag w) : ∃ u, w = '<' :: u ∧ ∀ a b, u = a ++ '<' :: b → b.head? = some '/' := by
  have hc : '<' ∉ py! "cds." := by decide
  rcases h with ⟨n, b, n', rfl, hn, hb, hn'⟩ | ⟨n, rfl, hn⟩
  · refine ⟨py! "cds." ++ n ++ ['>'] ++ b ++ py! "</cds." ++ n' ++ ['>'], by simp, fun x y e => ?_⟩
    have hx : '<' ∉ py! "cds." ++ n ++ ['>'] ++ b := by
      simp only [List.mem_append, not_or]
      exact ⟨⟨⟨hc, fun hm => absurd (hn.2 _ hm) (by decide)⟩, by decide⟩, hb⟩
    have hz : '<' ∉ py! "/cds." ++ n' ++ ['>'] := by
      simp only [List.mem_append, not_or]
      exact ⟨⟨by decide, fun hm => absurd (hn'.2 _ hm) (by decide)⟩, by decide⟩
    have e' : (py! "cds." ++ n ++ ['>'] ++ b) ++ '<' :: (py! "/cds." ++ n' ++ ['>']) = x ++ '<' :: y := by
      rw [← e]; simp
    generalize py! "cds." ++ n ++ ['>'] ++ b = p at hx e'
    generalize hq : py! "/cds." ++ n' ++ ['>'] = q at hz e'
    have hq' : q.head? = some '/' := by rw [← hq]; rfl
    clear e hq
    induction p generalizing x with
    | nil =>
      cases x with
      | nil => simp only [List.nil_append, List.cons.injEq, true_and] at e'; rw [← e']; exact hq'
      | cons d x =>
        simp only [List.nil_append, List.cons_append, List.cons.injEq] at e'
        exact absurd (by rw [e'.2]; simp) hz
    | cons d p ih =>
      cases x with
      | nil =>
        simp only [List.nil_append, List.cons_append, List.cons.injEq] at e'
        exact absurd (by rw [e'.1]; simp) hx
      | cons d' x =>
        simp only [List.cons_append, List.cons.injEq] at e'
        exact ih x (fun h => hx (by simp [h])) e'.2
  · refine ⟨py! "cds." ++ n ++ py! " />", by simp, fun x y e => ?_⟩
    have : '<' ∉ py! "cds." ++ n ++ py! " />" := by
      simp only [List.mem_append, not_or]
      exact ⟨⟨hc, fun hm => absurd (hn.2 _ hm) (by decide)⟩, by decide⟩
    exact absurd (by rw [e]; simp) this

theorem name_end {n n' s s' : Str} (hn : TagName n) (hn' : TagName n') (e : n ++ '>' :: s = n' ++ '>' :: s') : n = n' ∧ s = s' := by
  have key : ∀ {m : Str}, TagName m → '>' ∉ m := fun hm h => absurd (hm.2 _ h) (by decide)
  have h1 := key hn
  have h2 := key hn'
  clear hn hn'
  induction n generalizing n' with
  | nil =>
    cases n' with
    | nil => simpa using e
    | cons d n' => simp only [List.nil_append, List.cons_append, List.cons.injEq] at e; exact absurd (by rw [← e.1]; simp) h2
  | cons d n ih =>
    cases n' with
    | nil => simp only [List.nil_append, List.cons_append, List.cons.injEq] at e; exact absurd (by rw [e.1]; simp) h1
    | cons d' n' =>
      simp only [List.cons_append, List.cons.injEq] at e
      obtain ⟨rfl, h4⟩ := ih e.2 (fun h => h1 (by simp [h])) (fun h => h2 (by simp [h]))
      exact ⟨by rw [e.1], h4⟩

theorem flat_noNesting {s : Str} (h : Flat s) : NoNesting s := by
  induction h with
  | nil => intro a n b e; simp at e
  | @ch c s hn _ ih =>
    intro a n b e hT
    cases a with
    | nil => exact absurd ⟨_, b, e, n, rfl, hT⟩ hn
    | cons d a =>
      simp only [List.cons_append, List.cons.injEq] at e
      exact ih a n b e.2 hT
  | @tag w s hw _ ih =>
    intro a n b e hT
    rw [List.append_assoc] at e
    rcases List.append_eq_append_iff.1 e with ⟨a', rfl, e'⟩ | ⟨c', rfl, e'⟩
    · exact ih a' n b (by rw [e']; simp) hT
    · -- the opening begins in `w = a ++ c'`
      cases c' with
      | nil => exact ih [] n b (by simpa using e'.symm) hT
      | cons x c' =>
        have ex : x = '<' := by
          have := congrArg List.head? e'
          simpa using this.symm
        subst ex
        obtain ⟨u, hu, hin⟩ := closed_inside hw
        cases a with
        | cons d a =>
          simp only [List.cons_append, List.cons.injEq] at hu
          have h1 := hin a c' hu.2.symm
          have h2 := congrArg (fun l => l.tail.head?) e'
          cases c' with
          | nil => simp at h1
          | cons y c' =>
            simp at h1 h2
            rw [h1] at h2
            exact absurd h2 (by decide)
        | nil =>
          rw [List.nil_append] at hw e
          rcases hw with ⟨n1, x, n2, hc, h1, h2, h3⟩ | ⟨n1, hc, h1⟩
          · rw [List.nil_append, hc] at e
            have e2 : n1 ++ '>' :: (x ++ py! "</cds." ++ n2 ++ ['>'] ++ s) = n ++ '>' :: b := by
              have : py! "<cds." ++ (n1 ++ '>' :: (x ++ py! "</cds." ++ n2 ++ ['>'] ++ s)) = py! "<cds." ++ (n ++ '>' :: b) := by
                simpa using e
              exact List.append_cancel_left this
            obtain ⟨rfl, rfl⟩ := name_end h1 hT e2
            exact ⟨x, n2, s, rfl, h2, h3⟩
          · exfalso
            rw [List.nil_append, hc] at e
            have e2 : n1 ++ ' ' :: (py! "/>" ++ s) = n ++ '>' :: b := by
              have : py! "<cds." ++ (n1 ++ ' ' :: (py! "/>" ++ s)) = py! "<cds." ++ (n ++ '>' :: b) := by
                simpa using e
              exact List.append_cancel_left this
            have k1 : ' ' ∉ n := fun h => absurd (hT.2 _ h) (by decide)
            have k2 : '>' ∉ n1 := fun h => absurd (h1.2 _ h) (by decide)
            clear hc h1 hT e e' ih
            induction n1 generalizing n with
            | nil =>
              cases n with
              | nil => simp at e2
              | cons d n => simp only [List.nil_append, List.cons_append, List.cons.injEq] at e2; exact k1 (by rw [e2.1]; simp)
            | cons d n1 ih =>
              cases n with
              | nil => simp only [List.nil_append, List.cons_append, List.cons.injEq] at e2; exact k2 (by rw [e2.1]; simp)
              | cons d' n =>
                simp only [List.cons_append, List.cons.injEq] at e2
                exact ih n e2.2 (fun h => k1 (by simp [h])) (fun h => k2 (by simp [h]))

/-! ### Replacing pieces outside of tags -/

theorem blanked_skip {w l r : Str} (h : Blanked (w ++ l) (w ++ r)) (hw : '_' ∉ w) : Blanked l r := by
  induction w with
  | nil => exact h
  | cons c w ih =>
    simp only [List.mem_cons, not_or] at hw
    generalize h1 : c :: w ++ l = x at h
    generalize h2 : c :: w ++ r = y at h
    cases h with
    | nil => simp at h1
    | ch _ h =>
      simp only [List.cons_append, List.cons.injEq] at h1 h2
      exact ih (by rw [h1.2, h2.2]; exact h) hw.2
    | @tag v s t hv h =>
      obtain ⟨u, rfl, -⟩ := closed_inside hv
      simp only [List.cons_append, List.length_cons, List.replicate_succ, List.cons.injEq] at h2
      exact absurd h2.1.symm hw.1

theorem under_blankPart {P : Str → Str → Str → Str → Prop} (hP : ∀ b w r x, P b w r x → '_' ∉ w) : ∀ {w b s l t : Str},
    RewrittenUnder P b (List.replicate w.length '_' ++ s) (w ++ l) t → ∃ t', t = w ++ t' ∧ RewrittenUnder P (b ++ List.replicate w.length '_') s l t'
  | [], b, s, l, t, h => ⟨t, rfl, by simpa using h⟩
  | c :: w, b, s, l, t, h => by
    simp only [List.length_cons, List.replicate_succ, List.cons_append] at h
    generalize h1 : '_' :: (List.replicate w.length '_' ++ s) = x at h
    generalize h2 : c :: (w ++ l) = y at h
    cases h with
    | nil => simp at h1
    | ch _ _ h =>
      simp only [List.cons.injEq] at h1 h2
      obtain ⟨rfl, rfl⟩ := h1
      obtain ⟨rfl, rfl⟩ := h2
      obtain ⟨t', rfl, h'⟩ := under_blankPart hP h
      exact ⟨t', rfl, by simpa [List.replicate_succ] using h'⟩
    | @hit b w' r l' x' t' hne hp h =>
      cases w' with
      | nil => exact absurd rfl hne
      | cons d w' =>
        simp only [List.cons_append, List.cons.injEq] at h1
        exact absurd (by rw [← h1.1]; simp) (hP _ _ _ _ hp)

/-- Up to the first tag put in, nothing has changed. -/
theorem under_prefix {P : Str → Str → Str → Str → Prop} (hx : ∀ b w r x, P b w r x → x.head? = some '<') : ∀ {u b s l t : Str},
    RewrittenUnder P b s l (u ++ t) → '<' ∉ u → ∃ l', l = u ++ l'
  | [], b, s, l, t, _, _ => ⟨l, rfl⟩
  | c :: u, b, s, l, t, h, hu => by
    simp only [List.mem_cons, not_or] at hu
    generalize h1 : c :: u ++ t = y at h
    cases h with
    | nil => simp at h1
    | ch _ _ h =>
      simp only [List.cons_append, List.cons.injEq] at h1
      obtain ⟨rfl, rfl⟩ := h1
      obtain ⟨l', rfl⟩ := under_prefix hx h hu.2
      exact ⟨l', rfl⟩
    | @hit b w' r l' x' t' hne hp h =>
      have := hx _ _ _ _ hp
      cases x' with
      | nil => simp at this
      | cons d x' =>
        simp only [List.cons_append, List.cons.injEq] at h1
        simp only [List.head?_cons, Option.some.injEq] at this
        exact absurd (h1.1.trans this).symm hu.1

theorem noNesting_drop {a s : Str} (h : NoNesting (a ++ s)) : NoNesting s := fun b n c e hT => h (a ++ b) n c (by rw [e]; simp) hT

theorem under_nil {P : Str → Str → Str → Str → Prop} {b s l t : Str} (h : RewrittenUnder P b s l t) (hl : l = []) : t = [] := by
  cases h with
  | nil => rfl
  | ch => simp at hl
  | hit hne => simp at hl; exact absurd hl.1 hne

theorem under_flat {P : Str → Str → Str → Str → Prop} (hP : ∀ b w r x, P b w r x → '_' ∉ w ∧ ClosedTag x) : ∀ {k : Nat} {b s l t : Str},
    l.length ≤ k → NoNesting l → Blanked l s → RewrittenUnder P b s l t → Flat t := by
  intro k
  induction k with
  | zero =>
    intro b s l t hk _ _ h
    have : l = [] := List.eq_nil_of_length_eq_zero (by omega)
    rw [under_nil h this]
    exact .nil
  | succ k ih =>
    intro b s l t hk hN hB h
    cases hB with
    | nil => rw [under_nil h rfl]; exact .nil
    | @tag w l s hw hB =>
      obtain ⟨t', rfl, h'⟩ := under_blankPart (fun b w r x hp => (hP b w r x hp).1) h
      refine .tag hw (ih ?_ (noNesting_drop hN) hB h')
      obtain ⟨u, rfl, -⟩ := closed_inside hw
      simp only [List.cons_append, List.length_cons, List.length_append] at hk
      omega
    | @ch c l s hn hB =>
      generalize h1 : c :: s = x at h
      generalize h2 : c :: l = y at h
      cases h with
      | nil => simp at h1
      | @ch b c' d s' l' t' _ _ h =>
        simp only [List.cons.injEq] at h1 h2
        obtain ⟨rfl, rfl⟩ := h1
        obtain ⟨rfl, rfl⟩ := h2
        refine .ch ?_ (ih (by simpa using hk) (noNesting_drop (a := [c]) hN) hB h)
        rintro ⟨w, r, e, ho⟩
        obtain ⟨u, rfl, hu, -⟩ := opening_rest ho
        simp only [List.cons_append, List.cons.injEq] at e
        obtain ⟨rfl, rfl⟩ := e
        obtain ⟨l', rfl⟩ := under_prefix (fun b w r x hp => by
          obtain ⟨u, hu, -⟩ := closed_inside (hP b w r x hp).2
          rw [hu]; rfl) h hu
        obtain ⟨n, hn', hT⟩ := ho
        obtain ⟨x, n', c', rfl, h3, h4⟩ := hN [] n l' (by rw [← hn']; rfl) hT
        refine hn ⟨_, c', ?_, .inl ⟨n, x, n', rfl, hT, h3, h4⟩⟩
        rw [← List.cons_append, hn']
        simp
      | @hit b w r l' x' t' hne hp h =>
        have hB' : Blanked (w ++ l') (w ++ r) := by rw [← h2, ← h1]; exact .ch hn hB
        have hB2 := blanked_skip hB' (hP _ _ _ _ hp).1
        rw [h2] at hN hk
        refine .tag (hP _ _ _ _ hp).2 (ih ?_ (noNesting_drop hN) hB2 h)
        cases w with
        | nil => exact absurd rfl hne
        | cons d w => simp only [List.cons_append, List.length_cons, List.length_append] at hk; omega

end Py
