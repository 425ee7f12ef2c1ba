import Verif.Lemmas.Url
import Verif.Lemmas.Re2
import Verif.Lemmas.Hdl

/-!
# The match that the engine prefers

`First r s t`: of all ways of matching `r` from `s`, the one tried first ends in `t`. Parts that are
followed by something that cannot fail take what they prefer.
-/

open Spec

namespace Py

variable [UnicodeDB]

/-- The preferred way of matching. -/
def First (r : Re) (s t : St) : Prop := (run r s).head? = some t

theorem First.mem {r : Re} {s t : St} (h : First r s t) : t ∈ run r s := List.mem_of_mem_head? h

theorem First.step {r : Re} {s t : St} (h : First r s t) : ∃ w, Step r s t w := run_step h.mem

theorem matchHere_first {r : Re} {pre post : Str} {m : Match} (h : matchHere r false pre post = some m) :
    ∃ t, First r ⟨pre, post, []⟩ t ∧ post = m.txt ++ t.post ∧ t.pre = m.txt.reverse ++ pre ∧ ∀ g, m.group g = t.cap g := by
  have e : matchHere r false pre post = ((run r ⟨pre, post, []⟩).head?).map (mkMatch pre) := by
    simp only [matchHere, runK_eq, Bool.false_and, Bool.false_eq_true, if_false]
    cases run r ⟨pre, post, []⟩ <;> rfl
  rw [e, Option.map_eq_some_iff] at h
  obtain ⟨t, ht, rfl⟩ := h
  obtain ⟨w, hw⟩ := First.step (r := r) ht
  have : (mkMatch pre t).txt = w := by simp [mkMatch, hw.pre]
  exact ⟨t, ht, by rw [this]; exact hw.post, by rw [this]; exact hw.pre, fun g => rfl⟩

omit [UnicodeDB] in
theorem flatMap_head {α β : Type} {f : α → List β} {b : β} : ∀ {l : List α}, (l.flatMap f).head? = some b →
    ∃ a ∈ l, (f a).head? = some b
  | [], h => by simp at h
  | a :: l, h => by
    rw [List.flatMap_cons, List.head?_append] at h
    cases hf : (f a).head? with
    | none =>
      rw [hf] at h
      obtain ⟨x, hx, hb⟩ := flatMap_head h
      exact ⟨x, List.mem_cons_of_mem _ hx, hb⟩
    | some y => rw [hf] at h; exact ⟨a, by simp, by rw [hf]; exact h⟩

theorem first_seq {a b : Re} {s t : St} (h : First (a ⬝ b) s t) : ∃ u w, Step a s u w ∧ First b u t := by
  obtain ⟨u, hu, hb⟩ := flatMap_head (f := run b) h
  obtain ⟨w, hw⟩ := run_step hu
  exact ⟨u, w, hw, hb⟩

theorem first_group_seq {g : Nat} {a b : Re} {s t : St} (h : First (.group g a ⬝ b) s t) :
    ∃ u w, Step (.group g a) s u w ∧ u.cap g = some w ∧ First b u t := by
  obtain ⟨u, hu, hb⟩ := flatMap_head (f := run b) h
  obtain ⟨w, hw⟩ := run_step hu
  obtain ⟨w', v, -, hv, h1, h2, h3, -⟩ := run_group hu
  refine ⟨u, w, hw, ?_, hb⟩
  rw [h3]
  have := hv.post
  rw [hw.post, h2] at this
  exact congrArg some (List.append_cancel_right this).symm

/-- Something that cannot fail follows: `a` ends where it prefers to. -/
theorem first_seq_total {a b : Re} (hb : ∀ s, run b s ≠ []) {s t : St} (h : First (a ⬝ b) s t) :
    ∃ u, First a s u ∧ First b u t := by
  unfold First at *
  simp only [run] at h
  cases hl : run a s with
  | nil => rw [hl] at h; simp at h
  | cons u l =>
    refine ⟨u, rfl, ?_⟩
    rw [hl, List.flatMap_cons, List.head?_append] at h
    cases hr : run b u with
    | nil => exact absurd hr (hb u)
    | cons x y => rw [hr] at h; simpa using h

theorem first_opt {a : Re} {s t : St} (h : First (Re.opt a) s t) : First a s t ∨ (run a s = [] ∧ t = s) := by
  unfold First at *
  simp only [Re.opt, run, List.head?_append] at h
  cases hl : run a s with
  | nil => rw [hl] at h; right; simpa [eq_comm] using h
  | cons u l => rw [hl] at h; left; simpa using h

theorem first_group {g : Nat} {a : Re} {s t : St} (h : First (.group g a) s t) :
    ∃ u w, First a s u ∧ Step a s u w ∧ t.pre = u.pre ∧ t.post = u.post ∧ t.cap g = some w ∧ ∀ g', g' ≠ g → t.cap g' = u.cap g' := by
  unfold First at *
  simp only [run, List.head?_map, Option.map_eq_some_iff] at h
  obtain ⟨u, hu, rfl⟩ := h
  obtain ⟨w, hw⟩ := run_step (r := a) (List.mem_of_mem_head? hu)
  refine ⟨u, w, hu, hw, rfl, rfl, ?_, fun g' hg' => ?_⟩
  · simp [St.cap, hw.pre]
  · simp [St.cap, Ne.symm hg']

/-- A greedy repetition of a class takes all it can. -/
theorem first_star {k : CSet} {s t : St} (h : First (.star true (.set k)) s t) :
    ∃ w, Step (.star true (.set k)) s t w ∧ (∀ c ∈ w, k.mem c = true) ∧ (∀ c, t.post.head? = some c → k.mem c = false) := by
  have key : ∀ (post pre : Str) (caps : List Cap) t, (greedySt k caps pre post).head? = some t →
      ∃ w, post = w ++ t.post ∧ (∀ c ∈ w, k.mem c = true) ∧ ∀ c, t.post.head? = some c → k.mem c = false := by
    intro post
    induction post with
    | nil => intro pre caps t h; simp [greedySt] at h; subst h; exact ⟨[], by simp⟩
    | cons c r ih =>
      intro pre caps t h
      simp only [greedySt] at h
      split at h
      · next hc =>
        rw [List.head?_append] at h
        cases hg : (greedySt k caps (c :: pre) r).head? with
        | none =>
          exfalso
          have : greedySt k caps (c :: pre) r = [] := by simpa using hg
          cases r <;> simp [greedySt] at this
          split at this <;> simp at this
        | some u =>
          rw [hg] at h
          simp only [Option.some_or, Option.some.injEq] at h
          subst h
          obtain ⟨w, h1, h2, h3⟩ := ih _ _ _ hg
          refine ⟨c :: w, by rw [h1]; rfl, ?_, h3⟩
          intro d hd
          rcases List.mem_cons.1 hd with rfl | hd
          · exact hc
          · exact h2 d hd
      · next hc =>
        simp only [List.head?_cons, Option.some.injEq] at h
        subst h
        exact ⟨[], rfl, by simp, fun d hd => by simp at hd; subst hd; simpa using hc⟩
  obtain ⟨w, hw⟩ := h.step
  have h' := h
  unfold First at h'
  rw [run_star_set] at h'
  obtain ⟨w', h1, h2, h3⟩ := key _ _ _ _ h'
  have : w = w' := by
    have := hw.post
    rw [h1] at this
    exact (List.append_cancel_right this).symm
  subst this
  exact ⟨w, hw, h2, h3⟩

theorem run_assoc (a b c : Re) (s : St) : run ((a ⬝ b) ⬝ c) s = run (a ⬝ b ⬝ c) s := by simp only [run, List.flatMap_assoc]

theorem first_assoc {a b c : Re} {s t : St} : First ((a ⬝ b) ⬝ c) s t ↔ First (a ⬝ b ⬝ c) s t := by simp only [First, run_assoc]

theorem first_alt {a b : Re} {s t : St} (h : First (.alt a b) s t) : First a s t ∨ (run a s = [] ∧ First b s t) := by
  unfold First at *
  simp only [run, List.head?_append] at h
  cases hl : run a s with
  | nil => rw [hl] at h; right; exact ⟨rfl, by simpa using h⟩
  | cons u l => rw [hl] at h; left; simpa using h

theorem first_alt_seq {a b c : Re} {s t : St} (h : First (.alt a b ⬝ c) s t) :
    First (a ⬝ c) s t ∨ (run (a ⬝ c) s = [] ∧ First (b ⬝ c) s t) := by
  refine first_alt (a := a ⬝ c) (b := b ⬝ c) ?_
  unfold First at *
  simpa only [run, List.flatMap_append] using h

/-- A greedy repetition of a class takes the most that lets the rest match. -/
theorem first_star_seq {k : CSet} {b : Re} {s t : St} (h : First (.star true (.set k) ⬝ b) s t) :
    ∃ u w, Step (.star true (.set k)) s u w ∧ First b u t ∧
      ∀ e f, u.post = e ++ f → e ≠ [] → (∀ c ∈ e, k.mem c = true) → run b ⟨e.reverse ++ u.pre, f, u.caps⟩ = [] := by
  have key : ∀ (post pre : Str) (caps : List Cap) t, ((greedySt k caps pre post).flatMap (run b)).head? = some t →
      ∃ u, u ∈ greedySt k caps pre post ∧ u.caps = caps ∧ First b u t ∧
        ∀ e f, u.post = e ++ f → e ≠ [] → (∀ c ∈ e, k.mem c = true) → run b ⟨e.reverse ++ u.pre, f, caps⟩ = [] := by
    intro post
    induction post with
    | nil =>
      intro pre caps t h
      simp only [greedySt, List.flatMap_cons, List.flatMap_nil, List.append_nil] at h
      refine ⟨_, by simp [greedySt], rfl, h, fun e f he hne => ?_⟩
      cases e with
      | nil => exact absurd rfl hne
      | cons c e => simp at he
    | cons c r ih =>
      intro pre caps t h
      simp only [greedySt] at h ⊢
      split at h
      · next hc =>
        rw [if_pos hc]
        rw [List.flatMap_append, List.head?_append] at h
        cases hg : ((greedySt k caps (c :: pre) r).flatMap (run b)).head? with
        | some u =>
          rw [hg] at h
          simp only [Option.some_or, Option.some.injEq] at h
          subst h
          obtain ⟨u, h1, h2, h3⟩ := ih _ _ _ hg
          exact ⟨u, List.mem_append_left _ h1, h2, h3⟩
        | none =>
          rw [hg] at h
          simp only [Option.none_or, List.flatMap_cons, List.flatMap_nil, List.append_nil] at h
          refine ⟨_, List.mem_append_right _ (List.mem_singleton.2 rfl), rfl, h, fun e f he hne hk => ?_⟩
          have hnil : (greedySt k caps (c :: pre) r).flatMap (run b) = [] := by simpa using hg
          rw [List.flatMap_eq_nil_iff] at hnil
          apply hnil
          cases e with
          | nil => exact absurd rfl hne
          | cons d e =>
            simp only [List.cons_append, List.cons.injEq] at he
            obtain ⟨rfl, rfl⟩ := he
            have hmem : ∀ (e pre : Str), (∀ c ∈ e, k.mem c = true) → (⟨e.reverse ++ pre, f, caps⟩ : St) ∈ greedySt k caps pre (e ++ f) := by
              intro e
              induction e with
              | nil =>
                intro pre _
                cases f with
                | nil => simp [greedySt]
                | cons x f => simp only [List.reverse_nil, List.nil_append, greedySt]; split <;> simp
              | cons x e ihe =>
                intro pre hx
                simp only [List.cons_append, greedySt, hx x (by simp), if_true]
                refine List.mem_append_left _ ?_
                have := ihe (x :: pre) fun c hc => hx c (by simp [hc])
                simpa using this
            have := hmem e (c :: pre) fun x hx => hk x (by simp [hx])
            simpa using this
      · next hc =>
        rw [if_neg hc]
        simp only [List.flatMap_cons, List.flatMap_nil, List.append_nil] at h
        refine ⟨_, by simp, rfl, h, fun e f he hne hk => ?_⟩
        cases e with
        | nil => exact absurd rfl hne
        | cons d e =>
          simp only [List.cons_append, List.cons.injEq] at he
          rw [he.1] at hc
          exact absurd (hk d (by simp)) hc
  unfold First at h
  have e : run (.star true (.set k) ⬝ b) s = (greedySt k s.caps s.pre s.post).flatMap (run b) := by rw [← run_star_set]; rfl
  rw [e] at h
  obtain ⟨u, h1, h2, h3, h4⟩ := key _ _ _ _ h
  rw [← run_star_set] at h1
  obtain ⟨w, hw⟩ := run_step h1
  exact ⟨u, w, hw, h3, by rw [h2]; exact h4⟩

/-- Expressions that cannot fail. -/
def Re.total : Re → Bool
  | .eps => true
  | .star _ _ => true
  | .seq a b => a.total && b.total
  | .alt a b => a.total || b.total
  | .group _ a => a.total
  | _ => false

theorem run_total (r : Re) (hr : r.total = true) (s : St) : run r s ≠ [] := by
  induction r generalizing s with
  | eps => simp [run]
  | star g a _ =>
    simp only [run]
    cases g <;> cases s.post.length <;> simp [iter]
  | seq a b iha ihb =>
    simp only [Re.total, Bool.and_eq_true] at hr
    simp only [run]
    cases h : run a s with
    | nil => exact absurd h (iha hr.1 s)
    | cons u l => simp [ihb hr.2 u]
  | alt a b iha ihb =>
    simp only [Re.total, Bool.or_eq_true] at hr
    simp only [run, ne_eq, List.append_eq_nil_iff]
    rintro ⟨h1, h2⟩
    exact hr.elim (fun h => iha h s h1) (fun h => ihb h s h2)
  | group g a ih => simp only [run, ne_eq, List.map_eq_nil_iff]; exact ih hr s
  | _ => simp [Re.total] at hr

theorem run_nil {r : Re} {s : St} (h : run r s = []) : ¬ ∃ w rest, s.post = w ++ rest ∧ Sem r s.pre w rest := by
  rintro ⟨w, rest, e, hs⟩
  have := (sem_both r).2 s.pre w rest s.caps hs
  obtain ⟨caps, ht⟩ := this
  have hs' : (⟨s.pre, w ++ rest, s.caps⟩ : St) = s := by cases s; simp only at e; subst e; rfl
  rw [hs', h] at ht
  simp at ht

end Py
