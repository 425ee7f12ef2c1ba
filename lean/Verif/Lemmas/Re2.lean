import Verif.Lemmas.Re

/-!
# Repetition of a character class in the regular-expression engine
-/

namespace Py

/-- The states reached by a greedy repetition of a class, in order. -/
def greedySt [UnicodeDB] (k : CSet) (caps : List Cap) : Str → Str → List St
  | pre, [] => [⟨pre, [], caps⟩]
  | pre, c :: t => if k.mem c then greedySt k caps (c :: pre) t ++ [⟨pre, c :: t, caps⟩] else [⟨pre, c :: t, caps⟩]

theorem iter_set [UnicodeDB] (k : CSet) (caps : List Cap) (pre post : Str) (n : Nat) (h : post.length ≤ n) :
    iter true (run (.set k)) n ⟨pre, post, caps⟩ = greedySt k caps pre post := by
  induction post generalizing pre n with
  | nil =>
    cases n with
    | zero => simp [iter, greedySt]
    | succ n => simp [iter, run, greedySt]
  | cons c t ih =>
    cases n with
    | zero => simp at h
    | succ n =>
      by_cases hk : k.mem c
      · have h1 : run (.set k) ⟨pre, c :: t, caps⟩ = [⟨c :: pre, t, caps⟩] := by simp [run, hk]
        have h2 := ih (c :: pre) n (by simpa using h)
        simp [iter, h1, greedySt, hk, h2]
      · simp [iter, run, greedySt, hk]

theorem run_star_set [UnicodeDB] (k : CSet) (s : St) :
    run (.star true (.set k)) s = greedySt k s.caps s.pre s.post := by
  simp only [run]
  exact iter_set k s.caps s.pre s.post _ (Nat.le_refl _)

/-- A property of the state after consuming `w` with `rest` left. -/
def After {β : Type} (s : St) (f : St → Option β) (w rest : Str) : Option β :=
  f ⟨w.reverse ++ s.pre, rest, s.caps⟩

/-- The split of the text that a greedy repetition of `k` settles for. -/
structure Longest [UnicodeDB] {β : Type} (k : CSet) (min : Nat) (s : St) (f : St → Option β) (x : β) (w rest : Str) :
    Prop where
  split : s.post = w ++ rest
  mem : ∀ c ∈ w, k.mem c = true
  min : min ≤ w.length
  ok : f ⟨w.reverse ++ s.pre, rest, s.caps⟩ = some x
  longest : ∀ w' rest', s.post = w' ++ rest' → (∀ c ∈ w', k.mem c = true) → w.length < w'.length →
    f ⟨w'.reverse ++ s.pre, rest', s.caps⟩ = none

theorem greedySt_some [UnicodeDB] {β : Type} {k : CSet} {caps : List Cap} {f : St → Option β} {x : β} :
    ∀ {post pre : Str}, (greedySt k caps pre post).findSome? f = some x →
    ∃ w rest, Longest k 0 ⟨pre, post, caps⟩ f x w rest
  | [], pre, h => by
    simp only [greedySt, List.findSome?_cons, List.findSome?_nil] at h
    refine ⟨[], [], rfl, by simp, Nat.zero_le _, ?_, ?_⟩
    · cases hf : f ⟨pre, [], caps⟩ with
      | none => rw [hf] at h; cases h
      | some y => rw [hf] at h; simpa [hf] using h
    · intro w' r' h1 _ h3
      have := congrArg List.length h1
      simp at this h3
      omega
  | c :: t, pre, h => by
    unfold greedySt at h
    split at h
    · rename_i hk
      rw [List.findSome?_append] at h
      cases h1 : (greedySt k caps (c :: pre) t).findSome? f with
      | some y =>
        rw [h1] at h
        simp at h; subst h
        obtain ⟨w, rest, hw⟩ := greedySt_some h1
        refine ⟨c :: w, rest, ?_, ?_, Nat.zero_le _, ?_, ?_⟩
        · have := hw.split; simp at this; simp [this]
        · intro d hd
          rcases List.mem_cons.1 hd with rfl | hd
          · exact hk
          · exact hw.mem d hd
        · have := hw.ok; simpa using this
        · intro w' r' e1 e2 e3
          cases w' with
          | nil => simp at e3
          | cons d w' =>
            simp at e1 e3
            have := hw.longest w' r' e1.2 (fun z hz => e2 z (by simp [hz])) e3
            rw [← e1.1]
            simpa using this
      | none =>
        rw [h1] at h
        refine ⟨[], c :: t, rfl, by simp, Nat.zero_le _, ?_, ?_⟩
        · simp only [List.findSome?_cons, List.findSome?_nil] at h
          cases hf : f ⟨pre, c :: t, caps⟩ with
          | none => rw [hf] at h; simp at h
          | some y => rw [hf] at h; simpa [hf] using h
        · intro w' r' e1 e2 e3
          cases w' with
          | nil => simp at e3
          | cons d w' =>
            simp at e1
            have hn := List.findSome?_eq_none_iff.1 h1
            have hmem : ∀ (w r pre : Str), (∀ c ∈ w, k.mem c = true) →
                (⟨w.reverse ++ pre, r, caps⟩ : St) ∈ greedySt k caps pre (w ++ r) := by
              intro w
              induction w with
              | nil =>
                intro r pre _
                cases r with
                | nil => simp [greedySt]
                | cons a r => simp only [greedySt, List.nil_append]; split <;> simp
              | cons a w ih =>
                intro r pre hw
                simp only [greedySt, List.cons_append]
                rw [if_pos (hw a (by simp))]
                have := ih r (a :: pre) (fun c hc => hw c (by simp [hc]))
                simp only [List.mem_append]
                left
                simpa using this
            have := hn _ (e1.2 ▸ hmem w' r' (c :: pre) (fun z hz => e2 z (by simp [hz])))
            rw [← e1.1]
            simpa using this
    · rename_i hk
      refine ⟨[], c :: t, rfl, by simp, Nat.zero_le _, ?_, ?_⟩
      · simp only [List.findSome?_cons, List.findSome?_nil] at h
        cases hf : f ⟨pre, c :: t, caps⟩ with
        | none => rw [hf] at h; simp at h
        | some y => rw [hf] at h; simpa [hf] using h
      · intro w' r' e1 e2 e3
        cases w' with
        | nil => simp at e3
        | cons d w' =>
          simp at e1
          have := e2 d (by simp)
          rw [← e1.1] at this
          exact absurd this hk

theorem greedySt_mem [UnicodeDB] {k : CSet} {caps : List Cap} : ∀ (w r pre : Str), (∀ c ∈ w, k.mem c = true) →
    (⟨w.reverse ++ pre, r, caps⟩ : St) ∈ greedySt k caps pre (w ++ r)
  | [], r, pre, _ => by
    cases r with
    | nil => simp [greedySt]
    | cons a r => simp only [greedySt, List.nil_append]; split <;> simp
  | a :: w, r, pre, hw => by
    simp only [greedySt, List.cons_append]
    rw [if_pos (hw a (by simp))]
    have := greedySt_mem w r (a :: pre) (fun c hc => hw c (by simp [hc])) (caps := caps)
    simp only [List.mem_append]
    left
    simpa using this

theorem runK_star_set [UnicodeDB] {β : Type} (k : CSet) (s : St) (f : St → Option β) :
    runK (.star true (.set k)) s f = (greedySt k s.caps s.pre s.post).findSome? f := by
  rw [runK_eq, run_star_set]

/-- Greedy `[k]*` followed by `f`. -/
theorem runK_star_some [UnicodeDB] {β : Type} {k : CSet} {s : St} {f : St → Option β} {x : β}
    (h : runK (.star true (.set k)) s f = some x) : ∃ w rest, Longest k 0 s f x w rest := by
  rw [runK_star_set] at h
  exact greedySt_some h

theorem runK_star_none [UnicodeDB] {β : Type} {k : CSet} {s : St} {f : St → Option β}
    (h : runK (.star true (.set k)) s f = none) (w rest : Str) (hs : s.post = w ++ rest)
    (hw : ∀ c ∈ w, k.mem c = true) : f ⟨w.reverse ++ s.pre, rest, s.caps⟩ = none := by
  rw [runK_star_set, List.findSome?_eq_none_iff, hs] at h
  exact h _ (greedySt_mem w rest s.pre hw)

theorem runK_set_some [UnicodeDB] {β : Type} {k : CSet} {s : St} {f : St → Option β} {x : β}
    (h : runK (.set k) s f = some x) : ∃ c rest, s.post = c :: rest ∧ k.mem c = true ∧
      f ⟨c :: s.pre, rest, s.caps⟩ = some x := by
  simp only [runK] at h
  split at h
  · cases h
  · rename_i c t hp
    split at h
    · rename_i hk; exact ⟨c, t, hp, hk, h⟩
    · cases h

/-- Greedy `[k]+` followed by `f`. -/
theorem runK_plus_some [UnicodeDB] {β : Type} {k : CSet} {s : St} {f : St → Option β} {x : β}
    (h : runK (Re.plus (.set k)) s f = some x) : ∃ w rest, Longest k 1 s f x w rest := by
  change runK (.set k) s (fun t => runK (.star true (.set k)) t f) = some x at h
  obtain ⟨c, t, h1, h2, h3⟩ := runK_set_some h
  obtain ⟨w, rest, hw⟩ := runK_star_some h3
  refine ⟨c :: w, rest, ?_, ?_, by simp, ?_, ?_⟩
  · rw [h1]; have := hw.split; simp at this; simp [this]
  · intro d hd
    rcases List.mem_cons.1 hd with rfl | hd
    · exact h2
    · exact hw.mem d hd
  · have := hw.ok; simpa using this
  · intro w' r' e1 e2 e3
    rw [h1] at e1
    cases w' with
    | nil => simp at e3
    | cons d w' =>
      simp at e1 e3
      have := hw.longest w' r' e1.2 (fun z hz => e2 z (by simp [hz])) e3
      rw [← e1.1]
      simpa using this

theorem runK_plus_none [UnicodeDB] {β : Type} {k : CSet} {s : St} {f : St → Option β}
    (h : runK (Re.plus (.set k)) s f = none) (w rest : Str) (hs : s.post = w ++ rest) (hne : w ≠ [])
    (hw : ∀ c ∈ w, k.mem c = true) : f ⟨w.reverse ++ s.pre, rest, s.caps⟩ = none := by
  cases w with
  | nil => exact absurd rfl hne
  | cons c w =>
    simp only [Re.plus] at h
    change runK (.set k) s (fun t => runK (.star true (.set k)) t f) = none at h
    rw [runK_eq] at h
    simp only [run, hs, List.cons_append, hw c (by simp), if_true, List.findSome?_cons, List.findSome?_nil] at h
    have h' : runK (.star true (.set k)) ⟨c :: s.pre, w ++ rest, s.caps⟩ f = none := by
      cases hh : runK (.star true (.set k)) ⟨c :: s.pre, w ++ rest, s.caps⟩ f with
      | none => rfl
      | some y => rw [hh] at h; cases h
    have := runK_star_none h' w rest rfl (fun z hz => hw z (by simp [hz]))
    simpa using this

theorem reMatch_eq [UnicodeDB] (r : Re) (s : Str) :
    reMatch r s = runK r ⟨[], s, []⟩ (fun t => some (mkMatch [] t)) := by
  simp [reMatch, matchHere]

theorem runK_eos_some [UnicodeDB] {β : Type} {s : St} {f : St → Option β} {x : β}
    (h : runK .eos s f = some x) : (s.post = [] ∨ s.post = ['\n']) ∧ f s = some x := by
  simp only [runK] at h
  split at h
  · rename_i hh
    simp only [Bool.or_eq_true, List.isEmpty_iff, beq_iff_eq] at hh
    exact ⟨hh, h⟩
  · cases h

theorem runK_group_eq [UnicodeDB] {β : Type} (g : Nat) (a : Re) (s : St) (f : St → Option β) :
    runK (.group g a) s f = runK a s fun t => f
      { t with caps := ⟨g, s.pre.length, (t.pre.take (t.pre.length - s.pre.length)).reverse⟩ :: t.caps } := by
  simp only [runK]

theorem runK_seq_eq [UnicodeDB] {β : Type} (a b : Re) (s : St) (f : St → Option β) :
    runK (.seq a b) s f = runK a s fun t => runK b t f := by
  simp only [runK]

theorem runK_alt_eq [UnicodeDB] {β : Type} (a b : Re) (s : St) (f : St → Option β) :
    runK (.alt a b) s f = (runK a s f).or (runK b s f) := by
  simp only [runK]
  cases runK a s f <;> rfl

end Py
