import Verif.Spec.KbCache

/-! # Lemmas on the knowledge-base cache -/

open Spec

namespace Py

variable {α L : Type}

theorem dget_dupdate_of_notMem (d u : List (Str × α)) (k : Str) (h : k ∉ u.map (·.1)) :
    dget (dupdate d u) k = dget d k := by
  induction u generalizing d with
  | nil => rfl
  | cons p u ih =>
    simp only [List.map_cons, List.mem_cons, not_or] at h
    show dget (dupdate (dset d p.1 p.2) u) k = _
    rw [ih _ h.2, dget_dset, if_neg (Ne.symm h.1)]

theorem dget_dupdate_of_mem (d u : List (Str × α)) (k : Str) (v : α) (hn : (u.map (·.1)).Nodup) (h : (k, v) ∈ u) :
    dget (dupdate d u) k = some v := by
  induction u generalizing d with
  | nil => cases h
  | cons p u ih =>
    simp only [List.map_cons, List.nodup_cons] at hn
    show dget (dupdate (dset d p.1 p.2) u) k = _
    rcases List.mem_cons.1 h with e | h
    · subst e
      rw [dget_dupdate_of_notMem _ _ _ hn.1, dget_dset, if_pos rfl]
    · exact ih _ hn.2 h

theorem dupdate_nodup (d u : List (Str × α)) (h : (d.map (·.1)).Nodup) : ((dupdate d u).map (·.1)).Nodup := by
  induction u generalizing d with
  | nil => exact h
  | cons p u ih => exact ih _ (dset_nodup _ _ _ h)

/-- The overrides that count. -/
def given (empty : α → Bool) (st : Store α) (o : Overrides) : List (Str × KbArg) :=
  o.filterMap fun p => if truthyKb empty st p.2 then p.2.map (p.1, ·) else none

theorem mem_given {E : Env α L} {st : Store α} {o : Overrides} {k : Str} {kb : KbArg} :
    (k, kb) ∈ given E.empty st o ↔ Given E st o k kb := by
  simp only [given, List.mem_filterMap, Given]
  constructor
  · rintro ⟨⟨j, q⟩, hm, h⟩
    split at h
    · rename_i ht
      cases q with
      | none => cases h
      | some q =>
        simp only [Option.map_some, Option.some.injEq, Prod.mk.injEq] at h
        obtain ⟨rfl, rfl⟩ := h
        refine ⟨hm, ?_⟩
        cases q with
        | path s => simpa [truthyKb] using ht
        | obj i => simpa [truthyKb] using ht
    · cases h
  · rintro ⟨hm, h⟩
    refine ⟨_, hm, ?_⟩
    have : truthyKb E.empty st (some kb) = true := by
      cases kb with
      | path s => simpa [truthyKb] using h
      | obj i => simpa [truthyKb] using h
    simp [this]

theorem given_keys (empty : α → Bool) (st : Store α) (o : Overrides) (h : Dict o) :
    ((given empty st o).map (·.1)).Nodup := by
  apply List.Nodup.sublist _ h
  unfold given
  induction o with
  | nil => exact List.Sublist.refl _
  | cons p o ih =>
    have ih := ih (by simp only [Dict, List.map_cons, List.nodup_cons] at h; exact h.2)
    obtain ⟨k, q⟩ := p
    simp only [List.filterMap_cons, List.map_cons]
    split
    · exact ih.cons _
    · rename_i b hb
      split at hb
      · cases q with
        | none => cases hb
        | some q =>
          simp only [Option.map_some, Option.some.injEq] at hb
          subst hb
          exact ih.cons_cons _
      · cases hb

theorem defaultKbs_keys (dir : Str) : (defaultKbs dir).map (·.1) = kbKinds := rfl

theorem configOf_nodup (empty : α → Bool) (st : Store α) (dir : Str) (o : Overrides) :
    ((configOf empty st dir o).map (·.1)).Nodup := by
  apply dupdate_nodup
  rw [defaultKbs_keys]
  decide

theorem mem_configOf {E : Env α L} {st : Store α} {o : Overrides} (ho : Dict o) {k : Str} {kb : KbArg} :
    (k, kb) ∈ configOf E.empty st E.dir o ↔ Wanted E st o k kb := by
  have hn := configOf_nodup E.empty st E.dir o
  have hg := given_keys E.empty st o ho
  have hd : ((defaultKbs E.dir).map (·.1)).Nodup := by rw [defaultKbs_keys]; decide
  have key : ∀ kb, (k, kb) ∈ configOf E.empty st E.dir o ↔ dget (configOf E.empty st E.dir o) k = some kb := fun kb =>
    ⟨dget_of_mem _ _ _ hn, dget_mem _ _ _⟩
  rw [key]
  unfold Wanted
  by_cases h : ∃ kb', Given E st o k kb'
  · obtain ⟨kb', h'⟩ := h
    have : dget (configOf E.empty st E.dir o) k = some kb' := dget_dupdate_of_mem _ _ _ _ hg (mem_given.2 h')
    rw [this]
    constructor
    · intro e
      cases e
      exact .inl h'
    · rintro (h | h)
      · have h1 := dget_of_mem _ _ _ hg (mem_given.2 h)
        have h2 := dget_of_mem _ _ _ hg (mem_given.2 h')
        rw [← h1, ← h2]
      · exact absurd h' (h.1 kb')
  · have hno : ∀ kb', ¬ Given E st o k kb' := fun kb' h' => h ⟨kb', h'⟩
    have : dget (configOf E.empty st E.dir o) k = dget (defaultKbs E.dir) k := by
      apply dget_dupdate_of_notMem
      rintro hm
      obtain ⟨⟨j, kb'⟩, hm', rfl⟩ := List.mem_map.1 hm
      exact hno kb' (mem_given.1 hm')
    rw [this]
    constructor
    · exact fun e => .inr ⟨hno, dget_mem _ _ _ e⟩
    · rintro (h | h)
      · exact absurd h (hno _)
      · exact dget_of_mem _ _ _ hd h.2

/-! ### The loop -/

variable [DecidableEq α]

/-- What is recorded for kind `k` was loaded, or cannot be loaded. -/
def RecordedAt (ld : Loader α L) (st : Store α) (k : Str) (c : KbCache L) : Prop :=
  ∀ kb, dget c.inputs k = some kb → ∀ v, loadKb ld k (src st kb) = .ok v → dget c.cache k = some v

/-- What is recorded for kind `k` was loaded. -/
def LoadedAt (ld : Loader α L) (st : Store α) (k : Str) (c : KbCache L) : Prop :=
  ∀ kb, dget c.inputs k = some kb → ∃ v, loadKb ld k (src st kb) = .ok v ∧ dget c.cache k = some v

theorem kbLoop_recorded (ld : Loader α L) (st : Store α) (k : Str) (cfg : List (Str × KbArg)) :
    ∀ c : KbCache L, RecordedAt ld st k c → RecordedAt ld st k (kbLoop ld st c cfg).2 := by
  induction cfg with
  | nil => exact fun c h => h
  | cons p cfg ih =>
    obtain ⟨j, kb⟩ := p
    intro c h
    rw [kbLoop]
    split
    · cases hl : loadKb ld j (src st kb) with
      | error e =>
        intro kb' hk v hv
        simp only [dget_dset] at hk ⊢
        split at hk
        · rename_i hj
          subst hj
          cases hk
          rw [hl] at hv
          cases hv
        · exact h kb' hk v hv
      | ok w =>
        apply ih
        intro kb' hk v hv
        simp only [dget_dset] at hk ⊢
        split at hk
        · rename_i hj
          subst hj
          cases hk
          rw [hl] at hv
          cases hv
          simp
        · rename_i hj
          rw [if_neg hj]
          exact h kb' hk v hv
    · exact ih c h

theorem kbLoop_loaded (ld : Loader α L) (st : Store α) (k : Str) (cfg : List (Str × KbArg)) :
    ∀ c : KbCache L, LoadedAt ld st k c → (kbLoop ld st c cfg).1 = .ok () → LoadedAt ld st k (kbLoop ld st c cfg).2 := by
  induction cfg with
  | nil => exact fun c h _ => h
  | cons p cfg ih =>
    obtain ⟨j, kb⟩ := p
    intro c h
    rw [kbLoop]
    split
    · cases hl : loadKb ld j (src st kb) with
      | error e => intro e; cases e
      | ok w =>
        apply ih
        intro kb' hk
        simp only [dget_dset] at hk ⊢
        split at hk
        · rename_i hj
          subst hj
          cases hk
          exact ⟨w, hl, by simp⟩
        · rename_i hj
          rw [if_neg hj]
          exact h kb' hk
    · exact ih c h

/-- Kinds that are not in the configuration are left alone. -/
theorem kbLoop_frame (ld : Loader α L) (st : Store α) (k : Str) (cfg : List (Str × KbArg)) :
    ∀ c : KbCache L, (∀ kb, (k, kb) ∈ cfg → ∃ o, dget c.inputs k = some o ∧ src st kb = src st o) →
      dget (kbLoop ld st c cfg).2.cache k = dget c.cache k ∧ dget (kbLoop ld st c cfg).2.inputs k = dget c.inputs k := by
  induction cfg with
  | nil => exact fun c _ => ⟨rfl, rfl⟩
  | cons p cfg ih =>
    obtain ⟨j, kb⟩ := p
    intro c h
    rw [kbLoop]
    split
    · rename_i hc
      have hj : j ≠ k := by
        rintro rfl
        obtain ⟨o, ho, hs⟩ := h kb (by simp)
        simp [kbChanged, ho, hs] at hc
      cases hl : loadKb ld j (src st kb) with
      | error e => simp [dget_dset, hj]
      | ok w =>
        have := ih { cache := dset c.cache j w, inputs := dset c.inputs j kb } (by
          intro kb' hm
          simp only [dget_dset, hj, if_false]
          exact h kb' (List.mem_cons_of_mem _ hm))
        simpa [dget_dset, hj] using this
    · exact ih c fun kb' hm => h kb' (List.mem_cons_of_mem _ hm)

/-- After a successful loop every wanted knowledge base is recorded. -/
theorem kbLoop_inputs (ld : Loader α L) (st : Store α) (k : Str) (kb : KbArg) (cfg : List (Str × KbArg)) :
    ∀ c : KbCache L, (cfg.map (·.1)).Nodup → (k, kb) ∈ cfg → (kbLoop ld st c cfg).1 = .ok () →
      ∃ o, dget (kbLoop ld st c cfg).2.inputs k = some o ∧ src st kb = src st o := by
  induction cfg with
  | nil => intro c _ h; cases h
  | cons p cfg ih =>
    obtain ⟨j, q⟩ := p
    intro c hn hm
    simp only [List.map_cons, List.nodup_cons] at hn
    have hframe : j = k → ∀ q', (k, q') ∉ cfg := by
      rintro rfl q' hq
      exact hn.1 (List.mem_map.2 ⟨_, hq, rfl⟩)
    rw [kbLoop]
    split
    · cases hl : loadKb ld j (src st q) with
      | error e => intro e; cases e
      | ok w =>
        intro hok
        rcases List.mem_cons.1 hm with e | hm
        · cases e
          refine ⟨kb, ?_, rfl⟩
          rw [(kbLoop_frame ld st k cfg _ fun kb' h => absurd h (hframe rfl kb')).2]
          simp [dget_dset]
        · exact ih _ hn.2 hm hok
    · rename_i hc
      intro hok
      rcases List.mem_cons.1 hm with e | hm
      · cases e
        rw [(kbLoop_frame ld st k cfg _ fun kb' h => absurd h (hframe rfl kb')).2]
        unfold kbChanged at hc
        split at hc
        · simp at hc
        · rename_i o ho
          exact ⟨o, ho, by simpa using hc⟩
      · exact ih _ hn.2 hm hok

/-- Only known kinds are ever loaded. -/
theorem kbLoop_kinds (ld : Loader α L) (st : Store α) (cfg : List (Str × KbArg)) :
    ∀ c : KbCache L, (∀ k, (dget c.cache k).isSome → k ∈ kbKinds) →
      ∀ k, (dget (kbLoop ld st c cfg).2.cache k).isSome → k ∈ kbKinds := by
  induction cfg with
  | nil => exact fun c h => h
  | cons p cfg ih =>
    obtain ⟨j, kb⟩ := p
    intro c h
    rw [kbLoop]
    split
    · cases hl : loadKb ld j (src st kb) with
      | error e => exact h
      | ok w =>
        apply ih
        intro k hk
        simp only [dget_dset] at hk
        split at hk
        · rename_i e
          subst e
          unfold loadKb at hl
          split at hl
          · rename_i hc
            simpa using hc
          · cases hl
        · exact h k hk
    · exact ih c h

theorem tagEffect_inputs (upd : L → L → L) (c : KbCache L) : (tagEffect upd c).inputs = c.inputs := by
  unfold tagEffect
  split <;> rfl

theorem tagEffect_other (upd : L → L → L) (c : KbCache L) (k : Str) (hk : k ≠ py! "journals") :
    dget (tagEffect upd c).cache k = dget c.cache k := by
  unfold tagEffect
  split
  · rw [dget_dset, if_neg (Ne.symm hk)]
  · rfl

theorem tagEffect_journals (upd : L → L → L) (c : KbCache L) (k : Str) :
    (dget (tagEffect upd c).cache k).isSome = (dget c.cache k).isSome := by
  unfold tagEffect
  split
  · rename_i j r hj hr
    rw [dget_dset]
    split
    · rename_i e
      subst e
      simp [hj]
    · rfl
  · rfl

omit [DecidableEq α] in
theorem fixed_tail {st : Store α} {a : Act α} {acts : List (Act α)} (h : Fixed st (a :: acts)) : Fixed st acts :=
  fun st' o hm => h st' o (List.mem_cons_of_mem _ hm)

theorem play_loaded (E : Env α L) (st : Store α) (k : Str) (acts : List (Act α)) :
    ∀ c : KbCache L, Fixed st acts → (k = py! "journals" → RequestsOnly acts) → LoadedAt E.ld st k c → AllOk E c acts →
      LoadedAt E.ld st k (play E c acts) := by
  induction acts with
  | nil => exact fun c _ _ h _ => h
  | cons a acts ih =>
    intro c hf hk h hok
    cases a with
    | request st' o =>
      cases hf st' o (by simp)
      exact ih _ (fixed_tail hf) (fun e a ha => hk e a (List.mem_cons_of_mem _ ha))
        (kbLoop_loaded E.ld st k _ c h hok.1) hok.2
    | tag =>
      have hk' : k ≠ py! "journals" := fun e => hk e .tag (by simp) rfl
      refine ih _ (fixed_tail hf) (fun e => absurd e hk') ?_ hok
      intro kb
      rw [tagEffect_inputs, tagEffect_other _ _ _ hk']
      exact h kb

theorem play_recorded (E : Env α L) (st : Store α) (k : Str) (acts : List (Act α)) :
    ∀ c : KbCache L, Fixed st acts → (k = py! "journals" → RequestsOnly acts) → RecordedAt E.ld st k c →
      RecordedAt E.ld st k (play E c acts) := by
  induction acts with
  | nil => exact fun c _ _ h => h
  | cons a acts ih =>
    intro c hf hk h
    cases a with
    | request st' o =>
      cases hf st' o (by simp)
      exact ih _ (fixed_tail hf) (fun e a ha => hk e a (List.mem_cons_of_mem _ ha)) (kbLoop_recorded E.ld st k _ c h)
    | tag =>
      have hk' : k ≠ py! "journals" := fun e => hk e .tag (by simp) rfl
      refine ih _ (fixed_tail hf) (fun e => absurd e hk') ?_
      intro kb
      rw [tagEffect_inputs, tagEffect_other _ _ _ hk']
      exact h kb

theorem play_kinds (E : Env α L) (acts : List (Act α)) :
    ∀ c : KbCache L, (∀ k, (dget c.cache k).isSome → k ∈ kbKinds) →
      ∀ k, (dget (play E c acts).cache k).isSome → k ∈ kbKinds := by
  induction acts with
  | nil => exact fun c h => h
  | cons a acts ih =>
    intro c h
    cases a with
    | request st' o => exact ih _ (kbLoop_kinds E.ld st' _ c h)
    | tag => exact ih _ fun k hk => h k (by rwa [tagEffect_journals] at hk)

/-- The loop records only members of the configuration. -/
theorem kbLoop_inputs_mem (ld : Loader α L) (st : Store α) (k : Str) (cfg : List (Str × KbArg)) (P : KbArg → Prop)
    (hP : ∀ kb, (k, kb) ∈ cfg → P kb) : ∀ c : KbCache L, (∀ kb, dget c.inputs k = some kb → P kb) →
      ∀ kb, dget (kbLoop ld st c cfg).2.inputs k = some kb → P kb := by
  induction cfg with
  | nil => exact fun c h => h
  | cons p cfg ih =>
    obtain ⟨j, q⟩ := p
    intro c h
    have step : ∀ kb, dget (dset c.inputs j q) k = some kb → P kb := by
      intro kb hk
      rw [dget_dset] at hk
      split at hk
      · rename_i e
        subst e
        cases hk
        exact hP _ (by simp)
      · exact h kb hk
    rw [kbLoop]
    split
    · cases hl : loadKb ld j (src st q) with
      | error e => exact step
      | ok w => exact ih (fun kb hm => hP kb (List.mem_cons_of_mem _ hm)) _ step
    · exact ih (fun kb hm => hP kb (List.mem_cons_of_mem _ hm)) c h

end Py
