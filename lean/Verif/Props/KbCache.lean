import Verif.Lemmas.KbCache

/-!
# The knowledge-base cache: C41, C42, C43, C62
-/

open Py Spec

namespace Props

variable {α L : Type} [DecidableEq α]

/-- **C41**, the part that holds: after any run of successful requests, a further successful
request serves for every kind exactly what loading the wanted knowledge base gives, and serves
no other kind. Lines may be tagged in between, except that this says nothing about the kind
`journals` then: see `C41_counterexample`. -/
theorem C41_partial (E : Env α L) (st : Store α) (acts : List (Act α)) (o : Overrides) (ho : Dict o)
    (hf : Fixed st acts) (hok : AllOk E {} acts) (c : KbCache L)
    (hreq : getKbs E.ld E.empty E.dir st o (play E {} acts) = (.ok (), c)) :
    (∀ k kb, Wanted E st o k kb → (k = py! "journals" → RequestsOnly acts) →
      ∃ v, loadKb E.ld k (src st kb) = .ok v ∧ dget c.cache k = some v)
    ∧ ∀ k, (dget c.cache k).isSome → k ∈ kbKinds := by
  have h1 : (kbLoop E.ld st (play E {} acts) (configOf E.empty st E.dir o)).1 = .ok () := by
    have := congrArg Prod.fst hreq
    exact this
  have h2 : (kbLoop E.ld st (play E {} acts) (configOf E.empty st E.dir o)).2 = c := congrArg Prod.snd hreq
  constructor
  · intro k kb hw hk
    have hl := kbLoop_loaded E.ld st k _ _ (play_loaded E st k acts {} hf hk (by intro kb h; cases h) hok) h1
    obtain ⟨q, hq, hs⟩ := kbLoop_inputs E.ld st k kb _ _ (configOf_nodup _ _ _ _) ((mem_configOf ho).2 hw) h1
    rw [h2] at hl hq
    rw [hs]
    exact hl q hq
  · rw [← h2]
    exact kbLoop_kinds E.ld st _ _ (play_kinds E acts {} (by intro k h; cases h))

example : dget (toyRequest [(py! "books", none)] (toyRequest [(py! "books", some (.obj 6))] {}).2).2.cache (py! "books") =
    some [0] := by decide +kernel

/-- **C41** is false once lines are tagged: after a request with an override of `journals_re` and
the tagging of a line, a request without overrides still sees that override's entries among the
journals. -/
theorem C41_counterexample : ∃ (acts : List (Act Nat)) (c : KbCache (List Nat)),
    Fixed toyStore acts ∧ AllOk toy {} acts ∧ getKbs toy.ld toy.empty toy.dir toyStore [] (play toy {} acts) = (.ok (), c) ∧
    ∃ kb, Wanted toy toyStore [] (py! "journals") kb ∧
      ¬ ∃ v, loadKb toy.ld (py! "journals") (src toyStore kb) = .ok v ∧ dget c.cache (py! "journals") = some v := by
  refine ⟨[.request toyStore [(py! "journals_re", some (.obj 6))], .tag], _, ?_, ?_, Prod.ext (by decide +kernel) rfl,
    .path (py! "d/journal-titles.kb"), .inr ⟨?_, by simp [defaultKbs, toy]⟩, ?_⟩
  · intro st' o h
    simp only [List.mem_cons, Act.request.injEq, reduceCtorEq, List.not_mem_nil, or_false] at h
    exact h.1
  · exact ⟨by decide +kernel, trivial⟩
  · rintro kb' ⟨h, -⟩
    cases h
  · rintro ⟨v, h1, h2⟩
    have e1 : loadKb toy.ld (py! "journals") (src toyStore (.path (py! "d/journal-titles.kb"))) = .ok [0] := by
      decide +kernel
    rw [e1] at h1
    cases h1
    revert h2
    decide +kernel

/-- **C42**, the part that holds: after any run of requests, failed ones included, a successful
request serves the right knowledge base for every kind whose wanted knowledge base can be
loaded. Missing: that a request for one that cannot be loaded fails, see `C42_counterexample`. -/
theorem C42_partial (E : Env α L) (st : Store α) (acts : List (Act α)) (o : Overrides) (ho : Dict o)
    (hf : Fixed st acts) (c : KbCache L)
    (hreq : getKbs E.ld E.empty E.dir st o (play E {} acts) = (.ok (), c)) (k : Str) (kb : KbArg)
    (hw : Wanted E st o k kb) (hk : k = py! "journals" → RequestsOnly acts) (v : L)
    (hv : loadKb E.ld k (src st kb) = .ok v) : dget c.cache k = some v := by
  have h1 : (kbLoop E.ld st (play E {} acts) (configOf E.empty st E.dir o)).1 = .ok () := by
    have := congrArg Prod.fst hreq
    exact this
  have h2 : (kbLoop E.ld st (play E {} acts) (configOf E.empty st E.dir o)).2 = c := congrArg Prod.snd hreq
  have hl := kbLoop_recorded E.ld st k (configOf E.empty st E.dir o) _
    (play_recorded E st k acts {} hf hk (by intro kb h; cases h))
  obtain ⟨q, hq, hs⟩ := kbLoop_inputs E.ld st k kb _ _ (configOf_nodup _ _ _ _) ((mem_configOf ho).2 hw) h1
  rw [h2] at hl hq
  rw [hs] at hv
  exact hl q hq v hv

example : (toyRequest [(py! "books", some (.obj 12))] {}).1 = .error .valueError
    ∧ dget (toyRequest [(py! "books", some (.obj 7))] (toyRequest [(py! "books", some (.obj 12))] {}).2).2.cache
        (py! "books") = some [8] := by decide +kernel

/-- **C42** is false: a request whose override cannot be loaded fails the first time, and the
second time succeeds and serves the knowledge base loaded before. -/
theorem C42_counterexample : ∃ (c₁ c₂ c₃ : KbCache (List Nat)) (o : Overrides),
    toyRequest [] {} = (.ok (), c₁) ∧ toyRequest o c₁ = (.error .valueError, c₂) ∧ toyRequest o c₂ = (.ok (), c₃) ∧
    dget c₃.cache (py! "books") = some [0] :=
  ⟨_, _, _, [(py! "books", some (.obj 12))], Prod.ext (by decide +kernel) rfl, Prod.ext (by decide +kernel) rfl,
    Prod.ext (by decide +kernel) rfl, by decide +kernel⟩

/-- **C43**, the part that holds: what a caller was served for a kind is unchanged by later
requests, successful or not, as long as they want the same knowledge base for that kind. -/
theorem C43_partial (E : Env α L) (st : Store α) (k : Str) (kb : KbArg) (acts : List (Act α)) :
    ∀ c : KbCache L, Fixed st acts → RequestsOnly acts →
      (∀ st' o, Act.request st' o ∈ acts → Dict o ∧ ∀ kb', Wanted E st' o k kb' → src st kb' = src st kb) →
      (∃ q, dget c.inputs k = some q ∧ src st kb = src st q) →
      dget (play E c acts).cache k = dget c.cache k := by
  induction acts with
  | nil => exact fun c _ _ _ _ => rfl
  | cons a acts ih =>
    intro c hf hr hsame hin
    cases a with
    | request st' o =>
      cases hf st' o (by simp)
      obtain ⟨q, hq, hs⟩ := hin
      have hfr := kbLoop_frame E.ld st k (configOf E.empty st E.dir o) c (by
        intro kb' hm
        obtain ⟨hd, hw⟩ := hsame st o (by simp)
        exact ⟨q, hq, (hw kb' ((mem_configOf hd).1 hm)).trans hs⟩)
      have := ih (getKbs E.ld E.empty E.dir st o c).2 (fixed_tail hf) (fun a ha => hr a (List.mem_cons_of_mem _ ha))
        (fun st'' o' hm => hsame st'' o' (List.mem_cons_of_mem _ hm)) ⟨q, by rw [← hq]; exact hfr.2, hs⟩
      exact this.trans hfr.1
    | tag => exact absurd rfl (hr .tag (by simp))

example : let c := (toyRequest [(py! "books", some (.obj 7))] {}).2
    dget (toyRequest [(py! "books", some (.obj 7)), (py! "authors", some (.obj 3))] c).2.cache (py! "books") =
      dget c.cache (py! "books") := by decide +kernel

/-- **C43** is false: the second caller's request changes the books of the first caller, who
holds the same dictionary. -/
theorem C43_counterexample : ∃ (c₁ c₂ : KbCache (List Nat)) (o₁ o₂ : Overrides),
    toyRequest o₁ {} = (.ok (), c₁) ∧ dget c₁.cache (py! "books") = some [7] ∧
    toyRequest o₂ c₁ = (.ok (), c₂) ∧ dget c₂.cache (py! "books") = some [0] :=
  ⟨_, _, [(py! "books", some (.obj 6))], [], Prod.ext (by decide +kernel) rfl, by decide +kernel,
    Prod.ext (by decide +kernel) rfl, by decide +kernel⟩

/-- **C62**, the part that holds: whatever happens to the objects of the program between the
requests, and whatever fails, a kind that is always wanted from a file is served rightly. Missing:
kinds passed as objects, see `C62_counterexample`. -/
theorem C62_partial (E : Env α L) (k : Str) (acts : List (Act α)) (hk : k = py! "journals" → RequestsOnly acts)
    (hp : AlwaysPath E k acts) (st : Store α) (o : Overrides) (ho : Dict o) (c : KbCache L)
    (hreq : getKbs E.ld E.empty E.dir st o (play E {} acts) = (.ok (), c)) (s : Str)
    (hw : Wanted E st o k (.path s)) (v : L)
    (hv : loadKb E.ld k (.path s) = .ok v) : dget c.cache k = some v := by
  have key : ∀ (acts : List (Act α)) (c : KbCache L), AlwaysPath E k acts → (k = py! "journals" → RequestsOnly acts) →
      (∀ kb, dget c.inputs k = some kb → ∃ s, kb = .path s) → RecordedAt E.ld st k c →
      (∀ kb, dget (play E c acts).inputs k = some kb → ∃ s, kb = .path s) ∧ RecordedAt E.ld st k (play E c acts) := by
    intro acts
    induction acts with
    | nil => exact fun c _ _ h1 h2 => ⟨h1, h2⟩
    | cons a acts ih =>
      intro c hp hk h1 h2
      have hp' : AlwaysPath E k acts := fun st o hm => hp st o (List.mem_cons_of_mem _ hm)
      cases a with
      | request st' o =>
        obtain ⟨hd, hw⟩ := hp st' o (by simp)
        have hpath : ∀ c : KbCache L, (∀ kb, dget c.inputs k = some kb → ∃ s, kb = .path s) →
            RecordedAt E.ld st k c → RecordedAt E.ld st' k c := by
          intro c h1 h2 kb hkb
          obtain ⟨s, rfl⟩ := h1 kb hkb
          exact h2 _ hkb
        have hpath' : ∀ c : KbCache L, (∀ kb, dget c.inputs k = some kb → ∃ s, kb = .path s) →
            RecordedAt E.ld st' k c → RecordedAt E.ld st k c := by
          intro c h1 h2 kb hkb
          obtain ⟨s, rfl⟩ := h1 kb hkb
          exact h2 _ hkb
        have h1' := kbLoop_inputs_mem E.ld st' k (configOf E.empty st' E.dir o) (fun kb => ∃ s, kb = .path s)
          (fun kb hm => hw kb ((mem_configOf hd).1 hm)) c h1
        exact ih _ hp' (fun e a ha => hk e a (List.mem_cons_of_mem _ ha)) h1'
          (hpath' _ h1' (kbLoop_recorded E.ld st' k _ c (hpath c h1 h2)))
      | tag =>
        have hk' : k ≠ py! "journals" := fun e => hk e .tag (by simp) rfl
        refine ih _ hp' (fun e => absurd e hk') ?_ ?_
        · rw [tagEffect_inputs]
          exact h1
        · intro kb
          rw [tagEffect_inputs, tagEffect_other _ _ _ hk']
          exact h2 kb
  obtain ⟨-, hrec⟩ := key acts {} hp hk (by intro kb h; cases h) (by intro kb h; cases h)
  have h1 : (kbLoop E.ld st (play E {} acts) (configOf E.empty st E.dir o)).1 = .ok () := by
    have := congrArg Prod.fst hreq
    exact this
  have h2 : (kbLoop E.ld st (play E {} acts) (configOf E.empty st E.dir o)).2 = c := congrArg Prod.snd hreq
  have hl := kbLoop_recorded E.ld st k (configOf E.empty st E.dir o) _ hrec
  obtain ⟨q, hq, hs⟩ := kbLoop_inputs E.ld st k (.path s) _ _ (configOf_nodup _ _ _ _) ((mem_configOf ho).2 hw) h1
  rw [h2] at hl hq
  exact hl q hq v (by rw [← hs]; exact hv)

example : dget (getKbs toy.ld toy.empty toy.dir (fun _ => 5) []
    (getKbs toy.ld toy.empty toy.dir (fun _ => 7) [(py! "books", some (.obj 1))] {}).2).2.cache (py! "books") = some [0] := by
  decide +kernel

/-- **C62** is false for objects: a list is passed, changed by the caller and passed again; the
second request still serves the old contents. -/
theorem C62_counterexample : ∃ (c₁ c₂ : KbCache (List Nat)) (o : Overrides),
    getKbs toy.ld toy.empty toy.dir (fun _ => 7) o {} = (.ok (), c₁) ∧
    getKbs toy.ld toy.empty toy.dir (fun _ => 8) o c₁ = (.ok (), c₂) ∧
    Wanted toy (fun _ => 8) o (py! "books") (.obj 1) ∧
    loadKb toy.ld (py! "books") (src (fun _ => 8) (.obj 1)) = .ok [8] ∧ dget c₂.cache (py! "books") = some [7] :=
  ⟨_, _, [(py! "books", some (.obj 1))], Prod.ext (by decide +kernel) rfl, Prod.ext (by decide +kernel) rfl,
    .inl ⟨by simp, by decide⟩, by decide +kernel, by decide +kernel⟩

end Props
