import Verif.Lemmas.Parse3
import Verif.Lemmas.Pipeline
import Verif.Spec.Linked

/-!
# Helper lemmas: linked elements (C122)
-/

open Spec
open scoped List

namespace Py

/-! ### Results of two runs -/

/-- Two runs with related results, or with the same error. -/
inductive Both {α β : Type} (R : α → β → Prop) : Py α → Py β → Prop
  | ok {a : α} {b : β} : R a b → Both R (.ok a) (.ok b)
  | error (e : PyErr) : Both R (.error e) (.error e)

theorem Both.bind {α β γ δ : Type} {R : α → β → Prop} {S : γ → δ → Prop} {x : Py α} {y : Py β} {f : α → Py γ} {g : β → Py δ}
    (h : Both R x y) (hf : ∀ a b, R a b → Both S (f a) (g b)) : Both S (x >>= f) (y >>= g) := by
  cases h with
  | ok h => exact hf _ _ h
  | error e => exact .error e

theorem Both.same {α : Type} (x : Py α) : Both (fun a b => a = b) x x := by
  cases x with
  | ok a => exact .ok rfl
  | error e => exact .error e

theorem Both.mono {α β : Type} {R S : α → β → Prop} {x : Py α} {y : Py β} (h : Both R x y) (hs : ∀ a b, R a b → S a b) : Both S x y := by
  cases h with
  | ok h => exact .ok (hs _ _ h)
  | error e => exact .error e

/-! ### Elements without and with a record id -/

/-- The second element is the first one with a record id; the first has none. -/
def Lk (e e' : El) : Prop := e.recid = none ∧ e.ty ≠ .recid ∧ ∃ r, e' = { e with recid := r }

theorem Lk.self {e : El} (h : e.recid = none) (ht : e.ty ≠ .recid) : Lk e e := ⟨h, ht, e.recid, rfl⟩

theorem Lk.misc {e e' : El} (h : Lk e e') (m : Str) : Lk { e with misc := m } { e' with misc := m } := by
  obtain ⟨h1, h2, r, rfl⟩ := h
  exact ⟨h1, h2, r, rfl⟩

theorem Lk.inj {a b a' b' : El} (h : Lk a a') (h' : Lk b b') (e : a' = b') : a = b := by
  obtain ⟨h1, -, r, rfl⟩ := h
  obtain ⟨h2, -, s, rfl⟩ := h'
  cases a
  cases b
  simp only [El.mk.injEq] at e ⊢
  simp only at h1 h2
  simp [e, h1, h2]

theorem recid_split {e e' : El} (h : splitVolume1 e = .ok e') : e'.recid = e.recid := by
  unfold splitVolume1 at h
  split at h
  · obtain ⟨_, _, h⟩ := bind_ok h
    split at h
    · obtain ⟨_, _, h⟩ := bind_ok h
      rw [← pure_ok h]
    · rw [← pure_ok h]
  · rw [← pure_ok h]

theorem recid_formatVolume [UnicodeDB] {e e' : El} (h : formatVolume1 e = .ok e') : e'.recid = e.recid := by
  unfold formatVolume1 at h
  split at h
  · obtain ⟨_, _, h⟩ := bind_ok h
    split at h
    · obtain ⟨_, _, h⟩ := bind_ok h
      rw [← pure_ok h]
    · rw [← pure_ok h]
  · rw [← pure_ok h]

theorem recid_special [UnicodeDB] {l : List Str} {e e' : El} (h : specialJournal1 l e = .ok e') : e'.recid = e.recid := by
  have tail : ∀ {e1 : El}, e1.recid = e.recid → (do
      let page ← getStr e1.page
      if isdigit page then do
        let n ← pyInt page
        return { e1 with page := some (some (padNat 3 n)) }
      else return e1) = (.ok e' : Py El) → e'.recid = e.recid := by
    intro e1 h1 h
    obtain ⟨p, h6, h⟩ := bind_ok h
    split at h
    · obtain ⟨n, h2, h⟩ := bind_ok h
      rw [← pure_ok h]; exact h1
    · rw [← pure_ok h]; exact h1
  have mid : ∀ {e2 : El} {vol : Str}, e2.recid = e.recid → (do
      let year ← getStr e2.year
      let n ← pyInt vol
      let e1 ← pure { e2 with volume := some (some (lastTwo year ++ padNat 2 n)) }
      let page ← getStr e1.page
      if isdigit page then do
        let n ← pyInt page
        return { e1 with page := some (some (padNat 3 n)) }
      else return e1) = (.ok e' : Py El) → e'.recid = e.recid := by
    intro e2 vol h1 h
    obtain ⟨y, _, h⟩ := bind_ok h
    obtain ⟨n, _, h⟩ := bind_ok h
    obtain ⟨e1, h2, h⟩ := bind_ok h
    exact tail (by rw [← pure_ok h2]; exact h1) h
  unfold specialJournal1 at h
  split at h
  · obtain ⟨v, h1, h⟩ := bind_ok h
    split at h
    · obtain ⟨v, h1, h⟩ := bind_ok h
      dsimp only at h
      split at h
      · obtain ⟨y, h2, h⟩ := bind_ok h
        split at h
        · obtain ⟨p, h3, h⟩ := bind_ok h
          split at h
          · obtain ⟨_, hx, h⟩ := bind_ok h
            exact mid (by rw [← pure_ok hx]) h
          · obtain ⟨_, hx, h⟩ := bind_ok h
            exact mid (by rw [← pure_ok hx]) h
        · obtain ⟨_, hx, h⟩ := bind_ok h
          exact mid (by rw [← pure_ok hx]) h
      · exact tail rfl h
    · rw [← pure_ok h]
  · rw [← pure_ok h]

theorem recid_report [UnicodeDB] {e e' : El} (h : formatReportNumber1 e = .ok e') : e'.recid = e.recid := by
  unfold formatReportNumber1 at h
  split at h
  · obtain ⟨_, _, h⟩ := bind_ok h
    rw [← pure_ok h]
  · rw [← pure_ok h]

theorem recid_hep {e e' : El} (h : formatHepEl e = .ok e') : e'.recid = e.recid := by
  unfold formatHepEl at h
  split at h
  · obtain ⟨_, _, h⟩ := bind_ok h
    rw [← pure_ok h]
  · rw [← pure_ok h]

theorem recid_ed {e e' : El} (h : formatAuthorEd1 e = .ok e') : e'.recid = e.recid := by
  unfold formatAuthorEd1 at h
  split at h
  · obtain ⟨_, _, h⟩ := bind_ok h
    rw [← pure_ok h]
  · rw [← pure_ok h]

theorem recid_removeB {e e' : El} (h : removeB1 e = .ok e') : e'.recid = e.recid := by
  unfold removeB1 at h
  split at h
  · obtain ⟨v, h1, h⟩ := bind_ok h
    split at h
    · split at h
      · rw [← pure_ok h]
      · obtain ⟨v, h1, h⟩ := bind_ok h
        split at h
        · rw [← pure_ok h]
        · rw [← pure_ok h]
    · rw [← pure_ok h]
  · rw [← pure_ok h]

theorem recid_mangle [UnicodeDB] {e e' : El} (h : mangleVolume1 e = .ok e') : e'.recid = e.recid := by
  unfold mangleVolume1 at h
  split at h
  · obtain ⟨_, _, h⟩ := bind_ok h
    rw [← pure_ok h]
  · rw [← pure_ok h]

theorem recid_arxivUrl {e e' : El} (h : arxivUrl1 e = .ok e') : e'.recid = e.recid := by
  unfold arxivUrl1 at h
  split at h
  · obtain ⟨_, _, h⟩ := bind_ok h
    split at h
    · rw [← pure_ok h]
    · rw [← pure_ok h]
  · rw [← pure_ok h]

theorem recid_hdlUrl [UnicodeDB] {e e' : El} (h : hdlUrl1 e = .ok e') : e'.recid = e.recid := by
  unfold hdlUrl1 at h
  split at h
  · obtain ⟨_, _, h⟩ := bind_ok h
    split at h
    · obtain ⟨_, _, h⟩ := bind_ok h
      rw [← pure_ok h]
    · rw [← pure_ok h]
  · rw [← pure_ok h]

theorem recid_books [UnicodeDB] {books : Books} {es es' : List El} (h : ∀ e ∈ es, e.recid = none) (he : lookForBooks books es = .ok es') :
    ∀ e ∈ es', e.recid = none := by
  unfold lookForBooks at he
  split at he
  · cases he; exact h
  · obtain ⟨_, _, he⟩ := bind_ok he
    split at he
    · rw [← pure_ok he]; exact h
    · obtain ⟨b, h2, he⟩ := bind_ok he
      rw [← pure_ok he]
      intro e hm
      rcases List.mem_append.1 (List.mem_of_mem_erase hm) with hm | hm
      · exact h e hm
      · rw [List.mem_singleton.1 hm]
        unfold bookElement at h2
        obtain ⟨_, _, h2⟩ := bind_ok h2
        obtain ⟨_, _, h2⟩ := bind_ok h2
        obtain ⟨_, _, h2⟩ := bind_ok h2
        rw [← pure_ok h2]

theorem recid_hdlLoop (ms : List Match) : ∀ (d : List El) (e : El) (a : List El), (∀ x ∈ d, x.recid = none) → e.recid = none → (∀ x ∈ a, x.recid = none) →
    (∀ x ∈ (hdlLoop d e a ms).1, x.recid = none) ∧ (hdlLoop d e a ms).2.1.recid = none ∧ ∀ x ∈ (hdlLoop d e a ms).2.2, x.recid = none := by
  induction ms with
  | nil => intro d e a h1 h2 h3; exact ⟨h1, h2, h3⟩
  | cons m ms ih =>
    intro d e a h1 h2 h3
    simp only [hdlLoop]
    split
    · rename_i d' hd
      refine ih _ _ _ ?_ h2 h3
      intro x hx
      rcases insertAfter_mem hd x hx with h | h
      · exact h1 x h
      · rw [h]
    · refine ih _ _ _ h1 h2 ?_
      intro x hx
      rcases List.mem_cons.1 hx with h | h
      · rw [h]
      · exact h3 x h

theorem recid_hdl [UnicodeDB] {es : List El} (h : ∀ e ∈ es, e.recid = none) : ∀ e ∈ lookForHdl es, e.recid = none := by
  have key : ∀ (es d : List El), (∀ e ∈ es, e.recid = none) → (∀ e ∈ d, e.recid = none) → ∀ e ∈ hdlGo d es, e.recid = none := by
    intro es
    induction es with
    | nil => intro d _ h; exact h
    | cons e es ih =>
      intro d h1 h2
      simp only [hdlGo]
      obtain ⟨k1, k2, k3⟩ := recid_hdlLoop (finditer Rx.re_hdl e.misc).reverse d e [] h2 (h1 e (by simp)) (by simp)
      refine ih _ (fun x hx => h1 x (by simp [hx])) ?_
      intro x hx
      rcases List.mem_append.1 hx with hx | hx
      · exact k1 x hx
      · rcases List.mem_cons.1 hx with hx | hx
        · exact hx ▸ k2
        · exact k3 x hx
  exact key es [] h (by simp)

theorem transform_bare [UnicodeDB] {special : List Str} {books : Books} {es es' : List El}
    (h : ∀ e ∈ es, e.recid = none) (he : transformElements special books none es = .ok es') : ∀ e ∈ es', e.recid = none := by
  have step : ∀ {f : El → Py El}, (∀ e e', f e = .ok e' → e'.recid = e.recid) → ∀ {es es' : List El},
      (∀ e ∈ es, e.recid = none) → eachEl f es = .ok es' → ∀ e ∈ es', e.recid = none := by
    intro f hf es es' h he
    refine eachEl_all (P := fun e => e.recid = none) ?_ h he
    intro e e' hp hfe
    rw [hf e e' hfe, hp]
  unfold transformElements at he
  obtain ⟨_, h1, he⟩ := bind_ok he
  replace h := step (fun _ _ => recid_split) h h1
  obtain ⟨_, h1, he⟩ := bind_ok he
  replace h := step (fun _ _ => recid_formatVolume) h h1
  obtain ⟨_, h1, he⟩ := bind_ok he
  replace h := step (fun _ _ => recid_special) h h1
  obtain ⟨_, h1, he⟩ := bind_ok he
  replace h := step (fun _ _ => recid_report) h h1
  obtain ⟨_, h1, he⟩ := bind_ok he
  replace h := step (fun _ _ => recid_ed) h h1
  obtain ⟨_, h1, he⟩ := bind_ok he
  replace h := recid_books h h1
  obtain ⟨_, h1, he⟩ := bind_ok he
  replace h := step (fun _ _ => recid_hep) h h1
  obtain ⟨_, h1, he⟩ := bind_ok he
  replace h := step (fun _ _ => recid_removeB) h h1
  obtain ⟨_, h1, he⟩ := bind_ok he
  replace h := step (fun _ _ => recid_mangle) h h1
  obtain ⟨_, h1, he⟩ := bind_ok he
  replace h := step (fun _ _ => recid_arxivUrl) h h1
  replace h := recid_hdl h
  obtain ⟨_, h1, he⟩ := bind_ok he
  replace h := step (fun _ _ => recid_hdlUrl) h h1
  rw [← pure_ok he]; exact h

/-! ### The answers of the linker -/

/-- The answer that is stored. -/
def answer (link : Linker) (e : El) : Option RecId :=
  match link e with
  | .ok r => r
  | .error _ => none

theorem _root_.Spec.Steady.associate {link : Linker} (hs : Steady link) {e e' : El} (h : Lk e e') :
    associate1 link e' = .ok { e with recid := some (Py.answer link e) } := by
  obtain ⟨-, -, r, rfl⟩ := h
  have e1 : link { e with recid := r } = link e := hs.pure e r
  unfold Py.associate1 Py.answer
  rw [e1]
  cases h : link e with
  | ok r => rfl
  | error x => rcases hs.calm e x h with rfl | rfl <;> rfl

theorem transform_linked [UnicodeDB] {special : List Str} {books : Books} {link : Linker} (hs : Steady link) {es : List El}
    (h : ∀ e ∈ es, e.recid = none ∧ e.ty ≠ .recid) :
    Both (All2 Lk) (transformElements special books none es) (transformElements special books (some link) es) := by
  have key : ∀ {a : List El}, (∀ e ∈ a, e.recid = none ∧ e.ty ≠ .recid) → Both (All2 Lk) (.ok a) (eachEl (associate1 link) a) := by
    intro a ha
    have : ∃ b, eachEl (associate1 link) a = .ok b ∧ All2 Lk a b := by
      induction a with
      | nil => exact ⟨[], rfl, .nil⟩
      | cons e a ih =>
        obtain ⟨b, h1, h2⟩ := ih fun x hx => ha x (by simp [hx])
        have := ha e (by simp)
        refine ⟨_ :: b, ?_, .cons ⟨this.1, this.2, some (answer link e), rfl⟩ h2⟩
        simp only [eachEl]
        rw [hs.associate (.self this.1 this.2), h1]
        rfl
    obtain ⟨b, h1, h2⟩ := this
    rw [h1]
    exact .ok h2
  have both : ∀ x y : Py (List El), transformElements special books none es = x → transformElements special books (some link) es = y → Both (All2 Lk) x y := by
    intro x y hx hy
    have e : y = x >>= eachEl (associate1 link) := by
      rw [← hx, ← hy]
      unfold transformElements
      simp only [bind_assoc, pure_bind]
    cases x with
    | error e' => rw [e]; exact .error e'
    | ok a =>
      rw [e]
      have h1 := transform_bare (fun e he => (h e he).1) hx
      have h2 := transform_noRecid (fun e he => (h e he).2) hx
      exact key fun e he => ⟨h1 e he, h2 e he⟩
  exact both _ _ rfl rfl

end Py
