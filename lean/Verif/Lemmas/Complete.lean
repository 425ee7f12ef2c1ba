import Verif.Spec.Engine
import Verif.Model.Parse
import Verif.Lemmas.Engine
import Verif.Lemmas.ReSyn
import Verif.Lemmas.Numeration
import Verif.Lemmas.Parse2
import Verif.Props.Numeration
import Verif.Lemmas.Record2
import Verif.Model.Kbs
import Verif.Props.Transform
import Verif.Lemmas.Find

/-!
# Helper lemmas: elements have the entries that are asked for
-/

namespace Py
open Spec

/-- The result satisfies `P` or the error satisfies `E`. -/
def Safe {α : Type} (E : PyErr → Prop) (P : α → Prop) : Py α → Prop
  | .ok a => P a
  | .error e => E e

theorem Safe.bind {α β : Type} {E : PyErr → Prop} {P : α → Prop} {Q : β → Prop} {x : Py α} {f : α → Py β}
    (h : Safe E P x) (hf : ∀ a, P a → Safe E Q (f a)) : Safe E Q (x >>= f) := by
  cases x with
  | ok a => exact hf a h
  | error e => exact h

theorem Safe.mono {α : Type} {E : PyErr → Prop} {P Q : α → Prop} {x : Py α} (h : Safe E P x) (hq : ∀ a, P a → Q a) : Safe E Q x := by
  cases x with
  | ok a => exact hq a h
  | error e => exact h

theorem Safe.ret {α : Type} {E : PyErr → Prop} {P : α → Prop} {a : α} (h : P a) : Safe E P (pure a) := h

variable [UnicodeDB] {E : PyErr → Prop}

theorem safe_int (hE : E .valueError) (s : Str) : Safe E (fun _ => True) (pyInt s) := by
  unfold pyInt
  dsimp only
  split
  · exact hE
  · split
    · exact hE
    · split <;> first | trivial | exact hE

omit [UnicodeDB] in
theorem safe_eachEl {f : El → Py El} {P : El → Prop} (hf : ∀ e, P e → Safe E P (f e)) {es : List El} (h : ∀ e ∈ es, P e) :
    Safe E (fun es' => ∀ e ∈ es', P e) (eachEl f es) := by
  induction es with
  | nil => exact fun e he => by cases he
  | cons e es ih =>
    simp only [eachEl]
    refine Safe.bind (hf e (h e (by simp))) fun e' he' => ?_
    refine Safe.bind (ih fun x hx => h x (by simp [hx])) fun es' hes' => ?_
    exact Safe.ret fun x hx => by
      rcases List.mem_cons.1 hx with rfl | hx
      · exact he'
      · exact hes' x hx

omit [UnicodeDB] in
theorem complete_journal {e : El} (h : Complete e) (hj : e.ty = .journal) : ∃ t v y p, e.title = some t ∧ e.volume = some (some v) ∧
    e.year = some (some y) ∧ e.page = some (some p) := by
  simp only [Complete, hj] at h
  obtain ⟨⟨t, ht⟩, ⟨v, hv⟩, ⟨y, hy⟩, p, hp⟩ := h
  exact ⟨t, v, y, p, ht, hv, hy, hp⟩

omit [UnicodeDB] in
theorem safe_splitVolume {e : El} (h : Complete e) : Safe E Complete (splitVolume1 e) := by
  unfold splitVolume1
  split
  · rename_i hj
    obtain ⟨t, v, y, p, ht, hv, hy, hp⟩ := complete_journal h hj
    rw [ht, hv]
    simp only [getKey, getStr, okBind]
    split
    · exact Safe.ret (by simp [Complete, hj, HasText, hy, hp])
    · exact Safe.ret h
  · exact Safe.ret h

omit [UnicodeDB] in
theorem safe_roman {s : Str} (h : ∀ c ∈ s, c.toNat ≠ 0) : Safe E (fun _ => True) (roman2arabic s) := by
  have key : ∀ (s : Str) (a b : Nat), (∀ c ∈ s, c.toNat ≠ 0) → Safe E (fun _ => True) (romanLoop a b s) := by
    intro s
    induction s with
    | nil => intro a b _; trivial
    | cons c s ih =>
      intro a b h
      simp only [romanLoop]
      unfold romanDigit
      rw [if_neg (h c (by simp))]
      exact ih _ _ fun x hx => h x (by simp [hx])
  exact key s 0 0 h

theorem roman_upper {v : Str} (h : LooksRoman v) : ∀ c ∈ upper v, c.toNat ≠ 0 := by
  obtain ⟨s, -, hs, hv⟩ := h
  have key : ∀ d ∈ v, ∀ c ∈ upperC d, c.toNat ≠ 0 := by
    intro d hd
    have hd' : d ∈ ['I', 'V', 'X', 'i', 'v', 'x'] ++ ['\n'] := by
      rcases hv with rfl | rfl
      · exact List.mem_append_left _ (hs d hd)
      · rcases List.mem_append.1 hd with hd | hd
        · exact List.mem_append_left _ (hs d hd)
        · exact List.mem_append_right _ hd
    simp only [List.cons_append, List.nil_append, List.mem_cons, List.not_mem_nil, or_false] at hd'
    rcases hd' with rfl | rfl | rfl | rfl | rfl | rfl | rfl <;> exact fun c hc => by
      rw [List.mem_singleton.1 hc]; decide
  intro c hc
  obtain ⟨d, hd, hc⟩ := List.mem_flatMap.1 hc
  exact key d hd c hc

/-- The page consists of digits but cannot be read as a number. -/
def BadPage (e : El) : Prop := ∃ p x, e.page = some (some p) ∧ isdigit p = true ∧ pyInt p = .error x

theorem splitVolume_page {e e' : El} (h : splitVolume1 e = .ok e') : e'.page = e.page := by
  unfold splitVolume1 at h
  split at h
  · obtain ⟨t, -, h⟩ := bind_ok h
    split at h
    · obtain ⟨v, -, h⟩ := bind_ok h
      cases h; rfl
    · cases h; rfl
  · cases h; rfl

theorem formatVolume_page {e e' : El} (h : formatVolume1 e = .ok e') : e'.page = e.page := by
  unfold formatVolume1 at h
  split at h
  · obtain ⟨t, -, h⟩ := bind_ok h
    split at h
    · obtain ⟨v, -, h⟩ := bind_ok h
      cases h; rfl
    · cases h; rfl
  · cases h; rfl

theorem Safe.also {α : Type} {P Q : α → Prop} {x : Py α} (h : Safe E P x) (hq : ∀ a, x = .ok a → Q a) :
    Safe E (fun a => P a ∧ Q a) x := by
  cases x with
  | ok a => exact ⟨h, hq a rfl⟩
  | error e => exact h

theorem int_two {v : Str} (h : (reMatch Rx.two_digits_end v).isSome = true) : ∃ n, pyInt v = .ok n := by
  obtain ⟨w, hw, hl, hv⟩ := (two_digits v).1 h
  rcases hv with rfl | rfl
  · exact ⟨_, pyInt_dec hw (by omega)⟩
  · exact ⟨_, pyInt_dec_nl hw (by omega)⟩

theorem unreadable {p : Str} {x : PyErr} (h : pyInt p = .error x) (hd : isdigit p = true) : UnreadableDigits p := by
  refine ⟨hd, ?_⟩
  by_cases hl : 4300 < p.length
  · exact .inr hl
  · left
    refine Classical.byContradiction fun hn => ?_
    have hp : Decimals p := by
      refine ⟨?_, fun c hc => ?_⟩
      · rintro rfl; cases hd
      · cases hc' : isDec c with
        | true => rfl
        | false => exact absurd ⟨c, hc, hc'⟩ hn
    rw [pyInt_dec hp (by omega)] at h
    cases h

theorem safe_formatVolume {e : El} (h : Complete e) : Safe E Complete (formatVolume1 e) := by
  unfold formatVolume1
  split
  · rename_i hj
    obtain ⟨t, v, y, p, ht, hv, hy, hp⟩ := complete_journal h hj
    rw [hv]
    simp only [getStr, okBind]
    split
    · next hm =>
      exact Safe.bind (safe_roman (roman_upper ((Props.looksRoman_iff v).1 (by rw [hm]; rfl)))) fun n _ =>
        Safe.ret (by simp [Complete, hj, HasText, ht, hy, hp])
    · exact Safe.ret h
  · exact Safe.ret h

theorem safe_special {l : List Str} {e : El} (hE : l ≠ [] → BadPage e → E .valueError) (h : Complete e) : Safe E Complete (specialJournal1 l e) := by
  have tail : ∀ {e1 : El} {p : Str}, l ≠ [] → e.page = some (some p) → (e1.ty = .misc ∨ Complete e1 ∧ e1.ty = .journal) →
      e1.page = some (some p) → Safe E Complete (do
      let page ← getStr e1.page
      if isdigit page then do
        let n ← pyInt page
        return { e1 with page := some (some (padNat 3 n)) }
      else return e1) := by
    intro e1 p hl hp h1 h2
    have hc : Complete e1 := by
      rcases h1 with h1 | h1
      · simp [Complete, h1]
      · exact h1.1
    rw [h2]
    simp only [getStr, okBind]
    split
    · next hd =>
      have hi : Safe E (fun _ => True) (pyInt p) := by
        cases hx : pyInt p with
        | ok n => trivial
        | error x =>
          rw [pyInt_error hx]
          exact hE hl ⟨p, x, hp, hd, hx⟩
      refine Safe.bind hi fun n _ => Safe.ret ?_
      rcases h1 with h1 | ⟨h1, h3⟩
      · simp [Complete, h1]
      · obtain ⟨t, v, y, p, ht, hv, hy, hp⟩ := complete_journal h1 h3
        simp [Complete, h3, HasText, ht, hv, hy]
    · exact Safe.ret hc
  have mid : ∀ {e2 : El} {vol y p : Str}, l ≠ [] → e.page = some (some p) → (reMatch Rx.two_digits_end vol).isSome = true →
      (e2.ty = .misc ∨ Complete e2 ∧ e2.ty = .journal) → e2.year = some (some y) →
      e2.page = some (some p) → Safe E Complete (do
      let year ← getStr e2.year
      let n ← pyInt vol
      let e1 ← pure { e2 with volume := some (some (lastTwo year ++ padNat 2 n)) }
      let page ← getStr e1.page
      if isdigit page then do
        let n ← pyInt page
        return { e1 with page := some (some (padNat 3 n)) }
      else return e1) := by
    intro e2 vol y p hl hp hv h1 h2 h3
    obtain ⟨n, hn⟩ := int_two hv
    rw [h2, hn]
    simp only [getStr, okBind]
    refine Safe.bind (P := fun e1 => (e1.ty = .misc ∨ Complete e1 ∧ e1.ty = .journal) ∧ e1.page = some (some p)) (Safe.ret ?_)
      fun e1 he => tail hl hp he.1 he.2
    refine ⟨?_, h3⟩
    rcases h1 with h1 | ⟨h1, hj⟩
    · exact .inl h1
    · obtain ⟨t, v, y, p, ht, hv, hy, hp⟩ := complete_journal h1 hj
      exact .inr ⟨by simp [Complete, hj, HasText, ht, hp], hj⟩
  unfold specialJournal1
  split
  · rename_i hj
    obtain ⟨t, v, y, p, ht, hv, hy, hp⟩ := complete_journal h hj
    rw [ht, hv]
    simp only [getKey, getStr, okBind]
    split
    · next hc =>
      have hl : l ≠ [] := by rintro rfl; simp at hc
      split
      · next hm =>
        have hm' : (reMatch Rx.two_digits_end v).isSome = true := by rw [hm]; rfl
        rw [hy]
        simp only [okBind]
        split
        · rw [hp]
          simp only [okBind]
          split
          · exact Safe.bind (P := fun e2 => e2.ty = .misc ∧ e2.year = some (some y) ∧ e2.page = some (some p))
              (Safe.ret ⟨rfl, rfl, rfl⟩) fun e2 he => mid hl hp hm' (.inl he.1) he.2.1 he.2.2
          · exact mid hl hp hm' (.inr ⟨h, hj⟩) hy hp
        · exact mid hl hp hm' (.inr ⟨h, hj⟩) hy hp
      · exact tail hl hp (.inr ⟨h, hj⟩) hp
    · exact Safe.ret h
  · exact Safe.ret h

theorem safe_report {e : El} (h : Complete e) : Safe E Complete (formatReportNumber1 e) := by
  unfold formatReportNumber1
  split
  · rename_i hj
    have h' := h
    simp only [Complete, hj] at h'
    obtain ⟨r, hr⟩ := h'
    rw [hr]
    exact Safe.ret (by simp [Complete, hj])
  · exact Safe.ret h

omit [UnicodeDB] in
theorem safe_hep {e : El} (h : Complete e) : Safe E Complete (formatHepEl e) := by
  unfold formatHepEl
  split
  · rename_i hj
    have h' := h
    simp only [Complete, hj] at h'
    obtain ⟨r, hr⟩ := h'
    rw [hr]
    exact Safe.ret (by simp [Complete, hj])
  · exact Safe.ret h

omit [UnicodeDB] in
theorem safe_ed {e : El} (h : Complete e) : Safe E Complete (formatAuthorEd1 e) := by
  unfold formatAuthorEd1
  split
  · rename_i hj
    have h' := h
    simp only [Complete, hj] at h'
    obtain ⟨⟨r, hr⟩, t, ht⟩ := h'
    rw [hr]
    exact Safe.ret (by simp [Complete, hj, ht])
  · exact Safe.ret h

omit [UnicodeDB] in
theorem safe_removeB {e : El} (h : Complete e) : Safe E Complete (removeB1 e) := by
  unfold removeB1
  split
  · rename_i hj
    obtain ⟨t, v, y, p, ht, hv, hy, hp⟩ := complete_journal h hj
    rw [ht, hv]
    simp only [getKey, getStr, okBind]
    split
    · split
      · exact Safe.ret (by simp [Complete, hj, HasText, hy, hp])
      · exact Safe.ret h
    · exact Safe.ret h
  · exact Safe.ret h

theorem safe_mangle {e : El} (h : Complete e) : Safe E Complete (mangleVolume1 e) := by
  unfold mangleVolume1
  split
  · rename_i hj
    obtain ⟨t, v, y, p, ht, hv, hy, hp⟩ := complete_journal h hj
    rw [hv]
    simp only [getStr, okBind]
    exact Safe.ret (by simp [Complete, hj, HasText, ht, hy, hp])
  · exact Safe.ret h

omit [UnicodeDB] in
theorem safe_arxivUrl {e : El} (h : Complete e) : Safe E Complete (arxivUrl1 e) := by
  unfold arxivUrl1
  split
  · rename_i hj
    have h' := h
    simp only [Complete, hj] at h'
    obtain ⟨⟨r, hr⟩, t, ht⟩ := h'
    rw [hr]
    simp only [getKey, okBind]
    split
    · exact Safe.ret (by simp [Complete])
    · exact Safe.ret h
  · exact Safe.ret h

omit [UnicodeDB] in
theorem hdl_must : Rx.re_hdl.must [G.hdl_id] = true := by decide +kernel

theorem safe_hdlUrl {e : El} (h : Complete e) : Safe E Complete (hdlUrl1 e) := by
  unfold hdlUrl1
  split
  · rename_i hj
    have h' := h
    simp only [Complete, hj] at h'
    obtain ⟨⟨r, hr⟩, t, ht⟩ := h'
    rw [hr, ht]
    simp only [getKey, okBind]
    split
    · rename_i m hm
      obtain ⟨x, hx⟩ := reMatch_must1 hdl_must hm
      exact Safe.ret (by simp [Complete, hx])
    · exact Safe.ret h
  · exact Safe.ret h

omit [UnicodeDB] in
theorem safe_associate {l : Linker} (hE : ∀ x e, l x = .error e → e ≠ .keyError → e ≠ .indexError → E e) {e : El} (h : Complete e) :
    Safe E Complete (associate1 l e) := by
  have hc : ∀ r, Complete { e with recid := some r } := by
    intro r
    unfold Complete at h ⊢
    cases ht : e.ty <;> simp_all
  unfold associate1
  split
  · exact hc _
  · exact hc _
  · exact hc _
  · rename_i x h1 h2 h3
    exact hE _ _ h3 h2 h1


/-! ### Books and handles -/

omit [UnicodeDB] in
theorem safe_idx {α : Type} (hE : E .indexError) (l : List α) (i : Nat) : Safe E (fun _ => True) (getIdx l i) := by
  unfold getIdx
  split
  · trivial
  · exact hE

omit [UnicodeDB] in
theorem lookup_some {α : Type} {d : List (Str × α)} {k : Str} {a : α} (h : lookup d k = some a) : d ≠ [] := by
  intro h'; subst h'; cases h

theorem safe_lookForBooks {books : Books} (hE : books ≠ [] → E .indexError) {es : List El} (h : ∀ e ∈ es, Complete e) :
    Safe E (fun es' => ∀ e ∈ es', Complete e) (lookForBooks books es) := by
  unfold lookForBooks
  split
  · exact h
  · rename_i t ht
    have hq := List.find?_some ht
    simp only [decide_eq_true_eq] at hq
    have hc := h t (List.mem_of_find?_eq_some ht)
    simp only [Complete, hq] at hc
    obtain ⟨x, hx⟩ := hc
    rw [hx]
    simp only [getKey, okBind]
    split
    · exact Safe.ret h
    · rename_i line hl
      have hE' := hE (lookup_some hl)
      refine Safe.bind (P := Complete) ?_ fun b hb => Safe.ret ?_
      · unfold bookElement
        refine Safe.bind (safe_idx hE' _ _) fun a _ => ?_
        refine Safe.bind (safe_idx hE' _ _) fun t _ => ?_
        refine Safe.bind (safe_idx hE' _ _) fun y _ => ?_
        exact Safe.ret (by simp [Complete, HasText])
      · intro e he
        rcases List.mem_append.1 (List.mem_of_mem_erase he) with he | he
        · exact h e he
        · simp only [List.mem_singleton] at he
          exact he ▸ hb

omit [UnicodeDB] in
theorem complete_misc {e : El} (m : Str) (h : Complete e) : Complete { e with misc := m } := by
  unfold Complete at h ⊢
  cases ht : e.ty <;> simp_all

omit [UnicodeDB] in
theorem hdlLoop_complete {ms : List Match} (hm : ∀ m ∈ ms, ∃ x, m.group G.hdl_id = some x) : ∀ (d : List El) (e : El) (a : List El),
    (∀ x ∈ d, Complete x) → Complete e → (∀ x ∈ a, Complete x) →
    (∀ x ∈ (hdlLoop d e a ms).1, Complete x) ∧ Complete (hdlLoop d e a ms).2.1 ∧ ∀ x ∈ (hdlLoop d e a ms).2.2, Complete x := by
  induction ms with
  | nil => intro d e a h1 h2 h3; exact ⟨h1, h2, h3⟩
  | cons m ms ih =>
    intro d e a h1 h2 h3
    obtain ⟨y, hy⟩ := hm m (by simp)
    have ih := ih fun x hx => hm x (by simp [hx])
    have hn : Complete ({ ty := .hdl, misc := e.misc.drop m.stop, hdlId := m.group G.hdl_id } : El) := by simp [Complete, hy]
    simp only [hdlLoop]
    split
    · rename_i d' hd
      refine ih _ _ _ ?_ (complete_misc _ h2) h3
      intro x hx
      rcases insertAfter_mem hd x hx with h | h
      · exact h1 x h
      · exact h ▸ hn
    · refine ih _ _ _ h1 (complete_misc _ h2) ?_
      intro x hx
      rcases List.mem_cons.1 hx with h | h
      · exact h ▸ hn
      · exact h3 x h

theorem lookForHdl_complete {es : List El} (h : ∀ e ∈ es, Complete e) : ∀ e ∈ lookForHdl es, Complete e := by
  have key : ∀ (es d : List El), (∀ e ∈ es, Complete e) → (∀ e ∈ d, Complete e) → ∀ e ∈ hdlGo d es, Complete e := by
    intro es
    induction es with
    | nil => intro d _ h; exact h
    | cons e es ih =>
      intro d h1 h2
      simp only [hdlGo]
      obtain ⟨k1, k2, k3⟩ := hdlLoop_complete (ms := (finditer Rx.re_hdl e.misc).reverse) (fun m hm => by
        obtain ⟨g, hg, x, hx⟩ := finditer_must hdl_must (List.mem_reverse.1 hm)
        simp only [List.mem_singleton] at hg
        exact ⟨x, hg ▸ hx⟩) d e [] h2 (h1 e (by simp)) (by simp)
      refine ih _ (fun x hx => h1 x (by simp [hx])) ?_
      intro x hx
      rcases List.mem_append.1 hx with hx | hx
      · exact k1 x hx
      · rcases List.mem_cons.1 hx with hx | hx
        · exact hx ▸ k2
        · exact k3 x hx
  exact key es [] h (by simp)

/-- The errors that may come up in the steps after parsing. -/
structure Errs (E : PyErr → Prop) (special : List Str) (es : List El) (books : Books) (link : Option Linker) : Prop where
  value : special ≠ [] → (∃ e ∈ es, BadPage e) → E .valueError
  index : books ≠ [] → E .indexError
  type : books ≠ [] → E .typeError
  link : ∀ l x e, link = some l → l x = .error e → e ≠ .keyError → e ≠ .indexError → E e

theorem safe_transform {special : List Str} {books : Books} {link : Option Linker} {es : List El} (hE : Errs E special es books link)
    (h : ∀ e ∈ es, Complete e) : Safe E (fun es' => ∀ e ∈ es', Complete e) (transformElements special books link es) := by
  unfold transformElements
  have h0 : ∀ e ∈ es, Complete e ∧ (special ≠ [] → BadPage e → E .valueError) :=
    fun e he => ⟨h e he, fun hs hb => hE.value hs ⟨e, he, hb⟩⟩
  clear h
  refine Safe.bind (safe_eachEl (P := fun e => Complete e ∧ (special ≠ [] → BadPage e → E .valueError))
    (fun e h => (safe_splitVolume h.1).also fun a ha hs hb => h.2 hs ?_) h0) fun es h => ?_
  · unfold BadPage at hb ⊢; rwa [← splitVolume_page ha]
  clear h0
  refine Safe.bind (safe_eachEl (P := fun e => Complete e ∧ (special ≠ [] → BadPage e → E .valueError))
    (fun e h => (safe_formatVolume h.1).also fun a ha hs hb => h.2 hs ?_) h) fun es h => ?_
  · unfold BadPage at hb ⊢; rwa [← formatVolume_page ha]
  refine Safe.bind (P := fun es' => ∀ e ∈ es', Complete e) ?_ fun es h => ?_
  · clear hE
    induction es with
    | nil => exact fun e he => by cases he
    | cons e es ih =>
      simp only [eachEl]
      refine Safe.bind (safe_special (h e (by simp)).2 (h e (by simp)).1) fun e' he' => ?_
      refine Safe.bind (ih fun x hx => h x (by simp [hx])) fun es' hes' => ?_
      exact Safe.ret fun x hx => by
        rcases List.mem_cons.1 hx with rfl | hx
        · exact he'
        · exact hes' x hx
  refine Safe.bind (safe_eachEl (fun _ => safe_report) h) fun es h => ?_
  refine Safe.bind (safe_eachEl (fun _ => safe_ed) h) fun es h => ?_
  refine Safe.bind (safe_lookForBooks hE.index h) fun es h => ?_
  refine Safe.bind (safe_eachEl (fun _ => safe_hep) h) fun es h => ?_
  refine Safe.bind (safe_eachEl (fun _ => safe_removeB) h) fun es h => ?_
  refine Safe.bind (safe_eachEl (fun _ => safe_mangle) h) fun es h => ?_
  refine Safe.bind (safe_eachEl (fun _ => safe_arxivUrl) h) fun es h => ?_
  refine Safe.bind (safe_eachEl (fun _ => safe_hdlUrl) (lookForHdl_complete h)) fun es h => ?_
  cases link with
  | none => exact Safe.ret h
  | some l => exact safe_eachEl (fun _ => safe_associate fun x e => hE.link l x e rfl) h

/-! ### The heap -/

omit [UnicodeDB] in
theorem safe_eachCit {f : Heap → List Nat → Py (Heap × List Nat)} {P : El → Prop}
    (hf : ∀ h c, HeapAll P h → Safe E (fun r => HeapAll P r.1) (f h c)) {cs : List (List Nat)} {h : Heap} (hp : HeapAll P h) :
    Safe E (fun r => HeapAll P r.1) (eachCit f h cs) := by
  induction cs generalizing h with
  | nil => exact hp
  | cons c cs ih =>
    simp only [eachCit]
    refine Safe.bind (hf h c hp) fun r hr => ?_
    refine Safe.bind (ih hr) fun r' hr' => ?_
    exact Safe.ret hr'

theorem safe_ibidLoop {j : Nat} : ∀ {c : List Nat} {h : Heap} {acc : List Nat}, HeapAll Complete h → (h.get j).ty = .journal →
    Safe E (fun r => HeapAll Complete r.1) (ibidLoop j h acc c) := by
  intro c
  induction c with
  | nil => intro h acc hp _; exact hp
  | cons i c ih =>
    intro h acc hp hj
    simp only [ibidLoop]
    split
    · rename_i hi
      rcases Props.C57_numeration (h.get i).misc with hn | ⟨n, y, v, p, hn, h1, -, -, h2, -, -, h3, hpg, -⟩
      · rw [hn]; exact ih hp hj
      · rw [hn]
        simp only [okBind]
        obtain ⟨t, v', y', p', ht, hv', hy', hp'⟩ := complete_journal (hp j) hj
        refine Safe.bind (P := fun o => ∃ w, o = some w) ?_ fun vol hvol => ?_
        · unfold ibidVolume
          rw [h2, hv']
          dsimp only
          have fin : ∀ o : Option Str, Safe E (fun o : Val => ∃ w, o = some w) (match o with
              | some (c :: s) => pure (some (c :: s ++ v))
              | _ => pure (some v)) := by
            intro o
            split
            · exact Safe.ret ⟨_, rfl⟩
            · exact Safe.ret ⟨_, rfl⟩
          split
          · exact Safe.bind (P := fun _ => True) trivial fun s _ => fin s
          · exact Safe.bind (P := fun _ => True) trivial fun v _ => Safe.bind (P := fun _ => True) trivial fun s _ => fin s
        · rw [ht]
          simp only [getKey, okBind]
          have : ∃ c s, p = c :: s := by
            cases p with
            | nil => obtain ⟨x, hx, -⟩ := hpg; cases hx
            | cons c s => exact ⟨c, s, rfl⟩
          obtain ⟨c', s, rfl⟩ := this
          simp only [ibidPage, h3, okBind]
          obtain ⟨w, rfl⟩ := hvol
          apply ih
          · exact HeapAll.set (HeapAll.alloc hp (by simp [Complete, HasText, h1])) (complete_misc _ (hp i))
          · simp only [Heap.set, Heap.alloc]
            split
            · rename_i hji
              rw [hji, hi] at hj; cases hj
            · split
              · rfl
              · exact hj
    · exact ih hp hj


omit [UnicodeDB] in
theorem lastJournal_ty {h : Heap} {c : List Nat} {j : Nat} (hj : lastJournal h c = some j) : (h.get j).ty = .journal := by
  simpa using List.find?_some hj

theorem safe_ibids : ∀ {cs : List (List Nat)} {cur : Option Nat} {h : Heap}, HeapAll Complete h →
    (∀ j, cur = some j → (h.get j).ty = .journal) →
    Safe E (fun r => HeapAll Complete r.1) (impliedIbids cur h cs) := by
  intro cs
  induction cs with
  | nil => intro cur h hp _; exact hp
  | cons c cs ih =>
    intro cur h hp hc
    simp only [impliedIbids]
    refine Safe.bind (P := fun r => HeapAll Complete r.1) ?_ fun r hr => ?_
    · unfold ibidStep
      split
      · rename_i j
        split
        · exact hp
        · exact Safe.bind (safe_ibidLoop hp (hc j rfl)) fun r hr => Safe.ret hr
      · exact hp
    · refine Safe.bind (ih hr fun j hj => lastJournal_ty hj) fun r' hr' => Safe.ret hr'

omit [UnicodeDB] in
theorem mem_els {h : Heap} {c : List Nat} {e : El} (he : e ∈ h.els c) : ∃ i, h.get i = e := by
  obtain ⟨i, -, rfl⟩ := List.mem_map.1 he
  exact ⟨i, rfl⟩

omit [UnicodeDB] in
theorem els_all {P : El → Prop} {h : Heap} (hp : HeapAll P h) {c : List Nat} : ∀ e ∈ h.els c, P e := by
  intro e he
  obtain ⟨i, rfl⟩ := mem_els he
  exact hp i

theorem removeYearLoop_misc {P : El → Prop} (hm : ∀ e m, P e → P { e with misc := m }) {y : Str} : ∀ {c : List Nat} {h : Heap}, HeapAll P h →
    HeapAll P (removeYearLoop y h c) := by
  intro c
  induction c with
  | nil => intro h hp; exact hp
  | cons i c ih =>
    intro h hp
    simp only [removeYearLoop]
    apply ih
    split
    · exact HeapAll.set hp (hm _ _ (hp i))
    · exact hp

theorem safe_addYear {h : Heap} {c : List Nat} (hp : HeapAll Complete h) : Safe E (fun r => HeapAll Complete r.1) (addYear h c) := by
  unfold addYear
  refine Safe.bind (P := fun _ => True) ?_ fun o _ => ?_
  · unfold citationYear
    refine Safe.bind (P := fun _ => True) ?_ fun o _ => ?_
    · unfold firstDated
      split
      · trivial
      · rename_i e he
        have hc := els_all hp e (List.mem_of_find?_eq_some he)
        have hk := List.find?_some he
        simp only [Bool.or_eq_true, Bool.and_eq_true, decide_eq_true_eq, Option.isSome_iff_exists] at hk
        rcases hk with hk | ⟨hk, y, hy⟩
        · obtain ⟨t, v, y, p, ht, hv, hy, hp⟩ := complete_journal hc hk
          rw [hy]; trivial
        · rw [hy]; trivial
    · split <;> trivial
  · split
    · exact Safe.ret hp
    · exact Safe.ret (removeYearLoop_misc (P := Complete) (fun e m => complete_misc m)
        (HeapAll.alloc (e := { ty := .year, misc := [], year := some (some _) }) hp (by simp [Complete, HasText])))

theorem safe_cut (hE : E .indexError) (hE' : E .typeError) (s sub : Str) (n : Nat) : Safe E (fun _ => True) (cutSubstring s sub n) := by
  have key : ∀ (l clean : Str) (a b : Nat), Safe E (fun _ => True) (cutLoop clean a b l) := by
    intro l
    induction l with
    | nil => intro clean a b; trivial
    | cons c l ih =>
      intro clean a b
      simp only [cutLoop]
      split
      · exact hE
      · generalize (if c = _ then a + 1 else a) = p
        split
        · trivial
        · exact ih _ _ _
  unfold cutSubstring
  refine Safe.bind (key _ _ _ _) fun o _ => ?_
  split
  · exact hE'
  · trivial

theorem safe_bookInMisc {books : Books} (hb : BooksOk books ∨ E .keyError) (hE : books ≠ [] → E .indexError) (hE' : books ≠ [] → E .typeError)
    {es : List El} (h : ∀ e ∈ es, Complete e) (year : Val) (misc : Str) : ∀ {titles : List Str}, (∀ t ∈ titles, t ∈ books.map (·.1)) →
    Safe E (fun o => ∀ r, o = some r → Complete r.1) (bookInMisc books es year misc titles) := by
  intro titles
  induction titles with
  | nil => intro _ r hr; cases hr
  | cons t ts ih =>
    intro ht
    have ih := ih fun x hx => ht x (by simp [hx])
    simp only [bookInMisc]
    split
    · exact ih
    · obtain ⟨p, hp, rfl⟩ := List.mem_map.1 (ht t (by simp))
      have hne : books ≠ [] := List.ne_nil_of_mem hp
      have hE := hE hne
      have hE' := hE' hne
      have : Safe E (fun _ => True) (getKey (lookup books (upper p.1))) := by
        unfold lookup
        cases hf : books.find? (fun x => decide (x.1 = upper p.1)) with
        | none =>
          rcases hb with hb | hb
          · obtain ⟨q, hq, hqe⟩ := hb p hp
            have := List.find?_eq_none.1 hf q hq
            simp [hqe] at this
          · exact hb
        | some r => trivial
      refine Safe.bind this fun row _ => ?_
      refine Safe.bind (safe_idx hE _ _) fun y2 _ => ?_
      refine Safe.bind (safe_idx hE _ _) fun au _ => ?_
      split
      · refine Safe.bind (P := fun _ => True) ?_ fun _ _ => ?_
        · unfold possibleAuthors
          split
          · rename_i e he
            have hc := h e (List.mem_of_find?_eq_some he)
            have hk := List.find?_some he
            simp only [decide_eq_true_eq] at hk
            simp only [Complete, hk] at hc
            obtain ⟨⟨a, ha⟩, -⟩ := hc
            rw [ha]; trivial
          · trivial
        · refine Safe.bind (safe_idx hE _ _) fun t _ => ?_
          refine Safe.bind (safe_cut hE hE' _ _ _) fun c _ => Safe.ret ?_
          intro r hr
          cases hr
          simp [Complete, HasText]
      · exact ih

theorem safe_undetected {books : Books} (hb : BooksOk books ∨ E .keyError) (hE : books ≠ [] → E .indexError) (hE' : books ≠ [] → E .typeError)
    {h : Heap} {c : List Nat} (hp : HeapAll Complete h) : Safe E (fun r => HeapAll Complete r.1) (undetectedBooks books h c) := by
  have key : ∀ (year : Val) (is : List Nat), Safe E (fun r => HeapAll Complete r.1) (bookSearch books year h c is) := by
    intro year is
    induction is with
    | nil => exact hp
    | cons i is ih =>
      simp only [bookSearch]
      refine Safe.bind (safe_bookInMisc hb hE hE' (els_all hp) year _ fun t ht => ht) fun o ho => ?_
      split
      · exact ih
      · exact Safe.ret (HeapAll.set (HeapAll.alloc hp (ho _ rfl)) (complete_misc _ (hp i)))
  unfold undetectedBooks
  split
  · refine Safe.bind (P := fun _ => True) ?_ fun y _ => key y c
    unfold yearFromCitation
    split
    · rename_i e he
      have hc := els_all hp e (List.mem_of_find?_eq_some he)
      have hk := List.find?_some he
      simp only [decide_eq_true_eq] at hk
      simp only [Complete, hk] at hc
      obtain ⟨y, hy⟩ := hc
      rw [hy]; trivial
    · trivial
  · exact hp

omit [UnicodeDB] in
theorem safe_associateCit {l : Linker} (hE : ∀ x e, l x = .error e → e ≠ .keyError → e ≠ .indexError → E e) {h : Heap} {c : List Nat}
    (hp : HeapAll Complete h) : Safe E (fun r => HeapAll Complete r.1) (associateCit l h c) := by
  unfold associateCit
  refine Safe.bind (P := HeapAll Complete) ?_ fun h' hp' => Safe.ret hp'
  induction c generalizing h with
  | nil => exact hp
  | cons i c ih =>
    simp only [associateLoop]
    exact Safe.bind (safe_associate hE (hp i)) fun e he => ih (HeapAll.set hp he)

omit [UnicodeDB] in
theorem safe_dupAuthors {h : Heap} {c : List Nat} (hp : HeapAll Complete h) : Safe E (fun r => HeapAll Complete r.1) (dupAuthorsCit h c) := by
  unfold dupAuthorsCit
  refine Safe.bind (P := HeapAll Complete) ?_ fun h' hp' => Safe.ret hp'
  generalize false = found
  induction c generalizing h found with
  | nil => exact hp
  | cons i c ih =>
    simp only [dupAuthors]
    split
    · rename_i hi
      split
      · have hc := hp i
        simp only [Complete, hi] at hc
        obtain ⟨⟨a, ha⟩, -⟩ := hc
        rw [ha]
        exact ih (HeapAll.set hp (by simp [Complete])) _
      · exact ih hp _
    · exact ih hp _

omit [UnicodeDB] in
theorem safe_dupCollabs {h : Heap} {c : List Nat} (hp : HeapAll Complete h) : Safe E (fun r => HeapAll Complete r.1) (dupCollabsCit h c) := by
  unfold dupCollabsCit
  have key : ∀ (is : List Nat) (seen : List Str) (c : List Nat), Safe E (fun _ => True) (dupCollabs h seen c is) := by
    intro is
    induction is with
    | nil => intro _ _; trivial
    | cons i is ih =>
      intro seen c
      simp only [dupCollabs]
      split
      · rename_i hi
        have hc := hp i
        simp only [Complete, hi] at hc
        obtain ⟨a, ha⟩ := hc
        rw [ha]
        simp only [getKey, okBind]
        split
        · exact ih _ _
        · exact ih _ _
      · exact ih _ _
  exact Safe.bind (key _ _ _) fun c _ => Safe.ret hp

omit [UnicodeDB] in
theorem safe_addRecid {h : Heap} {c : List Nat} (hp : HeapAll Complete h) : Safe E (fun r => HeapAll Complete r.1) (addRecid h c) := by
  unfold addRecid
  split
  · rename_i i hi
    refine HeapAll.alloc hp ?_
    have := List.find?_some hi
    unfold hasRecid at this
    cases hr : (h.get i).recid with
    | none => rw [hr] at this; cases this
    | some r => simp [Complete]
  · exact hp

theorem safe_post {special : List Str} {books : Books} {link : Option Linker} (hb : BooksOk books ∨ E .keyError) {es : List El} (hE : Errs E special es books link)
    (h : ∀ e ∈ es, Complete e) : Safe E (fun cs => ∀ c ∈ cs, ∀ e ∈ c, Complete e) (postProcess special books link es) := by
  unfold postProcess
  refine Safe.bind (safe_transform hE h) fun es h => ?_
  have h0 : HeapAll Complete (heapOf (splitCitations es)) := by
    refine heapOf_all (fun m => by simp [Complete]) ?_
    refine split_all Complete (fun m => by simp [Complete]) (fun e m => complete_misc m) _ _ (by simp) (by simp) ?_
    intro o ho
    have : o.el ∈ (number 0 es).map (·.el) := List.mem_map_of_mem ho
    rw [number_map] at this
    exact h _ this
  dsimp only
  refine Safe.bind (P := fun r => HeapAll Complete r.1) ?_ fun r hr => ?_
  · unfold enrich
    refine Safe.bind (safe_ibids h0 (by simp)) fun r hr => ?_
    refine Safe.bind (safe_eachCit (fun _ _ => safe_addYear) hr) fun r hr => ?_
    refine Safe.bind (safe_eachCit (fun _ _ => safe_undetected hb hE.index hE.type) hr) fun r hr => ?_
    cases link with
    | none => exact Safe.ret hr
    | some l => exact safe_eachCit (fun _ _ => safe_associateCit fun x e => hE.link l x e rfl) hr
  · refine Safe.bind (P := fun r => HeapAll Complete r.1) ?_ fun r hr => Safe.ret ?_
    · unfold dedupe
      refine Safe.bind (safe_eachCit (fun _ _ => safe_dupAuthors) hr) fun r hr => ?_
      refine Safe.bind (safe_eachCit (f := dupDoisCit) (P := Complete) (fun h c hp => by exact hp) hr) fun r hr => ?_
      refine Safe.bind (safe_eachCit (fun _ _ => safe_dupCollabs) hr) fun r hr => ?_
      exact safe_eachCit (fun _ _ => safe_addRecid) hr
    · intro c hc e he
      obtain ⟨c', -, rfl⟩ := List.mem_map.1 hc
      exact els_all hr e he

theorem post_complete {special : List Str} {books : Books} {link : Option Linker} {es : List El} {cs : List (List El)}
    (h : ∀ e ∈ es, Complete e) (hp : postProcess special books link es = .ok cs) : ∀ c ∈ cs, ∀ e ∈ c, Complete e := by
  have := safe_post (E := fun _ => True) (special := special) (books := books) (link := link) (.inr trivial)
    ⟨fun _ _ => trivial, fun _ => trivial, fun _ => trivial, fun _ _ _ _ _ _ _ => trivial⟩ h
  rw [hp] at this
  exact this

/-! ### Making the reference -/

omit [UnicodeDB] in
theorem format_complete {e : El} (h : Complete e) (hj : e.ty = .journal) {fmt : List FmtPart} (hf : FmtPart.key .pageEnd ∉ fmt) :
    ∃ s, formatRef e fmt = .ok s := by
  obtain ⟨t, v, y, p, ht, hv, hy, hp⟩ := complete_journal h hj
  induction fmt with
  | nil => exact ⟨_, rfl⟩
  | cons q fmt ih =>
    simp only [List.mem_cons, not_or] at hf
    obtain ⟨s, hs⟩ := ih hf.2
    cases q with
    | lit l => exact ⟨l ++ s, by simp only [formatRef, hs]; rfl⟩
    | key k =>
      cases k with
      | pageEnd => exact absurd rfl hf.1
      | _ => exact ⟨_, by simp only [formatRef, fmtKey, ht, hv, hy, hp, hs]; rfl⟩

omit [UnicodeDB] in
theorem build_complete {es : List El} (h : ∀ e ∈ es, Complete e) {marker raw : Str} {fmt : List FmtPart} (hf : FmtPart.key .pageEnd ∉ fmt) :
    ∃ f, buildReferenceFields es marker raw fmt = .ok f := by
  unfold buildReferenceFields
  generalize (createReferenceField marker).set (py! "raw_ref") [raw] = f
  induction es generalizing f with
  | nil => exact ⟨f, rfl⟩
  | cons e es ih =>
    have hc := h e (by simp)
    have hfmt := format_complete (h e (by simp)) (hf := hf)
    have : ∃ g, addTyped fmt (addMisc f e.misc) e = .ok g := by
      unfold addTyped
      unfold Complete at hc
      cases ht : e.ty <;> simp only [ht] at hc ⊢
      case journal =>
        obtain ⟨t, e1⟩ := hfmt ht
        unfold addJournalSubfield
        rw [e1]
        exact ⟨_, rfl⟩
      case misc => exact ⟨_, rfl⟩
      case reportnumber => obtain ⟨t, ht⟩ := hc; rw [ht]; exact ⟨_, rfl⟩
      case doi => obtain ⟨t, ht⟩ := hc; rw [ht]; exact ⟨_, rfl⟩
      case hdl => obtain ⟨t, ht⟩ := hc; rw [ht]; exact ⟨_, rfl⟩
      case quoted => obtain ⟨t, ht⟩ := hc; rw [ht]; exact ⟨_, rfl⟩
      case isbn => obtain ⟨t, ht⟩ := hc; rw [ht]; exact ⟨_, rfl⟩
      case publisher => obtain ⟨t, ht⟩ := hc; rw [ht]; exact ⟨_, rfl⟩
      case collaboration => obtain ⟨t, ht⟩ := hc; rw [ht]; exact ⟨_, rfl⟩
      case recid => obtain ⟨t, ht⟩ := hc; rw [ht]; exact ⟨_, rfl⟩
      case year => obtain ⟨t, ht⟩ := hc; rw [ht]; exact ⟨_, rfl⟩
      case book => obtain ⟨⟨t, ht⟩, -⟩ := hc; rw [ht]; exact ⟨_, rfl⟩
      case auth => obtain ⟨⟨t, ht⟩, ⟨a, ha⟩⟩ := hc; rw [ht, ha]; exact ⟨_, rfl⟩
      case url =>
        obtain ⟨⟨t, ht⟩, ⟨a, ha⟩⟩ := hc
        rw [ht, ha]
        simp only [getKey, okBind]
        split <;> exact ⟨_, rfl⟩
    obtain ⟨g, hg⟩ := this
    obtain ⟨r, hr⟩ := ih (fun x hx => h x (by simp [hx])) g
    exact ⟨r, by simp only [buildLoop, hg, okBind]; exact hr⟩

omit [UnicodeDB] in
theorem filled_format {e : El} {fmt : List FmtPart} {s : Str} (h : Filled e fmt s) : formatRef e fmt = .ok s := by
  induction h with
  | nil => rfl
  | lit s _ ih => simp only [formatRef, ih]; rfl
  | title s e1 _ ih => simp only [formatRef, fmtKey, e1, ih]; rfl
  | volume s e1 _ ih => simp only [formatRef, fmtKey, e1, ih]; rfl
  | year s e1 _ ih => simp only [formatRef, fmtKey, e1, ih]; rfl
  | page s e1 _ ih => simp only [formatRef, fmtKey, e1, ih]; rfl
  | pageEnd s e1 _ ih => simp only [formatRef, fmtKey, e1, ih]; rfl
  | misc _ ih => simp only [formatRef, fmtKey, ih]; rfl
  | type _ ih => simp only [formatRef, fmtKey, ih]; rfl
  | none k hk _ ih =>
    rcases hk with ⟨rfl, e1⟩ | ⟨rfl, e1⟩ | ⟨rfl, e1⟩ | ⟨rfl, e1⟩ <;> (simp only [formatRef, fmtKey, e1, ih]; rfl)

omit [UnicodeDB] in
theorem journals_list {es : List El} (h : ∀ e ∈ es, Complete e) :
    ∃ js : List (Str × Str × Str × Str),
      (ofKind .journal es).filterMap (·.title) = js.map (fun j => j.1) ∧
      (ofKind .journal es).filterMap (·.volume.join) = js.map (fun j => j.2.1) ∧
      (ofKind .journal es).filterMap (·.year.join) = js.map (fun j => j.2.2.1) ∧
      (ofKind .journal es).filterMap (·.page.join) = js.map (fun j => j.2.2.2) ∧
      ∀ filled, All2 (fun e s => Filled e defaultFormat s) (ofKind .journal es) filled →
        nonEmpty filled = js.map fun j => j.1 ++ py! " " ++ j.2.1 ++ py! " (" ++ j.2.2.1 ++ py! ") " ++ j.2.2.2 := by
  induction es with
  | nil => exact ⟨[], rfl, rfl, rfl, rfl, fun filled hf => by cases hf; rfl⟩
  | cons e es ih =>
    obtain ⟨js, h1, h2, h3, h4, h5⟩ := ih fun x hx => h x (by simp [hx])
    by_cases ht : e.ty = .journal
    · obtain ⟨t, v, y, p, et, ev, ey, ep⟩ := complete_journal (h e (by simp)) ht
      have hk : ofKind .journal (e :: es) = e :: ofKind .journal es := by simp [ofKind, ht]
      rw [hk]
      refine ⟨(t, v, y, p) :: js, by simp [et, h1], by simp [ev, h2], by simp [ey, h3], by simp [ep, h4], ?_⟩
      intro filled hf
      cases hf with
      | cons hf hr =>
        rename_i s ss
        have hs : s = t ++ py! " " ++ v ++ py! " (" ++ y ++ py! ") " ++ p := by
          have := filled_format hf
          simp only [defaultFormat, formatRef, fmtKey, et, ev, ey, ep, getKey] at this
          have := pure_ok this
          rw [← this]
          simp [Val.show]
        have hr := h5 ss hr
        unfold nonEmpty at hr ⊢
        rw [List.filter_cons_of_pos (by rw [hs]; simp), hr, hs]
        rfl
    · have hk : ofKind .journal (e :: es) = ofKind .journal es := by simp [ofKind, ht]
      rw [hk]
      exact ⟨js, h1, h2, h3, h4, h5⟩

/-! ### Books -/

theorem books_ok (hup : ∀ s, upper (upper s) = upper s) {rows : List (List Str)} {books : Books} (h : buildBooks rows = .ok books) :
    BooksOk books := by
  have key : ∀ (rows : List (List Str)) (d d' : Books), (∀ p ∈ d, upper p.1 = p.1) →
      rows.foldlM (fun d row => match row[1]? with
        | some t => .ok (dset d (upper t) row)
        | none => .error .indexError) d = (.ok d' : Py Books) → ∀ p ∈ d', upper p.1 = p.1 := by
    intro rows
    induction rows with
    | nil => intro d d' hd h; cases pure_ok h; exact hd
    | cons r rs ih =>
      intro d d' hd h
      rw [List.foldlM_cons] at h
      obtain ⟨d1, h1, h⟩ := bind_ok h
      refine ih d1 d' ?_ h
      split at h1
      · cases h1
        intro p hp
        rcases dset_mem hp with hp | hp
        · exact hd p hp
        · rw [hp]; exact hup _
      · cases h1
  intro p hp
  exact ⟨p, hp, (key rows [] books (by simp) h p hp).symm⟩

/-! ### The counters do not depend on the lines before -/

omit [UnicodeDB] in
theorem all2_unsnoc {α β : Type} {R : α → β → Prop} {as : List α} {a : α} {bs : List β} (h : All2 R (as ++ [a]) bs) :
    ∃ bs' b, bs = bs' ++ [b] ∧ R a b := by
  induction as generalizing bs with
  | nil =>
    cases h with
    | cons h1 h2 => cases h2; exact ⟨[], _, rfl, h1⟩
  | cons x as ih =>
    cases h with
    | cons h1 h2 =>
      obtain ⟨bs', b, rfl, hr⟩ := ih h2
      exact ⟨_ :: bs', b, rfl, hr⟩

theorem line_counts {undesirable : Str → Str} {lib : Lib} {kbs : Kbs} {link : Option Linker} {line : Str} {p q : ParsedLine × Counts}
    (hp : LineResult undesirable lib kbs link line p) (hq : LineResult undesirable lib kbs link line q) : p.2 = q.2 := by
  obtain ⟨-, b1, b1', h1⟩ := hp
  obtain ⟨-, b2, b2', h2⟩ := hq
  have key : ∀ {bad bad' : List (Str × Nat)} {l t : Str}, tagReferenceLine lib l kbs.tag bad = .ok (t, bad') → ∃ l1 f n,
      tagFixed lib l = .ok l1 ∧ recognise l1 kbs.tag = .ok (f, n) ∧ processLine lib l1 f kbs.tag = .ok t := by
    intro bad bad' l t h
    unfold tagReferenceLine at h
    obtain ⟨l1, e1, h⟩ := bind_ok h
    obtain ⟨⟨f, n⟩, e2, h⟩ := bind_ok h
    obtain ⟨c, e3, h⟩ := bind_ok h
    obtain ⟨t', e4, h⟩ := bind_ok h
    cases pure_ok h
    exact ⟨l1, f, n, e1, e2, e4⟩
  unfold parseReferenceLine at h1 h2
  dsimp only at h1 h2
  obtain ⟨⟨t, b⟩, e1, h1⟩ := bind_ok h1
  obtain ⟨⟨t', b'⟩, e2, h2⟩ := bind_ok h2
  obtain ⟨x1, x2, x3, k1, k2, k3⟩ := key e1
  obtain ⟨y1, y2, y3, m1, m2, m3⟩ := key e2
  rw [k1] at m1; cases m1
  rw [k2] at m2; cases m2
  rw [k3] at m3; cases m3
  dsimp only at h1 h2
  obtain ⟨⟨els, n⟩, f1, h1⟩ := bind_ok h1
  obtain ⟨⟨els', n'⟩, f2, h2⟩ := bind_ok h2
  rw [f1] at f2; cases f2
  dsimp only at h1 h2
  obtain ⟨c1, g1, h1⟩ := bind_ok h1
  obtain ⟨c2, g2, h2⟩ := bind_ok h2
  have e1 := pure_ok h1
  have e2 := pure_ok h2
  simp only [Prod.mk.injEq] at e1 e2
  rw [← e1.2.2.1, ← e2.2.2.1]

end Py
