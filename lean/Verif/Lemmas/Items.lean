import Verif.Spec.Items
import Verif.Lemmas.Hdl
import Verif.Lemmas.Implied
import Verif.Lemmas.Collab3
import Verif.Lemmas.Known3
import Verif.Lemmas.Author2
import Verif.Props.Transform

/-!
# The items of a line that are not articles
-/

open Py Spec
open scoped List

namespace Py

/-! ### Lists -/

theorem all2_comp {α β γ : Type} {R : α → β → Prop} {S : β → γ → Prop} {xs : List α} {ys : List β} {zs : List γ} (h : All2 R xs ys) (h' : All2 S ys zs) :
    All2 (fun x z => ∃ y, R x y ∧ S y z) xs zs := by
  induction h generalizing zs with
  | nil => cases h'; exact .nil
  | cons h1 _ ih => cases h' with | cons h2 h3 => exact .cons ⟨_, h1, h2⟩ (ih h3)

theorem all2_impl {α β : Type} {R S : α → β → Prop} (hRS : ∀ a b, R a b → S a b) {xs : List α} {ys : List β} (h : All2 R xs ys) : All2 S xs ys := by
  induction h with
  | nil => exact .nil
  | cons h1 _ ih => exact .cons (hRS _ _ h1) ih

theorem all2_eq {α : Type} {xs ys : List α} (h : All2 (fun x y => x = y) xs ys) : xs = ys := by
  induction h with
  | nil => rfl
  | cons h1 _ ih => rw [h1, ih]

theorem all2_app {α β : Type} {R : α → β → Prop} {as xs : List α} {bs ys : List β} (h : All2 R as bs) (h' : All2 R xs ys) : All2 R (as ++ xs) (bs ++ ys) := by
  induction h with
  | nil => exact h'
  | cons h1 _ ih => exact .cons h1 ih

theorem all2_split {α β : Type} {R : α → β → Prop} {xs : List α} {bs cs : List β} {y : β} (h : All2 R xs (bs ++ y :: cs)) :
    ∃ as x zs, xs = as ++ x :: zs ∧ All2 R as bs ∧ R x y ∧ All2 R zs cs := by
  induction bs generalizing xs with
  | nil => cases h with | cons h1 h2 => exact ⟨[], _, _, rfl, .nil, h1, h2⟩
  | cons b bs ih =>
    cases h with
    | cons h1 h2 =>
      obtain ⟨as, x, zs, rfl, h3, h4, h5⟩ := ih h2
      exact ⟨_ :: as, x, zs, rfl, .cons h1 h3, h4, h5⟩

/-! ### Steps -/

/-- A step that keeps what is an item, and treats items apart from texts and links. -/
def ItemStep (f : El → Py El) : Prop :=
  ∀ e e', f e = .ok e' → isEntry e'.ty = isEntry e.ty ∧ (isEntry e.ty = true → f (bare e) = .ok (bare e'))

theorem entries_cons (e : El) (es : List El) : entries (e :: es) = if isEntry e.ty then bare e :: entries es else entries es := by
  unfold entries ofKinds
  rw [List.filter_cons]
  split <;> simp_all

theorem entries_append (a b : List El) : entries (a ++ b) = entries a ++ entries b := by simp [entries, ofKinds]

theorem entries_step {f : El → Py El} (hf : ItemStep f) {es es' : List El} (h : eachEl f es = .ok es') :
    All2 (fun x y => f x = .ok y) (entries es) (entries es') := by
  induction es generalizing es' with
  | nil => cases h; exact .nil
  | cons e es ih =>
    simp only [eachEl] at h
    obtain ⟨e', h1, h⟩ := bind_ok h
    obtain ⟨r, h2, h⟩ := bind_ok h
    have := pure_ok h
    subst this
    obtain ⟨k1, k2⟩ := hf e e' h1
    rw [entries_cons, entries_cons, k1]
    by_cases hi : isEntry e.ty = true
    · rw [if_pos hi, if_pos hi]
      exact .cons (k2 hi) (ih h2)
    · rw [if_neg hi, if_neg hi]
      exact ih h2

/-- A step for articles only. -/
theorem entries_journal {f : El → Py El} (h1 : ∀ e, e.ty ≠ .journal → f e = .ok e) (h2 : ∀ e e', e.ty = .journal → f e = .ok e' → isEntry e'.ty = false)
    {es es' : List El} (h : eachEl f es = .ok es') : entries es' = entries es := by
  have hs : ItemStep f := by
    intro e e' he
    by_cases hj : e.ty = .journal
    · rw [h2 e e' hj he]
      simp [isEntry, hj]
    · rw [h1 e hj] at he
      cases he
      exact ⟨rfl, fun _ => h1 _ hj⟩
  have := entries_step hs h
  have hitem : ∀ x ∈ entries es, x.ty ≠ .journal := by
    intro x hx
    simp only [entries, ofKinds, List.mem_map, List.mem_filter] at hx
    obtain ⟨y, ⟨-, hy⟩, rfl⟩ := hx
    intro hj
    have : y.ty = .journal := hj
    simp [isEntry, this] at hy
  revert this hitem
  generalize entries es = a
  generalize entries es' = b
  intro h hitem
  induction h with
  | nil => rfl
  | cons h3 _ ih =>
    rw [h1 _ (hitem _ (by simp))] at h3
    cases h3
    rw [ih fun x hx => hitem x (by simp [hx])]

/-! ### Handles in texts -/

theorem withHandles_refl (es : List El) : WithHandles es es := by
  induction es with
  | nil => exact .nil
  | cons e es ih => exact .both ih

theorem withHandles_trans {a b c : List El} (h : WithHandles a b) (h' : WithHandles b c) : WithHandles a c := by
  induction h' generalizing a with
  | nil => exact h
  | both _ ih =>
    cases h with
    | both h => exact .both (ih h)
    | handle h0 h => exact .handle h0 (ih h)
  | handle h0 _ ih => exact .handle h0 (ih h)

theorem withHandles_append {a b c d : List El} (h : WithHandles a b) (h' : WithHandles c d) : WithHandles (a ++ c) (b ++ d) := by
  induction h with
  | nil => exact h'
  | both _ ih => exact .both ih
  | handle h0 _ ih => exact .handle h0 ih

theorem withHandles_nil {b : List El} (h : ∀ e ∈ b, e.ty = .hdl) : WithHandles [] b := by
  induction b with
  | nil => exact .nil
  | cons e b ih => exact .handle (h e (by simp)) (ih fun x hx => h x (by simp [hx]))

theorem bare_ty (e : El) : (bare e).ty = e.ty := rfl

theorem entries_hdl {b : List El} (h : ∀ e ∈ b, e.ty = .hdl) : ∀ e ∈ entries b, e.ty = .hdl := by
  intro e he
  simp only [entries, ofKinds, List.mem_map, List.mem_filter] at he
  obtain ⟨y, ⟨hy, -⟩, rfl⟩ := he
  exact h y hy

theorem insertAfter_entries {e x : El} (hx : x.ty = .hdl) : ∀ {d d' : List El}, insertAfter e x d = some d' → WithHandles (entries d) (entries d')
  | [], _, h => by cases h
  | y :: ys, d', h => by
    simp only [insertAfter] at h
    split at h
    · cases h
      rw [entries_cons, entries_cons, entries_cons]
      have : isEntry x.ty = true := by rw [hx]; rfl
      rw [if_pos this]
      split
      · exact .both (.handle hx (withHandles_refl _))
      · exact .handle hx (withHandles_refl _)
    · cases hi : insertAfter e x ys with
      | none => rw [hi] at h; cases h
      | some z =>
        rw [hi] at h
        cases h
        rw [entries_cons, entries_cons]
        split
        · exact .both (insertAfter_entries hx hi)
        · exact insertAfter_entries hx hi

theorem hdlLoop_entries : ∀ (ms : List Match) (d : List El) (e : El) (a : List El), (∀ x ∈ a, x.ty = .hdl) →
    WithHandles (entries d) (entries (hdlLoop d e a ms).1) ∧ bare (hdlLoop d e a ms).2.1 = bare e ∧ (hdlLoop d e a ms).2.1.ty = e.ty ∧
      ∀ x ∈ (hdlLoop d e a ms).2.2, x.ty = .hdl
  | [], d, e, a, h => ⟨withHandles_refl _, rfl, rfl, h⟩
  | m :: ms, d, e, a, h => by
    simp only [hdlLoop]
    split
    · rename_i d' hd
      obtain ⟨h1, h2, h3, h4⟩ := hdlLoop_entries ms d' { e with misc := e.misc.take m.start } a h
      exact ⟨withHandles_trans (insertAfter_entries rfl hd) h1, h2, h3, h4⟩
    · obtain ⟨h1, h2, h3, h4⟩ := hdlLoop_entries ms d { e with misc := e.misc.take m.start }
        ({ ty := .hdl, misc := e.misc.drop m.stop, hdlId := m.group G.hdl_id } :: a) (by
          intro x hx
          rcases List.mem_cons.1 hx with rfl | hx
          · rfl
          · exact h x hx)
      exact ⟨h1, h2, h3, h4⟩

variable [UnicodeDB]

theorem hdlGo_entries : ∀ (es d : List El), WithHandles (entries (d ++ es)) (entries (hdlGo d es))
  | [], d => by rw [hdlGo, List.append_nil]; exact withHandles_refl _
  | e :: es, d => by
    rw [hdlGo]
    obtain ⟨h1, h2, h3, h4⟩ := hdlLoop_entries (finditer Rx.re_hdl e.misc).reverse d e [] (by simp)
    revert h1 h2 h3 h4
    generalize hdlLoop d e [] (finditer Rx.re_hdl e.misc).reverse = r
    intro h1 h2 h3 h4
    refine withHandles_trans ?_ (hdlGo_entries es _)
    simp only [entries_append, entries_cons, h3]
    rw [List.append_assoc]
    refine withHandles_append h1 ?_
    split
    · rw [h2, List.cons_append]
      exact .both (withHandles_append (withHandles_nil (entries_hdl h4)) (withHandles_refl _))
    · exact withHandles_append (withHandles_nil (entries_hdl h4)) (withHandles_refl _)

theorem withHandles_step {R : El → El → Prop} (hR : ∀ e e', e.ty = .hdl → R e e' → e'.ty = .hdl) {a b c : List El} (h : WithHandles a b) (h' : All2 R b c) :
    ∃ d, All2 R a d ∧ WithHandles d c := by
  induction h generalizing c with
  | nil => exact ⟨_, .nil, by cases h'; exact .nil⟩
  | both _ ih =>
    cases h' with
    | cons h1 h2 =>
      obtain ⟨d, h3, h4⟩ := ih h2
      exact ⟨_, .cons h1 h3, .both h4⟩
  | handle h0 _ ih =>
    cases h' with
    | cons h1 h2 =>
      obtain ⟨d, h3, h4⟩ := ih h2
      exact ⟨d, h3, .handle (hR _ _ h0 h1) h4⟩

/-! ### Books -/

theorem lookup_mem {α : Type} {d : List (Str × α)} {k : Str} {a : α} (h : lookup d k = some a) : (k, a) ∈ d := by
  unfold lookup at h
  cases hf : d.find? (·.1 = k) with
  | none => rw [hf] at h; cases h
  | some p =>
    rw [hf] at h
    cases h
    have h1 := List.find?_some hf
    have h2 := List.mem_of_find?_eq_some hf
    simp only [decide_eq_true_eq] at h1
    rw [← h1]
    exact h2

theorem lookup_none {α : Type} {d : List (Str × α)} {k : Str} (h : lookup d k = none) (a : α) : (k, a) ∉ d := by
  unfold lookup at h
  simp only [Option.map_eq_none_iff, List.find?_eq_none, decide_eq_true_eq] at h
  exact fun hm => h _ hm rfl

theorem getIdx_get {α : Type} {l : List α} {i : Nat} {a : α} (h : getIdx l i = .ok a) : l[i]? = some a := by
  unfold getIdx at h
  split at h
  · cases h; assumption
  · cases h

theorem bookElement_of {row : List Str} {b : El} (h : bookElement row = .ok b) : BookOf row b := by
  unfold bookElement at h
  obtain ⟨a, h1, h⟩ := bind_ok h
  obtain ⟨t, h2, h⟩ := bind_ok h
  obtain ⟨y, h3, h⟩ := bind_ok h
  have := pure_ok h
  subst this
  exact ⟨a, t, y, _, getIdx_get h1, getIdx_get h2, getIdx_get h3, trimmed_stripP _ _, rfl⟩

theorem entries_quoted {a : List El} (h : ∀ e ∈ a, e.ty ≠ .quoted) : ∀ e ∈ entries a, e.ty ≠ .quoted := by
  intro e he
  simp only [entries, ofKinds, List.mem_map, List.mem_filter] at he
  obtain ⟨y, ⟨hy, -⟩, rfl⟩ := he
  exact h y hy

theorem bookOf_bare {row : List Str} {b : El} (h : BookOf row b) : bare b = b ∧ b.ty = .book := by
  obtain ⟨_, _, _, _, _, _, _, _, rfl⟩ := h
  exact ⟨rfl, rfl⟩

theorem lookForBooks_entries {books : Books} {es es' : List El} (h : lookForBooks books es = .ok es') : Booked books (entries es) (entries es') := by
  unfold lookForBooks at h
  cases hf : es.find? (·.ty = .quoted) with
  | none =>
    rw [hf] at h
    cases h
    simp only [List.find?_eq_none, decide_eq_true_eq] at hf
    exact .noTitle (entries_quoted hf)
  | some t =>
    rw [hf] at h
    dsimp only at h
    obtain ⟨title, h1, h⟩ := bind_ok h
    obtain ⟨ht, a, b, rfl, ha⟩ := List.find?_eq_some_iff_append.1 hf
    simp only [decide_eq_true_eq] at ht
    have ha : ∀ e ∈ a, e.ty ≠ .quoted := fun e he => by simpa using ha e he
    have h1 : t.title = some title := by
      unfold getKey at h1
      split at h1
      · cases h1; assumption
      · cases h1
    have hi : isEntry t.ty = true := by rw [ht]; rfl
    have e1 : entries (a ++ t :: b) = entries a ++ bare t :: entries b := by rw [entries_append, entries_cons, if_pos hi]
    cases hl : lookup books (upper title) with
    | none =>
      rw [hl] at h
      have := pure_ok h
      subst this
      rw [e1]
      exact .unknown (s := title) (entries_quoted ha) ht h1 (lookup_none hl)
    | some row =>
      rw [hl] at h
      dsimp only at h
      obtain ⟨bk, h2, h⟩ := bind_ok h
      have := pure_ok h
      subst this
      have hb := bookElement_of h2
      have hb' := bookOf_bare hb
      have hn : t ∉ a := fun hm => ha t hm ht
      have e2 : ((a ++ t :: b) ++ [bk]).erase t = a ++ (b ++ [bk]) := by
        rw [List.append_assoc, List.erase_append_right _ hn]
        simp
      rw [e2, e1, entries_append, entries_append]
      have e3 : entries [bk] = [bk] := by
        rw [entries_cons, hb'.2, hb'.1]; rfl
      rw [e3, ← List.append_assoc]
      exact .known (s := title) (row := row) (entries_quoted ha) ht h1 (lookup_mem hl) hb

/-- A step that leaves titles and books alone may be taken before or after. -/
theorem booked_step {R : El → El → Prop} (hty : ∀ e e', R e e' → (e.ty = .quoted ↔ e'.ty = .quoted)) (hq : ∀ e e', e'.ty = .quoted → R e e' → e = e')
    (hb : ∀ e, e.ty = .book → R e e) {books : Books} {a b c : List El} (h : All2 R a b) (h' : Booked books b c) :
    ∃ d, Booked books a d ∧ All2 R d c := by
  have hquoted : ∀ {xs ys : List El}, All2 R xs ys → (∀ e ∈ ys, e.ty ≠ .quoted) → ∀ e ∈ xs, e.ty ≠ .quoted := by
    intro xs ys h
    induction h with
    | nil => intro _ e he; cases he
    | cons h1 _ ih =>
      intro hh e he
      rcases List.mem_cons.1 he with rfl | he
      · exact fun hx => hh _ (by simp) ((hty _ _ h1).1 hx)
      · exact ih (fun e he => hh e (by simp [he])) e he
  cases h' with
  | noTitle h0 => exact ⟨a, .noTitle (hquoted h h0), h⟩
  | unknown h0 h1 h2 h3 =>
    obtain ⟨as, x, zs, rfl, k1, k2, k3⟩ := all2_split h
    have := hq _ _ h1 k2
    subst this
    exact ⟨_, .unknown (hquoted k1 h0) h1 h2 h3, h⟩
  | known h0 h1 h2 h3 h4 =>
    obtain ⟨as, x, zs, rfl, k1, k2, k3⟩ := all2_split h
    have := hq _ _ h1 k2
    subst this
    exact ⟨_, .known (hquoted k1 h0) h1 h2 h3 h4, all2_app (all2_app k1 k3) (.cons (hb _ (bookOf_bare h4).2) .nil)⟩

end Py
