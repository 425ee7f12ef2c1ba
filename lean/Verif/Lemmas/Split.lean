import Verif.Model.Split
import Verif.Spec.Split

/-!
# Lemmas about splitting a line into citations
-/

namespace Py
open Spec

theorem split1_some {c : Char} {s a b : Str} (h : split1 c s = some (a, b)) : s = a ++ c :: b ∧ c ∉ a := by
  induction s generalizing a with
  | nil => cases h
  | cons x xs ih =>
    unfold split1 at h
    split at h
    · rename_i hx; cases h; subst hx; simp
    · rename_i hx
      cases hs : split1 c xs with
      | none => rw [hs] at h; cases h
      | some p =>
        rw [hs] at h
        cases h
        obtain ⟨h1, h2⟩ := ih (a := p.1) hs
        refine ⟨by rw [h1]; simp, ?_⟩
        simp only [List.mem_cons, not_or]
        exact ⟨fun e => hx e.symm, h2⟩

theorem split1_none {c : Char} {s : Str} (h : split1 c s = none) : c ∉ s := by
  induction s with
  | nil => simp
  | cons x xs ih =>
    unfold split1 at h
    split at h
    · cases h
    · rename_i hx
      cases hs : split1 c xs with
      | none => simp only [List.mem_cons, not_or]; exact ⟨fun e => hx e.symm, ih hs⟩
      | some p => rw [hs] at h; cases h

theorem popLast_some {α : Type} {p : α → Bool} {l r : List α} {a : α} (h : popLast p l = some (a, r)) :
    p a = true ∧ ∃ x y, l = x ++ a :: y ∧ r = x ++ y ∧ ∀ b ∈ y, p b = false := by
  induction l generalizing r with
  | nil => cases h
  | cons c l ih =>
    unfold popLast at h
    cases hp : popLast p l with
    | some q =>
      rw [hp] at h
      obtain ⟨b, r'⟩ := q
      cases h
      obtain ⟨h1, x, y, h2, h3, h4⟩ := ih hp
      exact ⟨h1, c :: x, y, by simp [h2], by simp [h3], h4⟩
    | none =>
      rw [hp] at h
      dsimp only at h
      split at h
      · rename_i hc
        cases h
        refine ⟨hc, [], l, rfl, rfl, ?_⟩
        intro b hb
        cases hb' : p b with
        | false => rfl
        | true =>
          exfalso
          clear ih hc
          induction l with
          | nil => cases hb
          | cons d l ih =>
            unfold popLast at hp
            cases hq : popLast p l with
            | some q => rw [hq] at hp; cases hp
            | none =>
              rw [hq] at hp
              dsimp only at hp
              split at hp
              · cases hp
              · rename_i hd
                rcases List.mem_cons.1 hb with rfl | hb
                · exact hd hb'
                · exact ih hq hb
      · cases h

theorem popLast_none {α : Type} {p : α → Bool} {l : List α} (h : popLast p l = none) : ∀ b ∈ l, p b = false := by
  induction l with
  | nil => simp
  | cons d l ih =>
    unfold popLast at h
    cases hq : popLast p l with
    | some q => rw [hq] at h; cases h
    | none =>
      rw [hq] at h
      dsimp only at h
      split at h
      · cases h
      · rename_i hd
        intro b hb
        rcases List.mem_cons.1 hb with rfl | hb
        · simpa using hd
        · exact ih hq b hb

/-- Values of the objects that are not authors. -/
def plain (l : List Obj) : List El := nonAuthors (l.map (·.el))

theorem nonAuthors_append (a b : List El) : nonAuthors (a ++ b) = nonAuthors a ++ nonAuthors b := by
  simp [nonAuthors]

theorem plain_append (a b : List Obj) : plain (a ++ b) = plain a ++ plain b := by
  simp [plain, nonAuthors]

theorem plain_auth {o : Obj} (h : o.isAuth = true) : plain [o] = [] := by
  have : o.el.ty = .auth := by simpa [Obj.isAuth] using h
  simp [plain, nonAuthors, this]

theorem plain_postpone (cur : List Obj) (n : Nat) : plain (postponeLastAuth cur n).2 = plain cur := by
  unfold postponeLastAuth
  split
  · rfl
  · cases hp : popLast Obj.isAuth cur with
    | none => rfl
    | some q =>
      obtain ⟨a, r⟩ := q
      dsimp only
      split
      · rfl
      · obtain ⟨h1, x, y, h2, h3, _⟩ := popLast_some hp
        rw [h2]
        show plain r = _
        rw [h3, plain_append, plain_append, show a :: y = [a] ++ y from rfl, plain_append, plain_auth h1,
          List.nil_append]

theorem postpone_auth {cur : List Obj} {n : Nat} {a : Obj} (h : (postponeLastAuth cur n).1 = some a) :
    a.isAuth = true ∧ a ∈ cur := by
  unfold postponeLastAuth at h
  split at h
  · cases h
  · cases hp : popLast Obj.isAuth cur with
    | none => rw [hp] at h; cases h
    | some q =>
      obtain ⟨b, r⟩ := q
      rw [hp] at h
      obtain ⟨h1, x, y, h2, h3, _⟩ := popLast_some hp
      have : b = a := by
        dsimp only at h
        split at h <;> cases h <;> rfl
      subst this
      exact ⟨h1, by rw [h2]; simp⟩

/-- A citation after postponing is a sublist of the one before. -/
theorem postpone_sublist (cur : List Obj) (n : Nat) : (postponeLastAuth cur n).2.Sublist cur := by
  unfold postponeLastAuth
  split
  · exact List.Sublist.refl _
  · cases hp : popLast Obj.isAuth cur with
    | none => exact List.Sublist.refl _
    | some q =>
      obtain ⟨a, r⟩ := q
      dsimp only
      split
      · exact List.Sublist.refl _
      · obtain ⟨h1, x, y, h2, h3, _⟩ := popLast_some hp
        rw [h2]
        show r.Sublist _
        rw [h3]
        exact List.Sublist.append (List.Sublist.refl _) (List.sublist_cons_self _ _)

/-- The postponed author really is an author. -/
def SplitSt.PpOk (s : SplitSt) : Prop := ∀ a, s.postponed = some a → a.isAuth = true

theorem plain_insert {s : SplitSt} (h : s.PpOk) : plain (insertPostponed s).1 = plain s.cur := by
  unfold insertPostponed
  cases hp : s.postponed with
  | none => rfl
  | some a =>
    dsimp only
    split
    · rw [show a :: s.cur = [a] ++ s.cur from rfl, plain_append, plain_auth (h a hp), List.nil_append]
    · rfl

theorem ppOk_yield (s : SplitSt) (r : SplitReason) : (splitYield s r).2.PpOk := by
  intro a ha
  exact (postpone_auth (cur := (insertPostponed s).1) (n := (insertPostponed s).2) ha).1

theorem cur_append (s : SplitSt) (o : Obj) : (splitAppend s o).cur = s.cur ++ [o] := by
  unfold splitAppend
  split
  · rfl
  · split <;> rfl

theorem postponed_append (s : SplitSt) (o : Obj) : (splitAppend s o).postponed = s.postponed := by
  unfold splitAppend
  split
  · rfl
  · split <;> rfl

theorem prev_append (s : SplitSt) (o : Obj) : (splitAppend s o).prev = s.prev := by
  unfold splitAppend
  split
  · rfl
  · split <;> rfl

theorem ppOk_append {s : SplitSt} (h : s.PpOk) (o : Obj) : (splitAppend s o).PpOk := by
  intro a ha; rw [postponed_append] at ha; exact h a ha

theorem plain_yield {s : SplitSt} (h : s.PpOk) (r : SplitReason) : plain (splitYield s r).1 = plain s.cur := by
  unfold splitYield
  rw [plain_postpone, plain_insert h]

theorem split_conserve : ∀ (os : List Obj) (s : SplitSt), s.PpOk → ∃ pieces : List (List El),
    All2 CutOf (os.map (·.el)) pieces ∧
    plain (splitGo s os).flatten = plain s.cur ++ nonAuthors pieces.flatten
  | [], s, h => ⟨[], .nil, by
      show plain ([(insertPostponed s).1].flatten) = _
      simp [plain_insert h, nonAuthors]⟩
  | o :: os, s, h => by
    unfold splitGo
    split
    · obtain ⟨ps, h1, h2⟩ := split_conserve os _ (ppOk_append h o)
      refine ⟨[o.el] :: ps, .cons (.whole _) h1, ?_⟩
      rw [h2, cur_append, plain_append, List.flatten_cons, nonAuthors_append, List.append_assoc]
      rfl
    · obtain ⟨ps, h1, h2⟩ := split_conserve os _ (ppOk_append (ppOk_yield s .repeated) o)
      refine ⟨[o.el] :: ps, .cons (.whole _) h1, ?_⟩
      rw [List.flatten_cons, plain_append, h2, cur_append, plain_append, plain_yield h, List.flatten_cons,
        nonAuthors_append]
      rfl
    · split
      · rename_i m rest hs
        obtain ⟨e1, e2⟩ := split1_some hs
        have hpp : SplitSt.PpOk { s with cur := s.cur ++ [⟨s.fresh, { ty := .misc, misc := m }⟩], fresh := s.fresh + 1 } :=
          fun a ha => h a ha
        obtain ⟨ps, h1, h2⟩ := split_conserve os _ (ppOk_append (ppOk_yield
          { s with cur := s.cur ++ [⟨s.fresh, { ty := .misc, misc := m }⟩], fresh := s.fresh + 1 } .semicolon)
          { o with el := { o.el with misc := rest } })
        refine ⟨[{ ty := .misc, misc := m }, { o.el with misc := rest }] :: ps,
          .cons (.atSemicolon _ _ _ e1 e2) h1, ?_⟩
        rw [List.flatten_cons, plain_append, h2, cur_append, plain_append, plain_yield hpp, plain_append,
          List.flatten_cons, nonAuthors_append, show ∀ a b : El, [a, b] = [a] ++ [b] from fun _ _ => rfl,
          nonAuthors_append]
        simp only [List.append_assoc]
        rfl
      · rename_i hs
        obtain ⟨ps, h1, h2⟩ := split_conserve os _ (ppOk_append h o)
        refine ⟨[o.el] :: ps, .cons (.whole _) h1, ?_⟩
        rw [h2, cur_append, plain_append, List.flatten_cons, nonAuthors_append, List.append_assoc]
        rfl

theorem number_map (es : List El) : ∀ n, (number n es).map (·.el) = es := by
  induction es with
  | nil => intro n; rfl
  | cons e es ih => intro n; simp [number, ih]

end Py
