import Verif.Lemmas.PdfText
import Verif.Lemmas.Items

/-!
# Lemmas about documents some lines of which have lost their ends
-/

open Py Spec
open scoped List

namespace Py

/-- A line as it stands in a document that was read from a file: with its end, or without it if it is not empty. -/
def Ends (l l' : Str) : Prop := l' = ended l ∨ (l' = l ∧ l ≠ [])

theorem ends_strip {l l' : Str} (h : Ends l l') : strip l' = strip l := by
  rcases h with rfl | ⟨rfl, -⟩
  · exact strip_ended l
  · rfl

theorem ends_ne {l l' : Str} (h : Ends l l') : l' ≠ [] := by
  rcases h with rfl | ⟨rfl, h⟩
  · simp [ended]
  · exact h

theorem ends_refl (ls : List Str) : All2 Ends ls (ls.map ended) := by
  induction ls with
  | nil => exact .nil
  | cons l ls ih => exact .cons (.inl rfl) ih

theorem ends_below {p : List Str} (h : TextPage p) : All2 Ends p (belowBreak p) := by
  obtain ⟨⟨l, ls, rfl, hl⟩, -⟩ := h
  exact .cons (.inr ⟨rfl, hl⟩) (ends_refl ls)

theorem all2_drop {α β : Type} {R : α → β → Prop} : ∀ (n : Nat) {as : List α} {bs : List β}, All2 R as bs → All2 R (as.drop n) (bs.drop n)
  | 0, _, _, h => h
  | _ + 1, _, _, .nil => .nil
  | n + 1, _, _, .cons _ h => all2_drop n h

theorem all2_take {α β : Type} {R : α → β → Prop} : ∀ (n : Nat) {as : List α} {bs : List β}, All2 R as bs → All2 R (as.take n) (bs.take n)
  | 0, _, _, _ => .nil
  | _ + 1, _, _, .nil => .nil
  | n + 1, _, _, .cons h1 h => .cons h1 (all2_take n h)

theorem all2_len {α β : Type} {R : α → β → Prop} {as : List α} {bs : List β} (h : All2 R as bs) : as.length = bs.length := by
  induction h with
  | nil => rfl
  | cons _ _ ih => simp [ih]

theorem all2_trim {p q : List Str} (h : All2 Ends p q) (nh nf : Nat) : All2 Ends (trimPage nh nf p) (trimPage nh nf q) := by
  unfold trimPage
  rw [all2_len h]
  exact all2_take _ (all2_drop _ h)

theorem all2_left {α β : Type} {R : α → β → Prop} {as as' : List α} : ∀ {cs : List β}, All2 R (as ++ as') cs → ∃ bs bs', cs = bs ++ bs' ∧ All2 R as bs ∧ All2 R as' bs' := by
  induction as with
  | nil => exact fun h => ⟨[], _, rfl, .nil, h⟩
  | cons a as ih =>
    intro cs h
    cases h with
    | cons h1 h =>
      obtain ⟨bs, bs', rfl, h2, h3⟩ := ih h
      exact ⟨_ :: bs, bs', rfl, .cons h1 h2, h3⟩

theorem all2_from {α β : Type} {R : α → β → Prop} {as : List α} {bs : List β} (h : All2 R as bs) {b : β} (hb : b ∈ bs) : ∃ a ∈ as, R a b := by
  induction h with
  | nil => cases hb
  | cons h1 h ih =>
    rcases List.mem_cons.1 hb with rfl | hb
    · exact ⟨_, by simp, h1⟩
    · obtain ⟨a, ha, hr⟩ := ih hb
      exact ⟨a, by simp [ha], hr⟩

theorem all2_to {α β : Type} {R : α → β → Prop} {as : List α} {bs : List β} (h : All2 R as bs) {a : α} (ha : a ∈ as) : ∃ b ∈ bs, R a b := by
  induction h with
  | nil => cases ha
  | cons h1 h ih =>
    rcases List.mem_cons.1 ha with rfl | ha
    · exact ⟨_, by simp, h1⟩
    · obtain ⟨b, hb, hr⟩ := ih ha
      exact ⟨b, by simp [hb], hr⟩

/-- A reference as it stands in a document that was read from a file. -/
def EndsEntry (e e' : Entry) : Prop := (e'.text = ended e.text ∨ e'.text = e.text) ∧ All2 Ends e.more e'.more

theorem endsEntry_lines {e e' : Entry} (h : EndsEntry e e') (n : Nat) : All2 Ends (entryLines (n, e)) (entryLines (n, e')) := by
  refine .cons ?_ h.2
  rcases h.1 with h | h
  · left; simp [h, ended]
  · right
    exact ⟨by simp [h], by simp [bracketed]⟩

theorem ends_numbered {es : List Entry} : ∀ {n : Nat} {after cs : List Str}, All2 Ends ((numbered n es).flatMap entryLines ++ after) cs →
    ∃ es' after', cs = (numbered n es').flatMap entryLines ++ after' ∧ All2 EndsEntry es es' ∧ All2 Ends after after' := by
  induction es with
  | nil => exact fun h => ⟨[], _, rfl, .nil, h⟩
  | cons e es ih =>
    intro n after cs h
    rw [numbered, List.flatMap_cons, List.append_assoc] at h
    obtain ⟨bs, bs', rfl, h1, h2⟩ := all2_left h
    obtain ⟨es', after', rfl, h3, h4⟩ := ih h2
    have h1 : All2 Ends ((bracketed n ++ e.text) :: e.more) bs := h1
    cases h1 with
    | cons h5 h6 =>
      rename_i b more
      rcases h5 with rfl | ⟨rfl, -⟩
      · refine ⟨⟨ended e.text, more⟩ :: es', after', ?_, .cons ⟨.inl rfl, h6⟩ h3, h4⟩
        simp [numbered, entryLines, ended]
      · refine ⟨⟨e.text, more⟩ :: es', after', ?_, .cons ⟨.inr rfl, h6⟩ h3, h4⟩
        simp [numbered, entryLines]

theorem ends_document {body : List Str} {heading : Str} {es : List Entry} {after cs : List Str} (h : All2 Ends (documentLines body heading 0 es after) cs) :
    ∃ body' heading' es' after', cs = documentLines body' heading' 0 es' after' ∧ All2 Ends body body' ∧ Ends heading heading' ∧
      All2 EndsEntry es es' ∧ All2 Ends after after' := by
  unfold documentLines at h
  obtain ⟨bs, bs', rfl, h1, h2⟩ := all2_left h
  cases h2 with
  | cons h3 h4 =>
    obtain ⟨es', after', rfl, h5, h6⟩ := ends_numbered h4
    exact ⟨bs, _, es', after', rfl, h1, h3, h5, h6⟩

variable [UnicodeDB]

theorem ends_opens {t l l' : Str} (h1 : '\n' ∉ t) (h2 : t ≠ []) (h : Ends l l') (k : Nat) : opensWith t l' k = opensWith t l k := by
  rcases h with rfl | ⟨rfl, -⟩
  · exact opensWith_ended h1 h2 l k
  · rfl

theorem ends_free {l l' : Str} (h : Ends l l') (hf : NoBracketNumber l) : NoBracketNumber l' := by
  rcases h with rfl | ⟨rfl, -⟩
  · exact free_ended hf
  · exact hf

theorem ends_unbroken {l l' : Str} (h : Ends l l') (hf : ¬ BreakLine l) : ¬ BreakLine l' := by
  rcases h with rfl | ⟨rfl, -⟩
  · exact break_ended hf
  · exact hf

theorem ends_axis {l l' : Str} (h : Ends l l') (hf : ¬ AxisLine l) : ¬ AxisLine l' := by
  rcases h with rfl | ⟨rfl, -⟩
  · exact axis_ended hf
  · exact hf

omit [UnicodeDB] in
theorem ends_list {es es' : List Entry} (h : All2 EndsEntry es es') : All2 Ends (listLines es) (listLines es') := by
  unfold listLines
  generalize 1 = n
  induction h generalizing n with
  | nil => exact .nil
  | cons h1 h ih =>
    simp only [numbered, List.flatMap_cons]
    exact all2_app (endsEntry_lines h1 n) (ih (n + 1))

theorem ends_plain {body body' : List Str} {heading heading' : Str} {es es' : List Entry} {after after' : List Str} (h : PlainDocument body heading 0 es after)
    (hs : ∀ l ∈ listLines es, l.length < 4300) (hb : All2 Ends body body') (hh : Ends heading heading') (he : All2 EndsEntry es es') (ha : All2 Ends after after') :
    PlainDocument body' heading' 0 es' after' where
  heading := by rw [Heading, ends_strip hh]; exact h.heading
  gap := Nat.zero_le _
  nonempty := by
    intro e
    subst e
    cases he
    exact h.nonempty rfl
  short := by
    intro l hl
    obtain ⟨x, hx, hr⟩ := all2_from (ends_list he) hl
    have := hs x hx
    rcases hr with rfl | ⟨rfl, -⟩
    · simp [ended]; omega
    · omega
  free := by
    intro b hb l hl
    obtain ⟨b', hb', hr⟩ := all2_from he hb
    obtain ⟨x, hx, hr⟩ := all2_from hr.2 hl
    exact ends_free hr (h.free b' hb' x hx)
  untitled := by
    intro l hl t ht
    obtain ⟨x, hx, hr⟩ := all2_from (all2_app (all2_app hb (ends_list he)) ha) hl
    obtain ⟨h1, h2⟩ := titles_lines.1 t ht
    rw [ends_opens h1 h2 hr]
    exact h.untitled x hx t ht
  unbroken := by
    intro l hl
    obtain ⟨x, hx, hr⟩ := all2_from (all2_app (all2_app hb (ends_list he)) ha) hl
    exact ends_unbroken hr (h.unbroken x hx)
  near := by
    intro b hb
    have : All2 EndsEntry es.dropLast es'.dropLast := by
      rw [List.dropLast_eq_take, List.dropLast_eq_take, all2_len he]
      exact all2_take _ he
    obtain ⟨b', hb', hr⟩ := all2_from this hb
    have := h.near b' hb'
    rwa [← all2_len hr.2]
  worded := by
    intro b hb l hl
    obtain ⟨b', hb', hr⟩ := all2_from he hb
    obtain ⟨x, hx, hr⟩ := all2_from hr.2 hl
    exact ends_axis hr (h.worded b' hb' x hx)
  last := by
    intro b hb l hl t ht
    have hr := all2_reverse he
    rw [List.getLast?_eq_head?_reverse] at hb
    cases hrev : es'.reverse with
    | nil => rw [hrev] at hb; cases hb
    | cons y ys =>
      rw [hrev] at hb hr
      cases hb
      generalize hrev' : es.reverse = xs at hr
      cases hr with
      | cons h1 h2 =>
        rename_i a as
        have hlast : es.getLast? = some a := by rw [List.getLast?_eq_head?_reverse, hrev']; rfl
        rw [← all2_len he] at hl
        obtain ⟨x, hx, hr⟩ := all2_from (endsEntry_lines h1 _) hl
        obtain ⟨h3, h4⟩ := titles_lines.2 t ht
        rw [ends_opens h3 h4 hr]
        exact h.last a hlast x hx t ht
  closed := by
    intro l rest e
    subst e
    cases ha with
    | cons h1 h2 =>
      obtain ⟨h3, h4⟩ := h.closed _ _ rfl
      refine ⟨by rw [Closing, ends_strip h1]; exact h3, fun y hy => ?_⟩
      obtain ⟨x, hx, hr⟩ := all2_from h2 hy
      exact ends_free hr (h4 x hx)

omit [UnicodeDB] in
theorem all2_strip {ls ls' : List Str} (h : All2 Ends ls ls') : ls'.map strip = ls.map strip := by
  induction h with
  | nil => rfl
  | cons h1 h ih => rw [List.map_cons, List.map_cons, ih, ends_strip h1]

omit [UnicodeDB] in
theorem prepare_ends {p : Nat × Entry} {e' : Entry} (h : Airy (entryLines p)) (he : EndsEntry p.2 e') :
    prepareRef (solidPieces (entryLines (p.1, e'))) = prepareRef (solidPieces (entryLines p)) := by
  have hl := endsEntry_lines he p.1
  have e1 : solidPieces (entryLines (p.1, e')) = entryLines (p.1, e') := by
    rw [solidPieces, List.filter_eq_self]
    intro l hm
    obtain ⟨x, -, hr⟩ := all2_from hl hm
    simpa using ends_ne hr
  have e2 : solidPieces ((entryLines p).map ended) = (entryLines p).map ended := by
    rw [solidPieces, List.filter_eq_self]
    intro l hl
    obtain ⟨x, -, rfl⟩ := List.mem_map.1 hl
    simp [ended]
  rw [← prepare_ended h, entryLines_ended, e1, e2]
  exact prepareRef_strip ((all2_strip hl).trans (all2_strip (ends_refl _)).symm)

/-- The references of a document some lines of which have lost their ends. -/
theorem plainDocument_ends {body : List Str} {heading : Str} {es : List Entry} {after cs : List Str} (h : PlainDocument body heading 0 es after)
    (hs : ∀ l ∈ listLines es, l.length < 4300) (hn : ∀ p ∈ numbered 1 es, Airy (entryLines p)) (hc : All2 Ends (documentLines body heading 0 es after) cs) :
    extractFulltext cs = .ok ((numbered 1 es).map fun p => prepareRef (solidPieces (entryLines p)), 0) := by
  obtain ⟨body', heading', es', after', rfl, h1, h2, h3, h4⟩ := ends_document hc
  rw [plainDocument_lines (ends_plain h hs h1 h2 h3 h4)]
  congr 2
  clear hc h h1 h4 hs
  generalize 1 = n at hn
  induction h3 generalizing n with
  | nil => rfl
  | cons h5 h6 ih =>
    rename_i a b as bs
    simp only [numbered, List.map_cons]
    rw [ih _ fun p hp => hn p (by simp [numbered, hp])]
    congr 1
    exact prepare_ends (p := (n, a)) (hn (n, a) (by simp [numbered])) h5

end Py
