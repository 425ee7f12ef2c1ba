import Verif.Lemmas.Strings2
import Verif.Lemmas.Marker
import Verif.Lemmas.Ident2
import Verif.Lemmas.Tag
import Verif.Lemmas.Transform2
import Verif.Spec.Numbered

/-!
# Lemmas about numbered lists of references
-/

open Py Spec
open scoped List

namespace Py

variable [UnicodeDB]

/-! ### Titles of sections -/

/-- The letters that a match begins with, white space aside, and whether these are all of it. -/
def Re.lead : Re → Str × Bool
  | .eps => ([], true)
  | .set ⟨false, true, [.ch c]⟩ => ([c], true)
  | .set ⟨false, false, [.ch c]⟩ => ([c], true)
  | .star _ (.set ⟨false, false, [.space]⟩) => ([], true)
  | .seq a b => if a.lead.2 then (a.lead.1 ++ b.lead.1, b.lead.2) else a.lead
  | .group _ a => a.lead
  | _ => ([], false)

theorem spelt_spaces {s t rest : Str} (hs : Spaces s) (h : spelt t rest = true) : spelt t (s ++ rest) = true := by
  induction s with
  | nil => exact h
  | cons x s ih =>
    have := ih (fun c hc => hs c (by simp [hc]))
    cases t with
    | nil => simp [spelt]
    | cons c t => simp [spelt, hs x (by simp), this]

theorem lead_lang (r : Re) : ∀ w, Lang r w → ∃ w1 w2, w = w1 ++ w2 ∧ (r.lead.2 = true → w2 = []) ∧
    ∀ t rest, spelt t rest = true → spelt (r.lead.1 ++ t) (w1 ++ rest) = true := by
  have triv : ∀ w : Str, ∃ w1 w2, w = w1 ++ w2 ∧ (false = true → w2 = []) ∧
      ∀ t rest, spelt t rest = true → spelt ([] ++ t) (w1 ++ rest) = true := fun w => ⟨[], w, rfl, by simp, fun t rest h => h⟩
  induction r with
  | eps => intro w h; cases h; exact ⟨[], [], rfl, fun _ => rfl, fun t rest h => h⟩
  | fail => intro w h; cases h
  | set k =>
    intro w h
    unfold Re.lead
    split
    all_goals first | exact triv w | skip
    all_goals try contradiction
    next c hk =>
      cases hk
      obtain ⟨x, rfl, hx⟩ := h
      exact ⟨[x], [], rfl, fun _ => rfl, fun t rest ht => by simp [spelt, chI_mem.1 hx, ht]⟩
    next c hk =>
      cases hk
      obtain ⟨x, rfl, hx⟩ := h
      have : x = c := by simpa [CSet.mem, CItem.mem] using hx
      subst this
      exact ⟨[x], [], rfl, fun _ => rfl, fun t rest ht => by simp [spelt, self_mem_variants, ht]⟩
  | str v => intro w _; exact triv w
  | seq a b iha ihb =>
    intro w h
    obtain ⟨u, v, rfl, h1, h2⟩ := h
    obtain ⟨u1, u2, rfl, a1, a2⟩ := iha _ h1
    simp only [Re.lead]
    split
    · next e =>
      obtain ⟨v1, v2, rfl, b1, b2⟩ := ihb _ h2
      rw [a1 e]
      refine ⟨u1 ++ v1, v2, by simp, b1, fun t rest ht => ?_⟩
      rw [List.append_assoc, List.append_assoc]
      exact a2 _ _ (b2 _ _ ht)
    · next e =>
      exact ⟨u1, u2 ++ v, by simp, fun h => absurd h e, a2⟩
  | alt a b _ _ => intro w _; exact triv w
  | star g a _ =>
    intro w h
    unfold Re.lead
    split
    all_goals first | exact triv w | skip
    all_goals try contradiction
    next hk =>
      cases hk
      refine ⟨w, [], by simp, fun _ => rfl, fun t rest ht => spelt_spaces ?_ ht⟩
      refine lang_over (P := fun c => isSpace c = true) _ ?_ w h
      simp [Re.over, CSet.mem, CItem.mem]
  | group g a ih => intro w h; exact ih _ h
  | look neg a _ => intro w _; exact triv w
  | behind neg cs => intro w _; exact triv w
  | bos => intro w _; exact triv w
  | eos => intro w _; exact triv w
  | wordb => intro w _; exact triv w

/-- The number of characters other than white space. -/
def solidCount (w : Str) : Nat := (w.filter fun c => !isSpace c).length

omit [UnicodeDB] in
theorem solidCount_append (a b : Str) : solidCount (a ++ b) = solidCount a + solidCount b := by simp [solidCount]

omit [UnicodeDB] in
theorem solidCount_spaces {a : Str} (h : Spaces a) : solidCount a = 0 := by
  simp only [solidCount, List.length_eq_zero_iff, List.filter_eq_nil_iff]
  intro c hc
  simp [h c hc]

/-- The greatest number of characters of a match, white space aside. -/
def Re.cost : Re → Option Nat
  | .eps | .fail | .look .. | .behind .. | .bos | .eos | .wordb => some 0
  | .set _ => some 1
  | .str v => some v.length
  | .seq a b => match a.cost, b.cost with
    | some m, some n => some (m + n)
    | _, _ => none
  | .alt a b => match a.cost, b.cost with
    | some m, some n => some (max m n)
    | _, _ => none
  | .star _ (.set ⟨false, false, [.space]⟩) => some 0
  | .star _ _ => none
  | .group _ a => a.cost

theorem cost_lang (r : Re) : ∀ k, r.cost = some k → ∀ w, Lang r w → solidCount w ≤ k := by
  have len : ∀ w : Str, solidCount w ≤ w.length := fun w => List.length_filter_le _ _
  induction r with
  | set k => rintro _ ⟨⟩ w ⟨c, rfl, _⟩; exact len [c]
  | str v => rintro _ ⟨⟩ w rfl; exact len _
  | seq a b iha ihb =>
    intro k hk w h
    obtain ⟨u, v, rfl, h1, h2⟩ := h
    simp only [Re.cost] at hk
    split at hk
    · next m n ha hb =>
      cases hk
      rw [solidCount_append]
      exact Nat.add_le_add (iha _ ha _ h1) (ihb _ hb _ h2)
    · cases hk
  | alt a b iha ihb =>
    intro k hk w h
    simp only [Re.cost] at hk
    split at hk
    · next m n ha hb =>
      cases hk
      rcases h with h | h
      · exact Nat.le_trans (iha _ ha _ h) (Nat.le_max_left _ _)
      · exact Nat.le_trans (ihb _ hb _ h) (Nat.le_max_right _ _)
    · cases hk
  | star g a _ =>
    intro k hk w h
    unfold Re.cost at hk
    split at hk
    all_goals try contradiction
    next hh =>
      cases hh
      cases hk
      refine Nat.le_of_eq (solidCount_spaces ?_)
      refine lang_over (P := fun c => isSpace c = true) _ ?_ w h
      simp [Re.over, CSet.mem, CItem.mem]
  | group g a ih => intro k hk w h; exact ih k hk w h
  | fail => intro k _ w h; cases h
  | eps | look | behind | bos | eos | wordb => rintro _ ⟨⟩ w rfl; exact Nat.le_refl _

theorem spelt_prefix {t v s : Str} (h : spelt (t ++ v) s = true) : spelt t s = true := by
  induction s generalizing t with
  | nil =>
    cases t with
    | nil => simp [spelt]
    | cons c t => simp [spelt] at h
  | cons x s ih =>
    cases t with
    | nil => simp [spelt]
    | cons c t =>
      simp only [List.cons_append, spelt, Bool.or_eq_true, Bool.and_eq_true] at h ⊢
      rcases h with ⟨h1, h2⟩ | ⟨h1, h2⟩
      · exact .inl ⟨h1, ih h2⟩
      · exact .inr ⟨h1, ih (t := c :: t) h2⟩

theorem spelt_append {t s : Str} (v : Str) (h : spelt t s = true) : spelt t (s ++ v) = true := by
  induction s generalizing t with
  | nil =>
    cases t with
    | nil => simp [spelt]
    | cons c t => simp [spelt] at h
  | cons x s ih =>
    cases t with
    | nil => simp [spelt]
    | cons c t =>
      simp only [List.cons_append, spelt, Bool.or_eq_true, Bool.and_eq_true] at h ⊢
      rcases h with ⟨h1, h2⟩ | ⟨h1, h2⟩
      · exact .inl ⟨h1, ih h2⟩
      · exact .inr ⟨h1, ih (t := c :: t) h2⟩

theorem opensWith_here {t s : Str} {k : Nat} (h : spelt t s = true) : opensWith t s k = true := by
  cases s with
  | nil => exact h
  | cons x s => simp [opensWith, h]

theorem opensWith_after {t s : Str} {j : Nat} : ∀ {u : Str} {k : Nat}, solidCount u + j ≤ k → opensWith t s j = true → opensWith t (u ++ s) k = true
  | [], k, hk, h => by
    have : ∀ {s : Str} {j k : Nat}, j ≤ k → opensWith t s j = true → opensWith t s k = true := by
      intro s
      induction s with
      | nil => intro j k _ h; exact h
      | cons x s ih =>
        intro j k hjk h
        simp only [opensWith, Bool.or_eq_true] at h ⊢
        rcases h with h | h
        · exact .inl h
        · refine .inr ?_
          split
          · next hx => rw [if_pos hx] at h; exact ih hjk h
          · next hx =>
            rw [if_neg hx] at h
            simp only [Bool.and_eq_true, bne_iff_ne, ne_eq] at h ⊢
            exact ⟨by omega, ih (by omega) h.2⟩
    exact this (by simpa [solidCount] using hk) h
  | x :: u, k, hk, h => by
    rw [List.cons_append, opensWith, Bool.or_eq_true]
    refine .inr ?_
    by_cases hx : isSpace x = true
    · rw [if_pos hx]
      exact opensWith_after (by simpa [solidCount, hx] using hk) h
    · rw [if_neg hx]
      have e : solidCount (x :: u) = solidCount u + 1 := by simp [solidCount, hx]
      rw [Bool.and_eq_true, bne_iff_ne]
      exact ⟨by omega, opensWith_after (by omega) h⟩

theorem opensWith_append {t s : Str} {k : Nat} (v : Str) (h : opensWith t s k = true) : opensWith t (s ++ v) k = true := by
  induction s generalizing k with
  | nil => exact opensWith_here (spelt_append v h)
  | cons x s ih =>
    simp only [List.cons_append, opensWith, Bool.or_eq_true] at h ⊢
    rcases h with h | h
    · exact .inl (spelt_append (s := x :: s) v h)
    · refine .inr ?_
      split
      · next hx => rw [if_pos hx] at h; exact ih h
      · next hx =>
        rw [if_neg hx] at h
        simp only [Bool.and_eq_true] at h ⊢
        exact ⟨h.1, ih h.2⟩

theorem opensWith_strip {t l : Str} {k : Nat} (h : opensWith t (strip l) k = true) : opensWith t l k = true := by
  obtain ⟨a, b, h1, h2, -⟩ := trimmed_strip l
  have ha : solidCount a = 0 := solidCount_spaces fun c hc => h2 c (by simp [hc])
  rw [h1]
  exact opensWith_append b (opensWith_after (by omega) h)

/-- In every match one of the words begins after at most `k` characters, white space aside. -/
def Re.early (ts : List Str) (k : Nat) (r : Re) : Bool :=
  ts.any (fun t => t.isPrefixOf r.lead.1) || match r with
    | .seq a b => match a.cost with
      | some j => j ≤ k && b.early ts (k - j)
      | none => false
    | .group _ a => a.early ts k
    | _ => false

theorem early_lang (ts : List Str) (r : Re) : ∀ k, r.early ts k = true → ∀ w, Lang r w →
    ∀ rest, ∃ t ∈ ts, opensWith t (w ++ rest) k = true := by
  have here : ∀ r : Re, (ts.any fun t => t.isPrefixOf r.lead.1) = true → ∀ k w, Lang r w →
      ∀ rest, ∃ t ∈ ts, opensWith t (w ++ rest) k = true := by
    intro r h k w hs rest
    obtain ⟨t, ht, hp⟩ := List.any_eq_true.1 h
    obtain ⟨v, hv⟩ := List.isPrefixOf_iff_prefix.1 hp
    obtain ⟨w1, w2, rfl, -, h2⟩ := lead_lang r _ hs
    have := h2 [] (w2 ++ rest) (by simp [spelt])
    rw [List.append_nil, ← hv, ← List.append_assoc] at this
    exact ⟨t, ht, opensWith_here (spelt_prefix this)⟩
  induction r with
  | seq a b iha ihb =>
    intro k h w hs rest
    unfold Re.early at h
    simp only [Bool.or_eq_true] at h
    rcases h with h | h
    · exact here _ h _ _ hs rest
    · split at h
      · next j hj =>
        simp only [Bool.and_eq_true, decide_eq_true_eq] at h
        obtain ⟨u, v, rfl, h1, h2⟩ := hs
        obtain ⟨t, ht, hm⟩ := ihb _ h.2 _ h2 rest
        rw [List.append_assoc]
        refine ⟨t, ht, opensWith_after ?_ hm⟩
        have := cost_lang a j hj u h1
        omega
      · cases h
  | group g a ih =>
    intro k h w hs rest
    unfold Re.early at h
    simp only [Bool.or_eq_true] at h
    rcases h with h | h
    · exact here _ h _ _ hs rest
    · exact ih _ h _ hs rest
  | _ =>
    intro k h w hs rest
    unfold Re.early at h
    simp only [Bool.or_false] at h
    exact here _ h _ _ hs rest

omit [UnicodeDB] in
theorem titles_early : Rx.section_title_patterns.all (Re.early sectionTitles 13) = true := by decide +kernel

/-- A line that does not open with a title is not taken for one. -/
theorem title_none {l : Str} (h : ∀ t ∈ sectionTitles, opensWith t l 13 = false) {r : Re} (hr : r ∈ Rx.section_title_patterns) :
    reMatch r l = none := by
  cases hm : reMatch r l with
  | none => rfl
  | some m =>
    obtain ⟨rest, h1, h2⟩ := matchHere_sem hm
    obtain ⟨t, ht, hc⟩ := early_lang _ _ _ (List.all_eq_true.1 titles_early r hr) _ (sem_lang _ _ _ _ h2) rest
    rw [← h1, h t ht] at hc
    cases hc

theorem inner_none {doc : List Str} {r : Re} (h : ∀ l ∈ doc, reMatch r l = none) : ∀ n, sectionInner doc r n none = none
  | 0 => rfl
  | n + 1 => by
    unfold sectionInner
    split
    · exact inner_none h n
    · next line hl =>
      rw [h line (List.mem_of_getElem? hl)]
      exact inner_none h n

theorem section_none {doc : List Str} (h : ∀ l ∈ doc, ∀ t ∈ sectionTitles, opensWith t l 13 = false) : findSection doc = none := by
  unfold findSection
  have : ∀ rs : List Re, (∀ r ∈ rs, r ∈ Rx.section_title_patterns) → sectionOuter doc rs = none := by
    intro rs
    induction rs with
    | nil => intro _; rfl
    | cons r rs ih =>
      intro hr
      unfold sectionOuter
      rw [inner_none fun l hl => title_none (h l hl) (hr r (by simp))]
      exact ih fun r hr' => hr r (by simp [hr'])
  exact this _ fun r hr => hr

end Py
