import Verif.Lemmas.Parse2
import Verif.Spec.Engine

/-!
# What the elements of a parsed line look like
-/

open Spec

namespace Py

variable [UnicodeDB]

/-- Complete, of a kind that parsing makes, without a record identifier. -/
def Parsed (e : El) : Prop := Complete e ∧ e.ty ∈ parsedKinds ∧ e.recid = none

omit [UnicodeDB] in
theorem parsed_simple {tag : Str} {mk : Str → Str → El} {count : Counts → Counts} {n : Nat} {st : PState}
    (h : ∀ e ∈ st.els, Parsed e) (hm : ∀ a b, Parsed (mk a b)) : ∀ e ∈ (simpleStep tag mk count n st).els, Parsed e := by
  unfold simpleStep
  split
  · exact h
  · intro e he
    rcases List.mem_append.1 he with he | he
    · exact h e he
    · rw [List.mem_singleton.1 he]; exact hm _ _

omit [UnicodeDB] in
theorem parsed_subfield {tag : Str} {mk : Str → Str → El} {n : Nat} {st : PState}
    (h : ∀ e ∈ st.els, Parsed e) (hm : ∀ a b, Parsed (mk a b)) : ∀ e ∈ (subfieldStep tag mk n st).els, Parsed e := by
  unfold subfieldStep
  dsimp only
  split
  · exact h
  · intro e he
    rcases List.mem_append.1 he with he | he
    · exact h e he
    · rw [List.mem_singleton.1 he]; exact hm _ _

omit [UnicodeDB] in
theorem parsed_misc {tag : Str} {n : Nat} {st : PState} (h : ∀ e ∈ st.els, Parsed e) : ∀ e ∈ (miscStep tag n st).els, Parsed e := by
  unfold miscStep
  split <;> exact h

theorem parsed_journal {i : Bool} {title line : Str} {st : PState} (h : ∀ e ∈ st.els, Parsed e) :
    ∀ e ∈ (journalStep i title line st).els, Parsed e := by
  unfold journalStep
  split
  · exact h
  · intro e he
    rcases List.mem_append.1 he with he | he
    · exact h e he
    · rw [List.mem_singleton.1 he]
      exact ⟨by simp [Complete, HasText], by simp [parsedKinds], rfl⟩

theorem tagStep_parsed {st st' : PState} {m : Match} (hs : ∀ e ∈ st.els, Parsed e) (h : tagStep st m = .ok st') :
    ∀ e ∈ st'.els, Parsed e := by
  unfold tagStep at h
  dsimp only at h
  have fin : ∀ {a : PState}, Except.ok (ε := PyErr) a = .ok st' → (∀ e ∈ a.els, Parsed e) → ∀ e ∈ st'.els, Parsed e := by
    intro a e ha
    cases e
    exact ha
  rcases ite_or h with ⟨-, h⟩ | ⟨-, h⟩
  · split at h
    · exact fin h hs
    · exact fin h (parsed_journal hs)
  rcases ite_or h with ⟨-, h⟩ | ⟨-, h⟩
  · exact fin h (parsed_simple hs fun _ _ => ⟨by simp [Complete], by simp [parsedKinds], rfl⟩)
  rcases ite_or h with ⟨-, h⟩ | ⟨-, h⟩
  · exact fin h (parsed_simple hs fun _ _ => ⟨by simp [Complete], by simp [parsedKinds], rfl⟩)
  rcases ite_or h with ⟨c, h⟩ | ⟨-, h⟩
  · split at h
    · cases h
    · cases h
      intro e he
      rcases List.mem_append.1 he with he | he
      · exact hs e he
      · rw [List.mem_singleton.1 he]; exact ⟨by simp [Complete], by simp [parsedKinds], rfl⟩
  rcases ite_or h with ⟨c, h⟩ | ⟨-, h⟩
  · split at h
    · cases h
    · cases h
      intro e he
      rcases List.mem_append.1 he with he | he
      · exact hs e he
      · rw [List.mem_singleton.1 he]; exact ⟨by simp [Complete], by simp [parsedKinds], rfl⟩
  rcases ite_or h with ⟨-, h⟩ | ⟨-, h⟩
  · exact fin h (parsed_simple hs fun _ _ => ⟨by simp [Complete], by simp [parsedKinds], rfl⟩)
  rcases ite_or h with ⟨-, h⟩ | ⟨-, h⟩
  · exact fin h (parsed_misc hs)
  rcases ite_or h with ⟨-, h⟩ | ⟨-, h⟩
  · exact fin h (parsed_subfield hs fun _ _ => ⟨by simp [Complete], by simp [parsedKinds], rfl⟩)
  rcases ite_or h with ⟨-, h⟩ | ⟨-, h⟩
  · exact fin h (parsed_subfield hs fun _ _ => ⟨by simp [Complete], by simp [parsedKinds], rfl⟩)
  rcases ite_or h with ⟨-, h⟩ | ⟨-, h⟩
  · exact fin h (parsed_subfield hs fun _ _ => ⟨by simp [Complete], by simp [parsedKinds], rfl⟩)
  · exact fin h (parsed_subfield hs fun _ _ => ⟨by simp [Complete], by simp [parsedKinds], rfl⟩)

theorem loop_parsed : ∀ {fuel : Nat} {st st' : PState}, (∀ e ∈ st.els, Parsed e) → tagLoop fuel st = .ok st' → ∀ e ∈ st'.els, Parsed e
  | 0, st, st', hs, h => by cases h; exact hs
  | fuel + 1, st, st', hs, h => by
    rw [tagLoop] at h
    cases hm : search Rx.re_tagged_citation st.line with
    | none => rw [hm] at h; cases h; exact hs
    | some m =>
      rw [hm] at h
      obtain ⟨st1, h1, h⟩ := bind_ok h
      exact loop_parsed (tagStep_parsed hs h1) h

/-- The elements that parsing makes. -/
theorem parseTagged_parsed {line : Str} {dois : List Str} {urls : List (Str × Str)} {els : List El} {n : Counts}
    (h : parseTagged line dois urls = .ok (els, n)) : ∀ e ∈ els, Parsed e := by
  unfold parseTagged at h
  obtain ⟨st, hl, h⟩ := bind_ok h
  cases h
  have hs := loop_parsed (by simp) hl
  unfold finishTagged
  dsimp only
  split
  · intro e he
    rcases List.mem_append.1 he with he | he
    · exact hs e he
    · rw [List.mem_singleton.1 he]; exact ⟨by simp [Complete], by simp [parsedKinds], rfl⟩
  · exact hs

/-! ### Counters -/

/-- The counters are right. -/
def Counted (els : List El) (n : Counts) : Prop := tally els = [n.reportnum, n.title, n.auth, n.url, n.doi, n.misc]

omit [UnicodeDB] in
theorem counted_simple {tag : Str} {mk : Str → Str → El} {count : Counts → Counts} {k : Nat} {st : PState}
    (h : Counted st.els st.n) (hm : ∀ a b, Counted st.els st.n → Counted (st.els ++ [mk a b]) (count st.n)) :
    Counted (simpleStep tag mk count k st).els (simpleStep tag mk count k st).n := by
  unfold simpleStep
  split
  · exact h
  · exact hm _ _ h

omit [UnicodeDB] in
theorem counted_subfield {tag : Str} {mk : Str → Str → El} {k : Nat} {st : PState}
    (h : Counted st.els st.n) (hm : ∀ a b, Counted st.els st.n → Counted (st.els ++ [mk a b]) st.n) :
    Counted (subfieldStep tag mk k st).els (subfieldStep tag mk k st).n := by
  unfold subfieldStep
  dsimp only
  split
  · exact h
  · exact hm _ _ h

omit [UnicodeDB] in
theorem counted_misc {tag : Str} {k : Nat} {st : PState} (h : Counted st.els st.n) :
    Counted (miscStep tag k st).els (miscStep tag k st).n := by
  unfold miscStep
  split <;> exact h

omit [UnicodeDB] in
theorem counted_add {els : List El} {n n' : Counts} {e : El} (h : Counted els n)
    (hn : [n'.reportnum, n'.title, n'.auth, n'.url, n'.doi, n'.misc] =
      [n.reportnum + (ofKind .reportnumber [e]).length, n.title + ((ofKind .journal [e]).map fun e => 1 + (e.extraIbids.getD []).length).sum,
       n.auth + (ofKind .auth [e]).length, n.url + (ofKind .url [e]).length, n.doi + (ofKind .doi [e]).length,
       n.misc + (ofKind .misc [e]).length]) : Counted (els ++ [e]) n' := by
  unfold Counted tally at *
  simp only [List.cons.injEq, and_true] at h hn ⊢
  simp only [ofKind, List.filter_append, List.length_append, List.map_append, List.sum_append] at *
  omega

theorem counted_journal {i : Bool} {title line : Str} {st : PState} (h : Counted st.els st.n) :
    Counted (journalStep i title line st).els (journalStep i title line st).n := by
  unfold journalStep
  split
  · exact h
  · refine counted_add h ?_
    simp [ofKind]
    omega

theorem tagStep_counted {st st' : PState} {m : Match} (hs : Counted st.els st.n) (h : tagStep st m = .ok st') :
    Counted st'.els st'.n := by
  unfold tagStep at h
  dsimp only at h
  have fin : ∀ {a : PState}, Except.ok (ε := PyErr) a = .ok st' → Counted a.els a.n → Counted st'.els st'.n := by
    intro a e ha
    cases e
    exact ha
  rcases ite_or h with ⟨-, h⟩ | ⟨-, h⟩
  · split at h
    · exact fin h hs
    · exact fin h (counted_journal hs)
  rcases ite_or h with ⟨-, h⟩ | ⟨-, h⟩
  · exact fin h (counted_simple hs fun _ _ hs => counted_add hs (by simp [ofKind]))
  rcases ite_or h with ⟨-, h⟩ | ⟨-, h⟩
  · exact fin h (counted_simple hs fun _ _ hs => counted_add hs (by simp [ofKind]))
  rcases ite_or h with ⟨c, h⟩ | ⟨-, h⟩
  · split at h
    · cases h
    · cases h
      exact counted_add hs (by simp [ofKind])
  rcases ite_or h with ⟨c, h⟩ | ⟨-, h⟩
  · split at h
    · cases h
    · cases h
      exact counted_add hs (by simp [ofKind])
  rcases ite_or h with ⟨-, h⟩ | ⟨-, h⟩
  · exact fin h (counted_simple hs fun _ _ hs => counted_add hs (by simp [ofKind]))
  rcases ite_or h with ⟨-, h⟩ | ⟨-, h⟩
  · exact fin h (counted_misc hs)
  rcases ite_or h with ⟨-, h⟩ | ⟨-, h⟩
  · exact fin h (counted_subfield hs fun _ _ hs => counted_add hs (by simp [ofKind]))
  rcases ite_or h with ⟨-, h⟩ | ⟨-, h⟩
  · exact fin h (counted_subfield hs fun _ _ hs => counted_add hs (by simp [ofKind]))
  rcases ite_or h with ⟨-, h⟩ | ⟨-, h⟩
  · exact fin h (counted_subfield hs fun _ _ hs => counted_add hs (by simp [ofKind]))
  · exact fin h (counted_subfield hs fun _ _ hs => counted_add hs (by simp [ofKind]))

theorem loop_counted : ∀ {fuel : Nat} {st st' : PState}, Counted st.els st.n → tagLoop fuel st = .ok st' → Counted st'.els st'.n
  | 0, st, st', hs, h => by cases h; exact hs
  | fuel + 1, st, st', hs, h => by
    rw [tagLoop] at h
    cases hm : search Rx.re_tagged_citation st.line with
    | none => rw [hm] at h; cases h; exact hs
    | some m =>
      rw [hm] at h
      obtain ⟨st1, h1, h⟩ := bind_ok h
      exact loop_counted (tagStep_counted hs h1) h

theorem parseTagged_counted {line : Str} {dois : List Str} {urls : List (Str × Str)} {els : List El} {n : Counts}
    (h : parseTagged line dois urls = .ok (els, n)) : Counted els n := by
  unfold parseTagged at h
  obtain ⟨st, hl, h⟩ := bind_ok h
  cases h
  have hs : Counted st.els st.n := loop_counted (st := { line := line, dois := dois, urls := urls }) rfl hl
  unfold finishTagged
  dsimp only
  split
  · exact counted_add hs (by simp [ofKind])
  · exact hs

end Py
