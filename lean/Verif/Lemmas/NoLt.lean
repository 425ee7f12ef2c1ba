import Verif.Lemmas.ReSyn

/-!
# Patterns and groups that do not match `<`
-/

namespace Py

/-- Whether the item contains `<`. -/
def CItem.lt : CItem → Bool
  | .ch d => d == '<'
  | .range lo hi => lo.toNat ≤ 60 && 60 ≤ hi.toNat
  | .space | .digit | .word | .authUpper => false
  | .nspace | .ndigit | .nword => true

/-- Whether the class contains `<`. -/
def CSet.lt (s : CSet) : Bool := if s.neg then !(s.items.any CItem.lt) else s.items.any CItem.lt

theorem mem_item_lt [UnicodeDB] (i : CItem) : CItem.mem '<' i = i.lt := by
  cases i with
  | ch d =>
    simp only [CItem.mem, CItem.lt]
    by_cases h : d = '<'
    · subst h; rfl
    · rw [beq_eq_false_iff_ne.2 h, beq_eq_false_iff_ne.2 (Ne.symm h)]
  | range => rfl
  | _ => rfl

theorem mem_lt [UnicodeDB] (s : CSet) : s.mem '<' = s.lt := by
  have h : s.items.any (CItem.mem '<') = s.items.any CItem.lt := by
    congr 1
    funext i
    exact mem_item_lt i
  have e : caseVariants '<' = ['<', '<'] := rfl
  simp only [CSet.mem, CSet.lt, e, List.any_cons, List.any_nil, Bool.or_false, Bool.or_self, h, ite_self]

/-- No match contains `<`. -/
def Re.noLt : Re → Bool
  | .set k => !k.lt
  | .str w => !w.contains '<'
  | .seq a b => a.noLt && b.noLt
  | .alt a b => a.noLt && b.noLt
  | .star _ a => a.noLt
  | .group _ a => a.noLt
  | _ => true

theorem noLt_over [UnicodeDB] : ∀ {r : Re}, r.noLt = true → r.over (· ≠ '<')
  | .set k, h => by
    intro c hc
    rintro rfl
    rw [mem_lt] at hc
    simp [Re.noLt, hc] at h
  | .str w, h => by
    intro c hc
    rintro rfl
    simp only [Re.noLt, Bool.not_eq_true'] at h
    rw [List.contains_iff_mem.2 hc] at h
    cases h
  | .seq a b, h => by
    simp only [Re.noLt, Bool.and_eq_true] at h
    exact ⟨noLt_over h.1, noLt_over h.2⟩
  | .alt a b, h => by
    simp only [Re.noLt, Bool.and_eq_true] at h
    exact ⟨noLt_over h.1, noLt_over h.2⟩
  | .star _ a, h => noLt_over (r := a) h
  | .group _ a, h => noLt_over (r := a) h
  | .eps, _ => trivial
  | .fail, _ => trivial
  | .look .., _ => trivial
  | .behind .., _ => trivial
  | .bos, _ => trivial
  | .eos, _ => trivial
  | .wordb, _ => trivial

/-- The groups `gs` never contain `<`. -/
def Re.groupsNoLt (gs : List Nat) (r : Re) : Bool := r.groups.all fun p => !gs.contains p.1 || p.2.noLt

theorem group_noLt [UnicodeDB] {gs : List Nat} {r : Re} (hr : r.groupsNoLt gs = true) {pre post : Str} {m : Match} (hm : MatchOk r pre post m)
    {g : Nat} (hg : g ∈ gs) {x : Str} (h : m.group g = some x) : '<' ∉ x := by
  obtain ⟨body, hb, hl⟩ := hm.group_lang h
  have h1 := List.all_eq_true.1 hr _ hb
  simp only [List.contains_iff_mem.2 hg, Bool.not_true, Bool.false_or] at h1
  intro hx
  exact lang_over _ (noLt_over h1) _ hl _ hx rfl

/-- The groups `gs` of a match consist of characters of the text other than `<`. -/
theorem group_plain [UnicodeDB] {gs : List Nat} {r : Re} (hr : r.groupsNoLt gs = true) {pre post : Str} {m : Match} (hm : MatchOk r pre post m)
    {g : Nat} (hg : g ∈ gs) {x : Str} (h : m.group g = some x) : '<' ∉ x ∧ ∀ c ∈ x, c ∈ pre.reverse ++ post := by
  refine ⟨group_noLt hr hm hg h, fun c hc => ?_⟩
  obtain ⟨p, q, e⟩ := hm.group_infix h
  rw [e]; simp [hc]

end Py
