import Verif.Lemmas.Split2

/-!
# Splitting a line into citations: C06, C07, C08, C09
-/

namespace Props
open Py Spec

/-- Two articles, the second with an author of its own, as produced from a line like
`A. B, Phys.Rev. D1, C. D; Nucl.Phys. B2`. -/
def twoArticles : List El :=
  [{ ty := .auth, misc := [], authTxt := some (py! "A. B") },
   { ty := .journal, misc := [], title := some (py! "Phys.Rev.") },
   { ty := .auth, misc := [], authTxt := some (py! "C. D") },
   { ty := .journal, misc := py! "see; also", title := some (py! "Nucl.Phys.") }]

/-- **C06.** No citation has two elements of a kind other than report number,
collaboration, author or text, nor two arXiv report numbers. -/
theorem C06_no_repeats (els : List El) (h : ∀ e ∈ els, ArxivOk e) :
    ∀ c ∈ splitCitations els,
      (∀ k, mayRepeat k = false → (c.filter (·.el.ty = k)).length ≤ 1) ∧
      (c.filter (·.el.isArxiv)).length ≤ 1 := by
  intro c hc
  have hcnt := split_types (number 0 els) { fresh := els.length } (fun a ha => by simp at ha)
    (fun t => by simp [cnt]) c hc
  have hall := split_all ArxivOk (fun m h => by simp at h) (fun e m h => h) (number 0 els)
    { fresh := els.length } (by simp) (by simp) (by
      intro o ho
      have : o.el ∈ (number 0 els).map (·.el) := List.mem_map_of_mem ho
      rw [number_map] at this
      exact h _ this) c hc
  constructor
  · intro k hk
    have hr : repeatable (.kind k) = false := by cases k <;> first | rfl | cases hk
    have := hcnt (.kind k) hr
    rw [cnt] at this
    refine Nat.le_trans (Nat.le_of_eq ?_) this
    congr 1
    apply List.filter_congr
    intro o ho
    have ha := hall o ho
    by_cases hty : o.el.ty = k
    · have hx : o.el.isArxiv = false := by
        cases hx : o.el.isArxiv with
        | false => rfl
        | true =>
          have := ha hx
          rw [hty] at this
          rw [this] at hk; cases hk
      have hcount : counts o = true := by
        unfold counts
        rw [hty]
        cases k <;> first | rfl | cases hk
      simp [hty, hcount, typeKey, hx]
    · have : ((counts o && typeKey o.el == TypeKey.kind k) : Bool) = false := by
        unfold typeKey
        cases o.el.isArxiv <;> simp [hty]
      simp [hty, this]
  · have := hcnt .arxiv rfl
    rw [cnt] at this
    refine Nat.le_trans (Nat.le_of_eq ?_) this
    congr 1
    apply List.filter_congr
    intro o ho
    have ha := hall o ho
    cases hx : o.el.isArxiv with
    | false => simp [typeKey, hx]
    | true =>
      have := ha hx
      simp [typeKey, hx, counts, this]

example : (∀ e ∈ twoArticles, ArxivOk e) ∧ (splitCitations twoArticles).length = 2 := by
  refine ⟨?_, by decide +kernel⟩
  intro e he hx
  simp [twoArticles] at he
  rcases he with rfl | rfl | rfl | rfl <;> cases hx

/-- **C07.** The non-author elements of the citations, put end to end, are those of the
line in order, each left whole or cut at the first semicolon of its text. Authors of
the citations are authors of the line, with all their fields except that text. -/
theorem C07_conservation (els : List El) :
    (∃ pieces : List (List El), All2 CutOf els pieces ∧
      nonAuthors ((splitCitations els).flatten.map (·.el)) = nonAuthors pieces.flatten) ∧
    ∀ c ∈ splitCitations els, ∀ o ∈ c, o.el.ty = .auth →
      ∃ e ∈ els, e.ty = .auth ∧ o.el = { e with misc := o.el.misc } := by
  constructor
  · obtain ⟨ps, h1, h2⟩ := split_conserve (number 0 els) { fresh := els.length } (fun a ha => by simp at ha)
    rw [number_map] at h1
    exact ⟨ps, h1, h2⟩
  · refine split_all (fun e => e.ty = .auth → ∃ x ∈ els, x.ty = .auth ∧ e = { x with misc := e.misc })
      (fun m h => by simp at h) ?_ (number 0 els) { fresh := els.length } (by simp) (by simp) ?_
    · intro e m he hty
      obtain ⟨x, hx, h1, h2⟩ := he hty
      exact ⟨x, hx, h1, by rw [h2]⟩
    · intro o ho hty
      have : o.el ∈ (number 0 els).map (·.el) := List.mem_map_of_mem ho
      rw [number_map] at this
      exact ⟨o.el, this, hty, rfl⟩

example : (splitCitations twoArticles).map (·.map (·.el.ty)) =
    [[.auth, .journal, .misc], [.auth, .journal]] := by decide +kernel

/-- The line `A. B, Phys.Rev. D1, C. D and E. F; Nucl.Phys. B2` where the semicolon
belongs to the last author. -/
def lostAuthor : List El :=
  [{ ty := .auth, misc := [], authTxt := some (py! "A. B") },
   { ty := .journal, misc := [] },
   { ty := .auth, misc := [], authTxt := some (py! "C. D") },
   { ty := .auth, misc := py! ";", authTxt := some (py! "E. F") },
   { ty := .journal, misc := [] }]

/-- **C08 is false.** There is a line one of whose authors is in no citation. -/
theorem C08_author_lost : ¬ ∀ (els : List El), ∀ e ∈ els, e.ty = .auth →
    ∃ c ∈ splitCitations els, ∃ o ∈ c, o.el.ty = .auth ∧ o.el.authTxt = e.authTxt := by
  intro h
  obtain ⟨c, hc, o, ho, h1, h2⟩ := h lostAuthor { ty := .auth, misc := [], authTxt := some (py! "C. D") }
    (by decide +kernel) rfl
  have hall : ((splitCitations lostAuthor).all fun c => c.all fun o =>
      !(o.el.authTxt == some (py! "C. D"))) = true := by decide +kernel
  rw [List.all_eq_true] at hall
  have := hall c hc
  rw [List.all_eq_true] at this
  have := this o ho
  rw [h2] at this
  simp at this

/-- **C08 (partial).** No author is lost if the line has no semicolon in any text, or has
at most two authors. Missing from the full statement: lines with a semicolon and
three or more authors. The author is tracked by its position in the line and is the
same but possibly for the text in front of it. -/
theorem C08_authors_kept_partial (els : List El)
    (h : (∀ e ∈ els, ';' ∉ e.misc) ∨ (authors els).length ≤ 2) :
    ∀ i e, els[i]? = some e → e.ty = .auth →
      ∃ c ∈ splitCitations els, ∃ o ∈ c, o.id = i ∧ o.el = { e with misc := o.el.misc } := by
  intro i e hi hty
  have hsafe : SafePp { fresh := els.length } (number 0 els) [] := by
    rcases h with h | h
    · left
      refine ⟨fun o ho => ?_, by simp⟩
      have : o.el ∈ (number 0 els).map (·.el) := List.mem_map_of_mem ho
      rw [number_map] at this
      exact h _ this
    · right
      refine ⟨0, ?_, by simp, by simp⟩
      rw [Nat.zero_add]
      refine Nat.le_trans (Nat.le_of_eq ?_) h
      unfold nAuth authors
      conv => rhs; rw [← number_map els 0]
      rw [List.filter_map, List.length_map]
      rfl
  have hmem : ∀ (els : List El) (n i : Nat), els[i]? = some e → ⟨n + i, e⟩ ∈ number n els := by
    intro els
    induction els with
    | nil => intro n i h; simp at h
    | cons a as ih =>
      intro n i h
      cases i with
      | zero => simp at h; simp [number, h]
      | succ i =>
        simp at h
        have := ih (n + 1) i h
        simp only [number, List.mem_cons]
        right
        rw [show n + (i + 1) = n + 1 + i by omega]
        exact this
  have hw : Wanted { fresh := els.length } (number 0 els) i := by
    right; right
    exact ⟨⟨0 + i, e⟩, hmem els 0 i hi, by simp [Obj.isAuth, hty], by simp⟩
  rcases split_authors (number 0 els) _ [] hsafe i hw with h | h
  · cases h
  · obtain ⟨c, hc, o, ho, he⟩ := h
    exact ⟨c, hc, o, ho, he, split_origin els c hc o ho e (by rw [he]; exact hi)⟩

example : (authors twoArticles).length ≤ 2 ∧ ∃ e ∈ twoArticles, ';' ∈ e.misc := by decide +kernel

/-- **C09.** Splitting gives at least one citation, and no empty one unless the line has
no elements. -/
theorem C09_nonempty (els : List El) :
    splitCitations els ≠ [] ∧ (els ≠ [] → ∀ c ∈ splitCitations els, c ≠ []) := by
  refine ⟨split_length _ _, fun hne => ?_⟩
  apply split_nonempty
  · intro a ha; simp at ha
  · intro h; simp at h
  · left
    cases els with
    | nil => exact absurd rfl hne
    | cons e es => simp [number]

example : splitCitations [] = [[]] := rfl

end Props
