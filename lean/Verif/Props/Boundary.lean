import Verif.Lemmas.Boundary
import Verif.Py.Sample

/-!
# Properties of the removal of page headers and footers (C37, C64)
-/

open Py Spec

namespace Props

/-- Every document consists of pages. -/
theorem paged_exists (doc : List Str) : ∃ first rest, Paged doc first rest := by
  induction doc with
  | nil => exact ⟨[], [], rfl, by simp, by simp, by simp⟩
  | cons l ls ih =>
    obtain ⟨first, rest, hw, hb, hf, hp⟩ := ih
    by_cases h : BreakLine l
    · refine ⟨[], (l, first) :: rest, by rw [hw]; rfl, fun p hp' => ?_, by simp, fun p hp' => ?_⟩
      · rcases List.mem_cons.1 hp' with rfl | hp'
        · exact h
        · exact hb p hp'
      · rcases List.mem_cons.1 hp' with rfl | hp'
        · exact hf
        · exact hp p hp'
    · refine ⟨l :: first, rest, by rw [hw]; rfl, hb, fun x hx => ?_, hp⟩
      rcases List.mem_cons.1 hx with rfl | hx
      · exact h
      · exact hf x hx

variable [UnicodeDB]

/-- **C37**: removing page headers and footers never fails, and either changes nothing or removes
exactly the page breaks and, from each inner page, the same number of first and last lines, every
inner page keeping at least one line. -/
theorem C37 (doc : List Str) : ∃ out, removeBoundary doc = .ok out ∧ (out = doc ∨
    ∃ first inner b last nh nf, Paged doc first (inner ++ [(b, last)]) ∧ inner ≠ [] ∧
      (∀ p ∈ inner, nh + nf < p.2.length) ∧ out = first ++ inner.flatMap (fun p => trimPage nh nf p.2) ++ last) := by
  obtain ⟨first, rest, h⟩ := paged_exists doc
  by_cases hr : rest = []
  · subst hr
    exact ⟨doc, removeBoundary_noBreak h, .inl rfl⟩
  obtain ⟨inner, ⟨b, last⟩, rfl⟩ : ∃ r q, rest = r ++ [q] :=
    ⟨rest.dropLast, rest.getLast hr, (List.dropLast_concat_getLast hr).symm⟩
  cases ht : containsText doc with
  | false => exact ⟨doc, removeBoundary_plain ht, .inl rfl⟩
  | true =>
    obtain ⟨nh, nf, _, _, h1, h2⟩ := removeBoundary_eq h ht
    by_cases hs : inner ≠ [] ∧ ∀ p ∈ inner, nh + nf < p.2.length
    · exact ⟨_, h1 hs, .inr ⟨first, inner, b, last, nh, nf, h, hs.1, hs.2, rfl⟩⟩
    · exact ⟨doc, h2 hs, .inl rfl⟩

/-- **C37**, the lines that are left are lines of the document, in their order. -/
theorem C37_sublist {doc out : List Str} (h : removeBoundary doc = .ok out) : out.Sublist doc := by
  obtain ⟨out', h', hc⟩ := C37 doc
  rw [h] at h'
  cases h'
  rcases hc with rfl | ⟨first, inner, b, last, nh, nf, hp, hx, hy, rfl⟩
  · exact List.Sublist.refl _
  · rw [hp.whole, List.flatMap_append, List.append_assoc]
    refine (List.Sublist.refl _).append (List.Sublist.append ?_ ?_)
    · clear h hp hx hy
      induction inner with
      | nil => exact List.Sublist.refl _
      | cons p r ih =>
        rw [List.flatMap_cons, List.flatMap_cons]
        refine List.Sublist.append ?_ ih
        exact ((List.take_sublist _ _).trans (List.drop_sublist _ _)).cons p.1
    · simp

/-- **C37**, a document with fewer than two page breaks is left as it is. -/
theorem C37_few {doc first : List Str} {rest : List (Str × List Str)} (h : Paged doc first rest) (hn : rest.length < 2) :
    removeBoundary doc = .ok doc := by
  match rest, h, hn with
  | [], h, _ => exact removeBoundary_noBreak h
  | [(b, last)], h, _ =>
    cases ht : containsText doc with
    | false => exact removeBoundary_plain ht
    | true =>
      obtain ⟨nh, nf, _, _, _, h2⟩ := removeBoundary_eq (inner := []) h ht
      exact h2 fun h => h.1 rfl
  | _ :: _ :: _, _, hn => exact absurd hn (by simp)

/-- Four page breaks, a page header and a page number in the footer. -/
example : @removeBoundary asciiDB [py! "Title\n", py! "\u000c\n", py! "A. Author\n", py! "text one\n", py! "1\n",
      py! "\u000c\n", py! "A. Author\n", py! "more text\n", py! "2\n", py! "\u000c\n", py! "A. Author\n", py! "results here\n", py! "3\n",
      py! "\u000c\n", py! "A. Author\n", py! "the end\n"]
    = .ok [py! "Title\n", py! "text one\n", py! "more text\n", py! "results here\n", py! "A. Author\n", py! "the end\n"] := by
  decide +kernel

/-- **C64**: in a document with text and at least two page breaks, a line is removed from the
pages exactly if it is a page break or belongs to the header or the footer, that is if it and the
lines before it (after it) up to the page break repeat from page to page; and the document is left
as it is if some inner page would lose all its lines. -/
theorem C64 {doc first last : List Str} {b : Str} {inner : List (Str × List Str)}
    (h : Paged doc first (inner ++ [(b, last)])) (hin : inner ≠ []) (ht : ∃ l ∈ doc, ¬ Blank l) :
    ∃ nh nf, Count (HeadLine (inner ++ [(b, last)])) nh ∧ Count (FootLine first (inner ++ [(b, last)])) nf ∧
      ((∀ p ∈ inner, nh + nf < p.2.length) →
        removeBoundary doc = .ok (first ++ inner.flatMap (fun p => trimPage nh nf p.2) ++ last)) ∧
      (¬ (∀ p ∈ inner, nh + nf < p.2.length) → removeBoundary doc = .ok doc) := by
  have ht' : containsText doc = true := by
    obtain ⟨l, hl, hn⟩ := ht
    refine List.any_eq_true.2 ⟨l, hl, ?_⟩
    cases hs : isspace l with
    | false => rfl
    | true =>
      refine absurd ?_ hn
      simpa [isspace, Blank] using hs
  obtain ⟨nh, nf, hh, hf, h1, h2⟩ := removeBoundary_eq h ht'
  exact ⟨nh, nf, hh, hf, fun h => h1 ⟨hin, h⟩, fun h => h2 fun h' => h h'.2⟩

omit [UnicodeDB] in
/-- The numbers of header and footer lines are determined by the document. -/
theorem count_unique {P : Nat → Prop} {m n : Nat} (hm : Count P m) (hn : Count P n) : m = n := by
  rcases Nat.lt_trichotomy m n with h | h | h
  · exact absurd (hn.1 m h) hm.2
  · exact h
  · exact absurd (hm.1 n h) hn.2

/-- The lines of different pages differ: only the page breaks go. -/
example : @removeBoundary asciiDB [py! "Title\n", py! "\u000c\n", py! "A. Author\n", py! "text one\n", py! "x\n",
      py! "\u000c\n", py! "B. Author\n", py! "more text\n", py! "yy\n", py! "\u000c\n", py! "Wrong\n", py! "results here\n", py! "3\n",
      py! "\u000c\n", py! "A. Author\n", py! "the end\n"]
    = .ok [py! "Title\n", py! "A. Author\n", py! "text one\n", py! "x\n", py! "B. Author\n", py! "more text\n", py! "yy\n",
      py! "Wrong\n", py! "results here\n", py! "3\n", py! "A. Author\n", py! "the end\n"] := by
  decide +kernel

end Props
