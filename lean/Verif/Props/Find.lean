import Verif.Lemmas.Find
import Verif.Props.Boundary
import Verif.Props.Rebuild

/-!
# Properties of the search for the reference section (C36, C66, C67)
-/

open Py Spec

namespace Props

variable [UnicodeDB]

/-- **C36**, the start: it is a line of the document, and it has a title of a reference section or,
if no title is returned, the marker with number one. The text of the title is given back as it stands
in the line. A title in the line of the first reference is only reported together with its text. -/
theorem C36_start {doc : List Str} {d : Details} (h : sectionBeginning doc = some d) :
    ∃ l, doc[d.start]? = some l ∧ (∀ t, d.title = some t → TitleLine l t ∧ ∃ a b, l = a ++ t ++ b) ∧
      (d.title = none → FirstMarkerLine l ∧ d.sameLine = false) := by
  have hf := sectionBeginning_found h
  have hl := List.getElem?_eq_getElem hf.start
  refine ⟨_, hl, fun t ht => ?_, fun ht => ⟨hf.noTitle _ ht hl, ?_⟩⟩
  · have h1 := hf.title t _ ht hl
    obtain ⟨r, hr, m, hm, hg⟩ := id h1
    exact ⟨h1, (matchHere_ok hm).1.group_infix hg⟩
  · cases hs : d.sameLine with
    | false => rfl
    | true =>
      obtain ⟨t, h2⟩ := hf.same hs
      rw [ht] at h2
      cases h2

/-- **C36**: no document makes the search fail, the end is not before the start nor after the end of the
document, and the lines used are exactly the lines in between (after the title), without repetitions
of the title such as page headers. -/
theorem C36 {doc : List Str} {d : Details} (h : sectionBeginning doc = some d) :
    ∃ e lines, findEnd doc d = .ok (some e) ∧ d.start ≤ e ∧ e ≤ doc.length ∧
      sectionLines doc d.start (some e) d.title d.sameLine = .ok lines ∧ SectionOf doc d.start e d.title d.sameLine lines := by
  have hf := sectionBeginning_found h
  obtain ⟨e, h1, h2, h3, -⟩ := findEnd_total hf
  obtain ⟨ls, h4, h5⟩ := sectionLines_spec hf h2
  exact ⟨e, ls, h1, h2, h3, h4, h5⟩

/-- **C36**, the whole extraction: on a document with lines of at most 4300 characters it never
fails. Either no section is found, with status four and no references, or the references are made
from the lines of the section, each line used once. -/
theorem C36_extract (fulltext : List Str) (hl : ∀ l ∈ fulltext, l.length ≤ 4300) :
    ∃ doc refs st, removeBoundary fulltext = .ok doc ∧ doc.Sublist fulltext ∧ extractFulltext fulltext = .ok (refs, st) ∧
      ((refs = [] ∧ st = 4) ∨
        ∃ start e title same lines pss groups, start < doc.length ∧ start ≤ e ∧ e ≤ doc.length ∧ st = 0 ∧
          SectionOf doc start e title same lines ∧ All2 Cut lines pss ∧ groups.flatten = pss.flatten ∧ All2 RefOf groups refs) := by
  obtain ⟨doc, hd, -⟩ := C37 fulltext
  have hs := C37_sublist hd
  obtain ⟨refs, st, h1, h2⟩ := extractDoc_spec (doc := doc) fun l hm => hl l (hs.subset hm)
  refine ⟨doc, refs, st, hd, hs, by rw [extractFulltext, hd, okBind, h1], ?_⟩
  rcases h2 with ⟨-, h3, h4⟩ | ⟨d, e, lines, -, hf, h3, h4, -, h5, h6, h7⟩
  · exact .inl ⟨h3, h4⟩
  · obtain ⟨pss, groups, a, b, c⟩ := rebuild_groups h6
    exact .inr ⟨d.start, e, d.title, d.sameLine, lines, pss, groups, hf.start, h3, h4, h7, h5, a, b, c⟩

example : @extractFulltext asciiDB [py! "Body of the paper", py! "References", py! "[1] A. Smith, Phys. Rev. D 1 (1999) 2",
      py! "[2] B. Jones, Nucl. Phys. B 3 (1998) 4", py! "12 References", py! "[3] C. Brown, preprint", py! "Figure 1", py! "text"] =
    .ok ([py! "[1] A. Smith, Phys. Rev. D 1 (1999) 2", py! "[2] B. Jones, Nucl. Phys. B 3 (1998) 4", py! "[3] C. Brown, preprint"], 0) := by
  decide +kernel

example : @extractFulltext asciiDB [] = .ok ([], 4) ∧ @extractFulltext asciiDB [py! "References"] = .ok ([], 0) := by decide +kernel

omit [UnicodeDB] in
/-- **C66** is violated: a document whose first reference follows the title in the same line gives a
single reference with the text of all three. -/
theorem C66_violated : ∃ doc refs : List Str, @extractFulltext asciiDB doc = .ok (refs, 0) ∧
    doc = [py! "Body", py! "References [1] A. Smith, Phys. Rev. D 1 (1999) 2", py! "[2] B. Jones, Nucl. Phys. B 3 (1998) 4", py! "[3] C. Brown, preprint"] ∧
    refs = [py! "[1] A. Smith, Phys. Rev. D 1 (1999) 2 [2] B. Jones, Nucl. Phys. B 3 (1998) 4 [3] C. Brown, preprint"] :=
  ⟨_, _, by decide +kernel, rfl, rfl⟩

omit [UnicodeDB] in
/-- The same references are separated if the title has its own line. -/
example : @extractFulltext asciiDB [py! "Body", py! "References", py! "[1] A. Smith, Phys. Rev. D 1 (1999) 2",
      py! "[2] B. Jones, Nucl. Phys. B 3 (1998) 4", py! "[3] C. Brown, preprint"] =
    .ok ([py! "[1] A. Smith, Phys. Rev. D 1 (1999) 2", py! "[2] B. Jones, Nucl. Phys. B 3 (1998) 4", py! "[3] C. Brown, preprint"], 0) := by
  decide +kernel

/-- **C66**, part: if the title has its own line, or there is none, and the markers are numbered, the
references are the blocks that start at consecutive numbers. Missing: the first reference in the line
of the title. -/
theorem C66_partial {doc refs : List Str} {d : Details} {r : Re} {st : Nat} (h : sectionBeginning doc = some d)
    (hs : d.sameLine = false) (hp : d.pattern = some r) (hn : r.hasGroup G.marknum = true)
    (hx : extractDoc doc (some d) = .ok (refs, st)) :
    ∃ e lines l0 bs, d.start ≤ e ∧ e ≤ doc.length ∧ SectionOf doc d.start e d.title false lines ∧
      lines = l0 ++ bs.flatMap (fun b => b.head :: b.rest) ∧ (∀ l ∈ l0, ∀ k, ¬ MarkAt r G.marknum l k 1) ∧
      NumberedFrom r G.marknum 0 bs ∧ All2 RefOf (((blockPieces l0 bs).map solidPieces).filter fun g => !g.isEmpty) refs := by
  have hf := sectionBeginning_found h
  obtain ⟨e, lines, h1, h2, h3, h4, h5⟩ := C36 h
  simp only [extractDoc, h1, okBind, extractSection, getReferenceLines, h4, hp, Option.map_some] at hx
  obtain ⟨refs', h6, hx⟩ := bind_ok hx
  cases hx
  rcases hf.pattern with ⟨h7, -⟩ | ⟨r', pfx, mk, h7, -, h8, -⟩
  · rw [hp] at h7; cases h7
  · rw [hp] at h7
    cases h7
    obtain ⟨l0, bs, a, b, c, f⟩ := C34 h8 hn h6
    exact ⟨e, lines, l0, bs, h2, h3, hs ▸ h5, a, b, c, f⟩

/-- **C67**, part: the section ends at the end of the document, before a line with a heading of a
following section, or with a line that consists of digits; and it does not go past a heading unless
one of the next 199 lines has a marker. Missing: closing phrases. -/
theorem C67_partial {doc : List Str} {d : Details} (h : sectionBeginning doc = some d) :
    ∃ e, findEnd doc d = .ok (some e) ∧
      (e = doc.length ∨ (∃ l, doc[e]? = some l ∧ NextHeading l) ∨
        ∃ l k, d.start ≤ k ∧ e = k + 1 ∧ doc[k]? = some l ∧ AxisLine l) ∧
      ∀ (i : Nat) l, d.start ≤ i → i < e → doc[i]? = some l → NextHeading l →
        ∃ (j : Nat) (l' : Str), i < j ∧ j < i + 200 ∧ doc[j]? = some l' ∧ ∃ r ∈ endPatterns d, ∃ m, reMatch r (strip l') = some m := by
  obtain ⟨e, h1, -, -, h4⟩ := findEnd_total (sectionBeginning_found h)
  refine ⟨e, h1, ?_, ?_⟩
  · rcases h4 with h4 | h4 | ⟨l, k, a, b, c, f⟩
    · exact .inl h4
    · exact .inr (.inl h4)
    · exact .inr (.inr ⟨l, k, a, b, c, digitLine_axis f⟩)
  intro i l hi hie hl hx
  unfold findEnd at h1
  split at h1
  · cases h1
  · obtain ⟨n, hn, h1⟩ := bind_ok h1
    cases h1
    obtain ⟨j, l', a, b, c, f⟩ := endLoop_first hn (i - d.start) l (by omega)
      (by rw [List.getElem?_drop, show d.start + (i - d.start) = i by omega]; exact hl) hx
    rw [List.getElem?_drop] at c
    exact ⟨d.start + j, l', by omega, by omega, c, f⟩

omit [UnicodeDB] in
/-- **C67** is violated: a line that the code itself lists among the phrases that follow a reference
section becomes part of the last reference, with what comes after it. -/
theorem C67_violated : ∃ doc refs : List Str, @extractFulltext asciiDB doc = .ok (refs, 0) ∧
    doc = [py! "References", py! "[1] A. Smith, Phys. Rev. D 1 (1999) 2", py! "[2] B. Jones, Nucl. Phys. B 3 (1998) 4",
      py! "This paper has been produced using", py! "macros"] ∧
    (∃ r ∈ Rx.post_keyword_patterns, ∃ m, @reMatch asciiDB r (py! "This paper has been produced using") = some m) ∧
    refs = [py! "[1] A. Smith, Phys. Rev. D 1 (1999) 2", py! "[2] B. Jones, Nucl. Phys. B 3 (1998) 4 This paper has been produced using macros"] :=
  ⟨_, _, by decide +kernel, rfl,
    have h : (Rx.post_keyword_patterns.any fun r => (@reMatch asciiDB r (py! "This paper has been produced using")).isSome) = true := by
      decide +kernel
    by
      obtain ⟨r, hr, hm⟩ := List.any_eq_true.1 h
      exact ⟨r, hr, Option.isSome_iff_exists.1 hm⟩, rfl⟩

end Props
