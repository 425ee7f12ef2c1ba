import Verif.Lemmas.Rebuild2
import Verif.Py.Sample

/-!
# Properties of the rebuilding of reference lines (C33, C34, C35)
-/

open Py Spec

namespace Props

/-- **C33**, one reference: every character of its first twenty-five pieces that is not white space
is kept in order, except final hyphens of pieces, of which there are fewer than pieces. -/
theorem C33_text {ps : List Str} {ref : Str} (h : RefOf ps ref) :
    (∃ qs, All2 Rest (ps.take 25) qs ∧ ink ref = qs.flatten) ∧
      (ink (ps.take 25).flatten).length ≤ (ink ref).length + ((ps.take 25).length - 1) := by
  obtain ⟨-, x, b, h1, rfl, h2, -⟩ := h
  obtain ⟨⟨qs, a1, a2⟩, a3, -⟩ := joins_ink h1
  rw [ink_append, ink_spaces h2, List.append_nil] at a2 a3
  exact ⟨⟨qs, a1, a2⟩, a3⟩

/-- **C33**, one reference without blank pieces: at most one hyphen is lost per line break, and the
last piece is complete. -/
theorem C33_hyphens {ps : List Str} {ref : Str} (h : RefOf ps ref) (hp : ∀ p ∈ ps.take 25, ink p ≠ []) :
    ∃ ps' p qs, ps.take 25 = ps' ++ [p] ∧ All2 Rest1 ps' qs ∧ ink ref = qs.flatten ++ ink p := by
  obtain ⟨hn, x, b, h1, rfl, h2, -⟩ := h
  rcases joins_ink1 h1 hp with ⟨h3, -⟩ | ⟨ps', p, qs, a1, a2, a3⟩
  · cases ps with
    | nil => exact absurd rfl hn
    | cons p ps => simp at h3
  · rw [ink_append, ink_spaces h2, List.append_nil] at a3
    exact ⟨ps', p, qs, a1, a2, a3⟩

variable [UnicodeDB]

/-- **C33**: the lines are cut into at most two pieces each, the pieces are dealt out in order to
the references, each piece to exactly one, and each reference is the text of its pieces joined. -/
theorem C33 {sect refs : List Str} {mk : Option Marker} (h : rebuild sect mk = .ok refs) :
    ∃ pss groups, All2 Cut sect pss ∧ groups.flatten = pss.flatten ∧ All2 RefOf groups refs := rebuild_groups h

/-- **C33**: with the patterns of the code, and without one, rebuilding never fails on lines of at
most 4300 characters (the limit of `int` on the number of digits). -/
theorem C33_total {sect : List Str} {mk : Option Marker}
    (hm : ∀ k, mk = some k → ∃ pfx r, pfx.groups = [] ∧ r ∈ knownMarkers pfx ∧ k = Marker.of r)
    (hl : ∀ l ∈ sect, l.length ≤ 4300) : ∃ refs, rebuild sect mk = .ok refs :=
  rebuild_total (fun k hk => by obtain ⟨pfx, r, h1, h2, rfl⟩ := hm k hk; exact known_good h1 h2) hl

example : @rebuild asciiDB [py! "see [1] A. Smith, Phys. Rev. Let-", py! "ters D 1 (1999) 2", py! " [2] B. Jones,", [], py! "Nucl. Phys.  ", py! "[7] B 3"]
      (some (Marker.of Rx.re_reference_line_bracket_markers)) =
    .ok [py! "see", py! "[1] A. Smith, Phys. Rev. Letters D 1 (1999) 2", py! "[2] B. Jones, Nucl. Phys. [7] B 3"] := by decide +kernel

omit [UnicodeDB] in
/-- Two hyphens are lost at a blank piece: the end of the text is a hyphen again. -/
theorem C33_blank_piece : ∃ ps ref, RefOf ps ref ∧ ref = py! "ab" ∧ ps = [py! "a--", py! " ", py! "b"] := by
  refine ⟨_, prepareRef [py! "a--", py! " ", py! "b"], refOf_prepare (by simp), by decide +kernel, rfl⟩

/-- **C34**: with a numbered pattern of the code a reference starts exactly at the first line whose
marker has the number that comes next, beginning with one; all other lines, with or without a marker,
continue the reference before them. -/
theorem C34 {pfx r : Re} (hr : r ∈ knownMarkers pfx) (hn : r.hasGroup G.marknum = true) {sect refs : List Str}
    (h : rebuild sect (some (Marker.of r)) = .ok refs) :
    ∃ l0 bs, sect = l0 ++ bs.flatMap (fun b => b.head :: b.rest) ∧ (∀ l ∈ l0, ∀ k, ¬ MarkAt r G.marknum l k 1) ∧
      NumberedFrom r G.marknum 0 bs ∧ All2 RefOf (((blockPieces l0 bs).map solidPieces).filter fun g => !g.isEmpty) refs :=
  rebuild_blocks (mk := Marker.of r) hn (known_empty hr) h

example : @rebuild asciiDB [py! "[1] A. Smith, see", py! "[4] and", py! "[2] B. Jones,", py! "[2] Nucl. Phys.", py! "[3] C. Brown"]
      (some (Marker.of Rx.re_reference_line_bracket_markers)) =
    .ok [py! "[1] A. Smith, see [4] and", py! "[2] B. Jones, [2] Nucl. Phys.", py! "[3] C. Brown"] := by decide +kernel

omit [UnicodeDB] in
/-- **C35** is violated for strings: their blank lines are empty, and are not recognised as blank.
Four references separated by blank lines give five, since every line without indentation starts
one. -/
theorem C35_strings_violated : ∃ sect refs : List Str, @rebuild asciiDB sect none = .ok refs ∧
    sect = [py! "A. Smith, Journal of Foo 1", py! "B 2", [], py! "C. D", [], py! "E. F", [], py! "G. H"] ∧ refs.length = 5 :=
  ⟨_, [py! "A. Smith, Journal of Foo 1", py! "B 2", py! "C. D", py! "E. F", py! "G. H"], by decide +kernel, rfl, rfl⟩

omit [UnicodeDB] in
/-- **C35** is violated for files as well if there are at most three references. -/
theorem C35_few_violated : ∃ sect refs : List Str, @rebuild asciiDB sect none = .ok refs ∧
    sect = [py! "A. Smith, Journal of Foo 1\n", py! "B 2\n", py! "\n", py! "C. D\n", py! "\n", py! "E. F\n"] ∧ refs.length = 4 :=
  ⟨_, [py! "A. Smith, Journal of Foo 1", py! "B 2", py! "C. D", py! "E. F"], by decide +kernel, rfl, rfl⟩

/-- **C35**, part: lines with their line ends, more than three references of at most twenty-four
lines each, one of which has several lines: the references are exactly the blocks. Missing: blank
lines without line end, fewer references, and references of one line each. -/
theorem C35_partial {sect : List Str} {bs : List (List Str)} (h : Blocks sect bs) (hn : 3 < bs.length)
    (hm : ∃ b ∈ bs, 2 ≤ b.length) (hb : ∀ b ∈ bs, b.length ≤ 24 ∧ ∀ l ∈ b, ink l ≠ []) :
    ∃ refs, rebuild sect none = .ok refs ∧ All2 RefOf bs (refs.filter fun r => !r.isEmpty) := rebuild_blankSep h hn hm hb

example : @rebuild asciiDB [py! "A. Smith,\n", py! "Phys. Rev. D 1\n", py! "\n", py! "C. D\n", py! "\n", py! " \n", py! "E. F\n", py! "\n", py! "G. H\n"] none =
    .ok [py! "A. Smith, Phys. Rev. D 1", py! "C. D", [], py! "E. F", py! "G. H"] := by decide +kernel

end Props
