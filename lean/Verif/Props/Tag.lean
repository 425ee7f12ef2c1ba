import Verif.Lemmas.Spaces
import Verif.Lemmas.Blank
import Verif.Lemmas.Url2
import Verif.Py.Sample

/-!
# Properties of tagging
-/

open Py Spec

namespace Props

/-! ### C23: digital object identifiers -/

/-- **C23.** Tagging identifiers replaces, from left to right, every text that cites one by the
placeholder and leaves everything else as it was; what is reported is, in the same order, the
identifier cited by each replaced text, with a percent-encoded slash decoded. The only assumption is
on percent-decoding, which comes from the standard library. -/
theorem C23_dois [UnicodeDB] (lib : Lib) (hu : Decodes lib.unquote) (line : Str) :
    ∃ ws, Tagged (fun w => ∃ d, CitesDoi w d) (py! "<cds.DOI />") line (tagDois lib line).1 ws ∧
      All2 CitesDoi ws (tagDois lib line).2 := by
  rw [tagDois_eq]
  exact tagged_dois hu (scan_scanned' doi_minLen line)

/-- **C23.** Putting the replaced texts back at the placeholders restores the line. -/
theorem C23_restores [UnicodeDB] (lib : Lib) (hu : Decodes lib.unquote) (line : Str) :
    ∃ gaps ws, gaps.length = ws.length + 1 ∧ line = interleave gaps ws ∧
      (tagDois lib line).1 = interleave gaps (ws.map fun _ => py! "<cds.DOI />") ∧ All2 CitesDoi ws (tagDois lib line).2 := by
  obtain ⟨ws, h1, h2⟩ := C23_dois lib hu line
  obtain ⟨gaps, h3, h4, h5⟩ := tagged_restore h1
  exact ⟨gaps, ws, h3, h4, h5, h2⟩

/-- A library for the examples. -/
def lib0 : Lib := ⟨id, fun s => replace (replace s (py! "%2f") ['/']) (py! "%2F") ['/'], .fail, .fail⟩

example : @tagDois asciiDB lib0 (py! "see (DOI): 10.1103/PhysRev.1, https://doi.org/10.1007.ab%2Fc-d. and 10.12/x") =
    (py! "see <cds.DOI />, <cds.DOI />. and 10.12/x", [py! "10.1103/PhysRev.1", py! "10.1007.ab/c-d"]) := by decide +kernel

/-! ### C24: URLs -/

/-- **C24**, for lines in which no link directly follows a character that a URL may contain: tagging
replaces, from left to right, every link and every URL by the placeholder and leaves everything else
as it was; what is reported is, in the same order, the URL and the description of each replaced text.
The full statement, for every line, is refuted by `C24_swallowed`. -/
theorem C24_partial [UnicodeDB] (line : Str) (h : LinksApart line) :
    ∃ ws, Tagged (fun w => ∃ ud, CitesUrl w ud) (py! "<cds.URL />") line (tagUrls line).1 ws ∧
      All2 CitesUrl ws (tagUrls line).2 ∧
      ∃ gaps : List Str, gaps.length = ws.length + 1 ∧ line = interleave gaps ws ∧
        (tagUrls line).1 = interleave gaps (ws.map fun _ => py! "<cds.URL />") := by
  obtain ⟨ws, h1, h2⟩ := tagUrls_cut h
  exact ⟨ws, h1, h2, tagged_restore h1⟩

example : @tagUrls asciiDB (py! "see http://a.org/x. or <a href=\"http://b.org\">B</a> 'ftp://c:80/d'") =
    (py! "see <cds.URL /> or <cds.URL /> <cds.URL />",
      [(py! "http://a.org/x", py! "http://a.org/x"), (py! "http://b.org", py! "B"), (py! "ftp://c:80/d", py! "ftp://c:80/d")]) := by
  decide +kernel

/-- The hypothesis of `C24_partial` cannot be dropped: when a link directly follows a URL, its blanked
text is taken for a part of the URL. Two URLs are reported for one placeholder and the text after
them is lost. -/
theorem C24_swallowed : @tagUrls asciiDB (py! "http://a.b<a href=\"http://c.d\">x</a> in the text that follows them") =
    (py! "<cds.URL />at follows them",
      [(py! "http://a.b__________________________", py! "http://a.b__________________________"), (py! "http://c.d", py! "x")]) := by
  decide +kernel

/-! ### C25: positions in the line with squeezed white space -/

/-- **C25.** The working line is the line with every run of white space squeezed. -/
theorem C25_compress [UnicodeDB] (line : Str) :
    Squeezes line (compressSpaces line).2 ∧ NoDoubleSpace (compressSpaces line).2 := by
  have h := scan_scanned' multi_minLen line
  refine ⟨?_, sub_multi_adj line⟩
  have := squeezes_pieces (multi_hits h)
  rwa [scan_orig] at this

/-- **C25.** For a text of length `n` found at position `i` of the squeezed line, the position and the
extra length computed from the recorded runs delimit exactly the part of the line that squeezes to
the text found; what stands before and after it squeezes to what stands before and after the text. -/
theorem C25_positions [UnicodeDB] (line : Str) (i n : Nat) (h : i + n ≤ (compressSpaces line).2.length) :
    ∃ a b c, line = a ++ b ++ c ∧
      accountSpaces (sortBy (fun x y => decide (x.1 ≤ y.1)) (compressSpaces line).1) (some n) i = (a.length, b.length - n) ∧
      n ≤ b.length ∧ Squeezes a ((compressSpaces line).2.take i) ∧
      Squeezes b (((compressSpaces line).2.drop i).take n) ∧ Squeezes c ((compressSpaces line).2.drop (i + n)) := by
  have hs := scan_scanned' multi_minLen line
  have hh := multi_hits hs
  have ho := scan_orig Rx.re_multiple_space line
  have h1 : (compressSpaces line).1 = runsAt 0 (scan Rx.re_multiple_space line) := runsAt_eq hs
  have h2 : (compressSpaces line).2 = (scan Rx.re_multiple_space line).flatMap (Piece.out fun _ => [' ']) := rfl
  rw [h1, sortBy_of_sorted (runsAt_sorted _ _)]
  rw [h2] at h ⊢
  generalize scan Rx.re_multiple_space line = ps at *
  rw [out_length] at h
  obtain ⟨sp, hf⟩ := spaces_all (off := 0) (fun m hm => (hh m hm).1) h
  have hl : n ≤ olen ((ps.drop i).take n) :=
    take_olen (fun m hm => (hh m (List.mem_of_mem_drop hm)).1) (by simp; omega)
  refine ⟨(ps.take i).flatMap Piece.orig, ((ps.drop i).take n).flatMap Piece.orig, (ps.drop (i + n)).flatMap Piece.orig,
    ?_, ?_, hl, ?_, ?_, ?_⟩
  · rw [← ho, ← List.flatMap_append, ← List.flatMap_append]
    congr 1
    rw [← List.drop_drop, List.append_assoc, List.take_append_drop, List.take_append_drop]
  · simp only [Nat.zero_add] at hf
    rw [accountSpaces, hf]
    rfl
  · rw [(out_take i).1]
    exact squeezes_pieces fun m hm => hh m (List.mem_of_mem_take hm)
  · rw [(out_take i).2, (out_take n).1]
    exact squeezes_pieces fun m hm => hh m (List.mem_of_mem_drop (List.mem_of_mem_take hm))
  · rw [(out_take _).2]
    exact squeezes_pieces fun m hm => hh m (List.mem_of_mem_drop hm)

example : @compressSpaces asciiDB (py! "IN  PHYS   REV  D") = ([(2, 1), (8, 2), (14, 1)], py! "IN PHYS REV D") ∧
    accountSpaces [(2, 1), (8, 2), (14, 1)] (some 8) 3 = (4, 2) ∧
    slice (py! "IN  PHYS   REV  D") 4 (4 + 8 + 2) = py! "PHYS   REV" := by decide +kernel

/-! ### C27: blanking tags -/

/-- **C27**, for lines in which no tag stands inside another one: blanking replaces every closed tag
by as many underscores and keeps everything else. The full statement, for every tagged line, is
refuted by `C27_nested`. -/
theorem C27_partial [UnicodeDB] (line : Str) (h : NoNesting line) :
    Blanked line (stripTags line) ∧ (stripTags line).length = line.length := by
  rw [stripTags_eq h]
  have hb := blanked_pieces (scan_scanned' tag_minLen line)
  refine ⟨hb, ?_⟩
  have : ∀ {s t : Str}, Blanked s t → t.length = s.length := by
    intro s t h
    induction h with
    | nil => rfl
    | ch _ _ ih => simp [ih]
    | tag _ _ ih => simp [ih]
  exact this hb

/-- The hypothesis of `C27_partial` cannot be dropped: a quoted title with an identifier in it is
tagged inside out, the blanked line is shorter than the tagged line and the ISBN is not blanked. -/
theorem C27_nested : ∃ line tagged, @tagFixed asciiDB lib0 line = .ok tagged ∧
    (@stripTags asciiDB tagged).length < tagged.length ∧
    contains (@stripTags asciiDB tagged) (py! "<cds.ISBN>1234567890</cds.ISBN>") = true :=
  ⟨py! "\"On arXiv:0705.0016\" 2007, ISBN 1234567890",
    py! "<cds.QUOTED>On <cds.ARXIV>arXiv:0705.0016</cds.ARXIV></cds.QUOTED> 2007, <cds.ISBN>1234567890</cds.ISBN>",
    by decide +kernel⟩

example : @stripTags asciiDB (py! "A. B <cds.ISBN>1</cds.ISBN>, <cds.AUTHstnd>x</cds.AUTHstnd> <cds.URL />.") =
    py! "A. B ______________________, <cds.AUTHstnd>x</cds.AUTHstnd> ___________." := by decide +kernel

end Props
