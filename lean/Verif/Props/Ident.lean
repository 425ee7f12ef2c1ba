import Verif.Lemmas.Ident5
import Verif.Py.Sample

/-!
# Identifiers of fixed shape (C76–C82)
-/

open Py Spec

namespace Props

variable [UnicodeDB]

/-! ### C81: titles in quotation marks -/

/-- **C81.** From left to right, each text between two quotation marks becomes a title; nothing else is changed. -/
theorem C81 (line : Str) : Rewritten QuotedTitle [] line (tagQuoted line) := tagQuoted_rewritten line

omit [UnicodeDB] in
/-- **C81.** This determines the result. -/
theorem C81_unique (line t t' : Str) (h : Rewritten QuotedTitle [] line t) (h' : Rewritten QuotedTitle [] line t') : t = t' :=
  rewritten_unique quoted_determined h h'

/-- **C81.** A line with at most one quotation mark is kept. -/
theorem C81_kept (line : Str) (h : ∀ a b c, line ≠ a ++ '"' :: b ++ '"' :: c) : tagQuoted line = line := by
  refine rewritten_none (tagQuoted_rewritten line) ?_
  rintro a w r x e ⟨t, rfl, -⟩
  exact h a t r (by rw [e]; simp)

example : @tagQuoted asciiDB (py! "A. Author, \"On b\", \"c\" d\"") =
    py! "A. Author, <cds.QUOTED>On b</cds.QUOTED>, <cds.QUOTED>c</cds.QUOTED> d\"" := by decide +kernel

omit [UnicodeDB] in
/-- Behind empty quotation marks the text outside of the next pair is taken for the title. -/
theorem C81_empty : @tagQuoted asciiDB (py! "\"\" in \"c\"") = py! "\"<cds.QUOTED> in </cds.QUOTED>c\"" := by decide +kernel

/-! ### C76: book numbers -/

/-- **C76.** Full statement: a book number printed behind `ISBN`, `ISBN-10`, `ISBN-13` or `International
Standard Book Number` is recognised, and is reported without the label. Proved is exactly what is recognised
and reported; refuted by `C76_words` and `C76_thirteen` are the label in words and labels joined to the
number by a hyphen. -/
theorem C76_partial (line : Str) : Rewritten IsbnText [] line (tagIsbn line) := tagIsbn_rewritten line

omit [UnicodeDB] in
/-- **C76.** This determines the result. -/
theorem C76_unique (line t t' : Str) (h : Rewritten IsbnText [] line t) (h' : Rewritten IsbnText [] line t') : t = t' :=
  rewritten_unique isbn_determined h h'

omit [UnicodeDB] in
/-- The label in words is not recognised, in spite of the pattern: blanks in it do not count. -/
theorem C76_words : @tagIsbn asciiDB (py! "International Standard Book Number 0-521-88032-7") =
    py! "International Standard Book Number 0-521-88032-7" := by
  decide +kernel

omit [UnicodeDB] in
/-- The number of the standard is taken into the book number if a hyphen follows it. -/
theorem C76_thirteen : @tagIsbn asciiDB (py! "ISBN-13-978-0521880329") = py! "<cds.ISBN>13-978-0521880329</cds.ISBN>" := by decide +kernel

example : @tagIsbn asciiDB (py! "x ISBN-13: 978-0521880329, ISBN 10 0-521-88032-X; ISBN-0521880327") =
    py! "x <cds.ISBN>978-0521880329</cds.ISBN>, <cds.ISBN>0-521-88032-X</cds.ISBN>; <cds.ISBN>0521880327</cds.ISBN>" := by decide +kernel

/-! ### C77: arXiv identifiers since 2007 -/

/-- **C77.** Full statement: every identifier `arXiv:YYMM.NNNN` or `YYMM.NNNNN`, with or without a version and a
category, is reported as `arXiv:YYMM.NNNN [category]`, and the rest of the line is kept. Proved is exactly what
is recognised, in four passes over the line, and what is reported; versions of two digits (`C77_version`) are
refuted, and blanks behind the identifier are lost (`C77_blank`). -/
theorem C77_partial {lib : Lib} {ys ys5 : List Str} (h : lib.years = Re.alts (ys.map Re.str)) (h5 : lib.years5 = Re.alts (ys5.map Re.str))
    (line : Str) : RewrittenBy [ArxivNamed Year13 Month2 5, ArxivNamed (DigitsOf 2) (DigitsOf 2) 4, ArxivBare (· ∈ ys5) 5, ArxivBare (· ∈ ys) 4]
      line (tagArxiv lib line) := tagArxiv_rewritten h h5 line

/-- **C77.** This determines the result. -/
theorem C77_unique {ys ys5 : List Str} (hy : ∀ y ∈ ys, y.length = 2) (hy5 : ∀ y ∈ ys5, y.length = 2) (line t t' : Str)
    (h : RewrittenBy [ArxivNamed Year13 Month2 5, ArxivNamed (DigitsOf 2) (DigitsOf 2) 4, ArxivBare (· ∈ ys5) 5, ArxivBare (· ∈ ys) 4] line t)
    (h' : RewrittenBy [ArxivNamed Year13 Month2 5, ArxivNamed (DigitsOf 2) (DigitsOf 2) 4, ArxivBare (· ∈ ys5) 5, ArxivBare (· ∈ ys) 4] line t') :
    t = t' := by
  refine rewrittenBy_unique ?_ h h'
  intro P hP
  simp only [List.mem_cons, List.not_mem_nil, or_false] at hP
  rcases hP with rfl | rfl | rfl | rfl
  · exact named_determined (by decide) (fun _ => year13_two) (fun _ => month2_two)
  · exact named_determined (by decide) (fun _ h => h) (fun _ h => h)
  · exact bare_determined hy5
  · exact bare_determined hy

/-- The years of the examples. -/
def someYears : List Str := [py! "91", py! "99", py! "07", py! "13", py! "15"]

/-- A library with the years of the examples. -/
def yearsLib : Lib := ⟨id, id, Re.alts (someYears.map Re.str), Re.alts (someYears.map Re.str)⟩

example : @tagArxiv asciiDB yearsLib (py! "arXiv:0704.0001v2 [hep-th], (1501.00001-v3) and ARXIV: 15-01.12345[math.AG];") =
    py! "<cds.ARXIV>arXiv:0704.0001 [hep-th]</cds.ARXIV>, (<cds.ARXIV>arXiv:1501.00001</cds.ARXIV>) and <cds.ARXIV>arXiv:1501.12345 [math.AG]</cds.ARXIV>;" := by
  decide +kernel

omit [UnicodeDB] in
/-- The second digit of a version is left in the line, and the category is lost. -/
theorem C77_version : @tagArxiv asciiDB yearsLib (py! "arXiv:1501.00001v12 [hep-th]") = py! "<cds.ARXIV>arXiv:1501.00001</cds.ARXIV>2 [hep-th]" := by
  decide +kernel

omit [UnicodeDB] in
/-- Blanks behind an identifier are lost. -/
theorem C77_blank : @tagArxiv asciiDB yearsLib (py! "arXiv:0704.0001 and") = py! "<cds.ARXIV>arXiv:0704.0001</cds.ARXIV>and" := by decide +kernel

omit [UnicodeDB] in
/-- Months do not have to be months when the word stands in front. -/
theorem C77_month : @tagArxiv asciiDB yearsLib (py! "arXiv:0799.0001") = py! "<cds.ARXIV>arXiv:0799.0001</cds.ARXIV>" := by decide +kernel

/-! ### C78: arXiv identifiers before 2007 -/

/-- **C78.** Full statement: every identifier `archive/YYMMNNN` is reported under the name of its archive.
Proved is exactly what is recognised and reported, the catch-up form first and then one pass for each archive;
refuted by `C78_wrong` and `C78_nested` for archives whose name ends like another. -/
theorem C78_partial (line : Str) : ∃ l, Rewritten ArxivCatchup [] line l ∧
    RewrittenBy (arxivArchives.map fun a => OldArxiv a.1 a.2.1 a.2.2) l (tagArxivMore line) := tagArxivMore_rewritten line

/-- **C78.** This determines the result. -/
theorem C78_unique (line l l' t t' : Str) (h : Rewritten ArxivCatchup [] line l) (h1 : RewrittenBy (arxivArchives.map fun a => OldArxiv a.1 a.2.1 a.2.2) l t)
    (h' : Rewritten ArxivCatchup [] line l') (h1' : RewrittenBy (arxivArchives.map fun a => OldArxiv a.1 a.2.1 a.2.2) l' t') : t = t' := by
  obtain rfl := rewritten_unique catchup_determined h h'
  refine rewrittenBy_unique ?_ h1 h1'
  intro P hP
  obtain ⟨a, -, rfl⟩ := List.mem_map.1 hP
  exact oldArxiv_determined

example : @tagArxivMore asciiDB (py! "math.AG/9901001v2; hep-th 9901002, arXiv:9901001 [hep-ph]") =
    py! "<cds.ARXIV>math.AG/9901001</cds.ARXIV>; <cds.ARXIV>hep-th/9901002</cds.ARXIV>, <cds.ARXIV>hep-ph/9901001</cds.ARXIV>" := by
  decide +kernel

omit [UnicodeDB] in
/-- A misprint of one archive is reported as another one. -/
theorem C78_wrong : @tagArxivMore asciiDB (py! "ep-th/9901001") = py! "<cds.ARXIV>hep-ph/9901001</cds.ARXIV>" := by decide +kernel

omit [UnicodeDB] in
/-- The name of an archive that ends like another one is cut, or tagged twice. -/
theorem C78_nested : @tagArxivMore asciiDB (py! "physics.acc-ph/9901001") = py! "physics.<cds.ARXIV>acc-ph/9901001</cds.ARXIV>" ∧
    @tagArxivMore asciiDB (py! "physics.plasm-ph/9901001") =
      py! "<cds.ARXIV>physics.<cds.ARXIV>physics.plasm-ph/9901001</cds.ARXIV></cds.ARXIV>" := by
  decide +kernel

/-! ### C79: Proceedings of Science -/

/-- **C79.** Full statement: exactly the citations of the journal PoS in one of four forms are reported as that
journal with volume, year and page. Proved is exactly which texts are recognised and what is reported for them;
no citation makes the function fail. Refuted by `C79_word`: words that end in these letters are taken for the
journal. -/
theorem C79_partial (line : Str) : ∃ t, tagPos line = .ok t ∧
    RewrittenBy [PosYearFirst, PosYearMiddle, PosYearLast, PosBrackets] line t := tagPos_rewritten line

example : @tagPos asciiDB (py! "PoS(LAT2007)369, POS LAT 2008, 20 (2009), pos (2007), X2007: 1, PoS LAT2007 (2008) 2") = .ok
    (py! "<cds.JOURNAL>PoS</cds.JOURNAL> <cds.VOL>LAT2007</cds.VOL> <cds.YR>(2007)</cds.YR> <cds.PG>369</cds.PG>, " ++
     py! "<cds.JOURNAL>PoS</cds.JOURNAL> <cds.VOL>LAT2008</cds.VOL> <cds.YR>(2009)</cds.YR> <cds.PG>20</cds.PG>, " ++
     py! "<cds.JOURNAL>PoS</cds.JOURNAL> <cds.VOL>X2007</cds.VOL> <cds.YR>(2007)</cds.YR> <cds.PG>1</cds.PG>, " ++
     py! "<cds.JOURNAL>PoS</cds.JOURNAL> <cds.VOL>LAT2007</cds.VOL> <cds.YR>(2008)</cds.YR> <cds.PG>2</cds.PG>") := by
  decide +kernel

omit [UnicodeDB] in
/-- A name that ends in `pos` is taken for the journal. -/
theorem C79_word : @tagPos asciiDB (py! "V. Kampos, Astron 2001 (2001) 12") =
    .ok (py! "V. Kam<cds.JOURNAL>PoS</cds.JOURNAL> <cds.VOL>Astron2001</cds.VOL> <cds.YR>(2001)</cds.YR> <cds.PG>12</cds.PG>") := by
  decide +kernel

/-! ### C80: ATLAS conference notes -/

/-- **C80.** Conference notes of ATLAS are reported as `ATL-CONF-` before 2010 and as `ATLAS-CONF-` since then,
however they are printed; nothing else is changed. -/
theorem C80 (line : Str) : RewrittenBy [AtlasNote CodeBefore2010 (py! "ATL-CONF-"), AtlasNote CodeSince2010 (py! "ATLAS-CONF-")] line (tagAtlas line) :=
  tagAtlas_rewritten line

/-- **C80.** This determines the result. -/
theorem C80_unique (line t t' : Str)
    (h : RewrittenBy [AtlasNote CodeBefore2010 (py! "ATL-CONF-"), AtlasNote CodeSince2010 (py! "ATLAS-CONF-")] line t)
    (h' : RewrittenBy [AtlasNote CodeBefore2010 (py! "ATL-CONF-"), AtlasNote CodeSince2010 (py! "ATLAS-CONF-")] line t') : t = t' := by
  refine rewrittenBy_unique ?_ h h'
  intro P hP
  simp only [List.mem_cons, List.not_mem_nil, or_false] at hP
  rcases hP with rfl | rfl
  · exact atlas_determined fun _ _ _ _ => codeOld_unique
  · exact atlas_determined fun _ _ _ _ => codeNew_unique

example : @tagAtlas asciiDB (py! "ATL-CONF-2012-007, ATLAS-CONF-99-123, C:ATLAS-CONF-2012-007, ATLAS-CONF-2012-0071") =
    py! "<cds.REPORTNUMBER>ATLAS-CONF-2012-007</cds.REPORTNUMBER>, <cds.REPORTNUMBER>ATL-CONF-99-123</cds.REPORTNUMBER>, C:ATLAS-CONF-2012-007, ATLAS-CONF-2012-0071" := by
  decide +kernel

/-! ### C82: all of them -/

/-- **C82.** Marking the identifiers of fixed shape never fails: the line is washed, citations of PoS are
replaced, it is washed again, and titles, book numbers, arXiv identifiers, PoS and ATLAS notes are
replaced in this order; nothing else is changed. -/
theorem C82 {lib : Lib} {ys ys5 : List Str} (h : lib.years = Re.alts (ys.map Re.str)) (h5 : lib.years5 = Re.alts (ys5.map Re.str)) (line : Str) :
    ∃ a t, tagFixed lib line = .ok t ∧ RewrittenBy [PosYearFirst, PosYearMiddle, PosYearLast, PosBrackets] (washLine line) a ∧
      RewrittenBy ([QuotedTitle, IsbnText] ++
        [ArxivNamed Year13 Month2 5, ArxivNamed (DigitsOf 2) (DigitsOf 2) 4, ArxivBare (· ∈ ys5) 5, ArxivBare (· ∈ ys) 4] ++
        ArxivCatchup :: (arxivArchives.map fun a => OldArxiv a.1 a.2.1 a.2.2) ++
        [PosYearFirst, PosYearMiddle, PosYearLast, PosBrackets] ++
        [AtlasNote CodeBefore2010 (py! "ATL-CONF-"), AtlasNote CodeSince2010 (py! "ATLAS-CONF-")]) (washLine a) t :=
  tagFixed_rewritten h h5 line

example : @tagFixed asciiDB yearsLib (py! "A. Author , \"On b\" ATL-CONF-2012-007; arXiv:0704.0001 , hep-th/9901002") = .ok
    (py! "A. Author, <cds.QUOTED>On b</cds.QUOTED> <cds.REPORTNUMBER>ATLAS-CONF-2012-007</cds.REPORTNUMBER>; <cds.ARXIV>arXiv:0704.0001</cds.ARXIV>, <cds.ARXIV>hep-th/9901002</cds.ARXIV>") := by
  decide +kernel

end Props
