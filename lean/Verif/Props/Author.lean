import Verif.Lemmas.Author5
import Verif.Props.Collab

/-!
# Authors (C86–C90)
-/

namespace Props
open Py Spec
open scoped List

section
variable [UnicodeDB]

/-! ### C86: where authors are marked, and as what -/

/-- **C86.** The spellings of the knowledge base are put in, one after the other. The groups that the pattern recognises from
left to right outside the items already marked are marked, and what is put in their place is as described; a group is left
alone when the text since the last one makes it doubtful, and takes this text in when it is further authors. Nothing fails. -/
theorem C86 (lib : Lib) (line : Str) (kb : List (Str × Str)) (hk : ∀ p ∈ kb, p.1 ≠ []) :
    ∃ D, RewrittenBy (kb.map fun p => fun _ w _ x => w = p.1 ∧ x = p.2) line D ∧
      (NoNesting D → '\n' ∉ D →
        (finditer Rx.RE_AUTH (stripTags (lib.unidecode D))).length ≤ (finditer Rx.RE_AUTH (stripTags D)).length →
        ∃ B t, tagAuthors lib line kb = .ok t ∧ Blanked D B ∧ AuthorsMarked AuthorHere WeakerFinds [] B D t) :=
  ⟨_, respelt hk line, fun hN hn hu => tagAuthors_spec lib line _ kb rfl hu hN hn⟩

/-- **C86.** A line that transliteration leaves as it is. -/
theorem C86_plain (lib : Lib) (line : Str) (hu : lib.unidecode line = line) (hN : NoNesting line) (hn : '\n' ∉ line) :
    ∃ B t, tagAuthors lib line [] = .ok t ∧ Blanked line B ∧ AuthorsMarked AuthorHere WeakerFinds [] B line t :=
  tagAuthors_spec lib line line [] rfl (by rw [hu]; exact Nat.le_refl _) hN hn

/-- **C86.** This says what the result is. -/
theorem C86_unique {D B B' t t' : Str} (h1 : Blanked D B) (h1' : Blanked D B') (h : AuthorsMarked AuthorHere WeakerFinds [] B D t)
    (h' : AuthorsMarked AuthorHere WeakerFinds [] B' D t') : t = t' := by
  cases blanked_unique h1 h1'
  exact authorsMarked_unique authorHere_one h h'

end

example : @tagAuthors asciiDB plainLib (py! "A. Smyth et. al., title; (eds. J. Doe), <cds.DOI>A. Foo</cds.DOI> B. Cox et al. C. Fox x") [(py! "Smyth", py! "Smith")] =
    .ok (py! "<cds.AUTHetal>A. Smith et al.</cds.AUTHetal> title; <cds.AUTHincl>J. Doe (eds.)</cds.AUTHincl>, <cds.DOI>A. Foo</cds.DOI><cds.AUTHetal>B. Cox et al.</cds.AUTHetal><cds.AUTHstnd>C. Fox</cds.AUTHstnd> x") := by
  decide +kernel

/-- Left alone after "et al". -/
example : @tagAuthors asciiDB plainLib (py! "smith et al. B. Cox, title") [] = .ok (py! "smith et al. B. Cox, title") := by decide +kernel

/-! ### C87: who counts as editors -/

section
variable [UnicodeDB]

/-- **C87.** What is recognised stands at the beginning of the line, behind blanks or behind a bracket, has white space or
punctuation behind it, and counts as editors exactly if it has `eds. `, `edited by ` or `(eds.)` directly in front of the names, or
`, eds.` or ` (editors)` directly behind them. -/
theorem C87_partial {b w r : Str} {g : AuthorGroup} (h : AuthorHere b w r g) : ∃ o es ee c, GroupShape b w r g o es ee c :=
  authorHere_shape h

end

example : @tagAuthors asciiDB plainLib (py! "edited by A. Smith and B. Cox, title, C. Doe, D. Fox (eds.), x") [] =
    .ok (py! "<cds.AUTHincl>A. Smith and B. Cox (eds.)</cds.AUTHincl>, title,<cds.AUTHincl>C. Doe, D. Fox (eds.)</cds.AUTHincl> x") := by decide +kernel

/-- **C87, refuted as promised.** `(ed.)` with a blank behind it does not make the authors editors. -/
theorem C87_refuted_before : @tagAuthors asciiDB plainLib (py! "(ed.) A. Smith, title") [] = .ok (py! "(ed.)<cds.AUTHstnd>A. Smith</cds.AUTHstnd>, title") ∧
    @tagAuthors asciiDB plainLib (py! "(ed.)A. Smith, title") [] = .ok (py! "<cds.AUTHincl>A. Smith (eds.)</cds.AUTHincl>, title") := by decide +kernel

/-- **C87, refuted as promised.** Nor does `(Ed.)` behind one author, who is reported with a bracket that is never closed. -/
theorem C87_refuted_behind : @tagAuthors asciiDB plainLib (py! "A. Smith (Ed.), title") [] =
    .ok (py! "<cds.AUTHstnd>A. Smith (Ed.</cds.AUTHstnd> title") := by decide +kernel

/-! ### C88: which authors are found -/

section
variable [UnicodeDB]

/-- **C88.** Where an author stands that is written plainly, with one to five initials and a surname, at the beginning of the
line, behind a blank or behind a bracket, and white space or punctuation follows, a group is recognised. -/
theorem C88_partial {b o w r : Str} (ho : (o = [] ∧ b = []) ∨ (o ≠ [] ∧ Blanks o) ∨ o = ['('])
    (hv : ¬ ∃ a z, b ++ o = a ++ (py! "Volume" ++ [z]) ∧ isSpace z = true) (hw : PlainAuthor w) (hr : Delimited r) :
    ∃ x y g, o ++ w ++ r = x ++ y ∧ AuthorHere b x y g := plainAuthor_here ho hv hw hr

/-- **C88.** So no such author begins in the text between the groups. -/
theorem C88_gap_partial {b u r : Str} (h : NoGroup AuthorHere b u r) (hu : '_' ∉ u) {p q o w r' : Str} (e : u = p ++ q) (hq : q ≠ [])
    (e' : q ++ r = o ++ w ++ r') (ho : (o = [] ∧ b ++ p = []) ∨ (o ≠ [] ∧ Blanks o) ∨ o = ['('])
    (hv : ¬ ∃ a z, b ++ p ++ o = a ++ (py! "Volume" ++ [z]) ∧ isSpace z = true) (hw : PlainAuthor w) : ¬ Delimited r' :=
  plainAuthor_gap h hu e hq e' ho hv hw

/-- **C88.** But no group ever reaches the end of the line. -/
theorem C88_end {b w r : Str} {g : AuthorGroup} (h : AuthorHere b w r g) : r ≠ [] := by
  obtain ⟨o, es, ee, c, hS⟩ := authorHere_shape h
  obtain ⟨d, k, rfl, -⟩ := hS.behind
  exact List.cons_ne_nil _ _

end

example : @PlainAuthor asciiDB (py! "A. B.van Smith") :=
  letI := asciiDB
  ⟨1, 'A', py! ". B.", py! "van ", 'S', py! "mith", rfl, by decide, by decide, .more (k := [' ']) (by decide) (by decide) (.last (k := []) (by decide)),
    .inr ⟨py! "van", ' ', rfl, by decide, by decide, by decide, by decide, by decide, by decide⟩, by decide, by decide, by decide, by decide, by decide⟩

example : @tagAuthors asciiDB plainLib (py! "see A. B.van Smith: title") [] = .ok (py! "see<cds.AUTHstnd>A. B.van Smith</cds.AUTHstnd>: title") := by decide +kernel

set_option synthInstance.maxSize 1000 in
/-- **C88, refuted.** An author at the end of a reference is not reported as an author. -/
theorem C88_refuted : (@parseReferences asciiDB id plainLib emptyKbs defaultFormat none [py! "[1] doi:10.1000/xyz A. Smith"]).map (·.1) = .ok
    [[(py! "linemarker", [py! "1"]), (py! "raw_ref", [py! "[1] doi:10.1000/xyz A. Smith"]), (py! "doi", [py! "doi:10.1000/xyz"]),
      (py! "misc", [py! "A. Smith"])]] ∧
    (@parseReferences asciiDB id plainLib emptyKbs defaultFormat none [py! "[1] doi:10.1000/xyz A. Smith."]).map (·.1) = .ok
    [[(py! "linemarker", [py! "1"]), (py! "raw_ref", [py! "[1] doi:10.1000/xyz A. Smith."]), (py! "doi", [py! "doi:10.1000/xyz"]),
      (py! "author", [py! "A. Smith"])]] := by decide +kernel

/-- **C88, refuted.** Two short words before the surname are too many. -/
theorem C88_refuted_words : @tagAuthors asciiDB plainLib (py! "A. van der Waals, title") [] = .ok (py! "A. van der Waals, title") := by decide +kernel

/-! ### C89: the text around authors -/

/-- **C89.** Marking authors puts no semicolon into a line that has none (a semicolon divides a reference). -/
theorem C89_partial [UnicodeDB] (lib : Lib) (line : Str) (hu : lib.unidecode line = line) (hN : NoNesting line) (hn : '\n' ∉ line) (hs : ';' ∉ line) :
    ∃ t, tagAuthors lib line [] = .ok t ∧ ';' ∉ t := by
  obtain ⟨B, t, h1, -, h2⟩ := C86_plain lib line hu hN hn
  exact ⟨t, h1, authorsMarked_semi h2 hs⟩

/-- **C89, refuted.** A semicolon behind a group of authors is doubled. -/
theorem C89_refuted : ¬ ∀ (U : UnicodeDB) (line t : Str), @tagAuthors U plainLib line [] = .ok t → t.count ';' ≤ line.count ';' := by
  intro h
  have := h asciiDB (py! "A. Smith; title") (py! "<cds.AUTHstnd>A. Smith</cds.AUTHstnd>;; title") (by decide +kernel)
  exact absurd this (by decide)

set_option synthInstance.maxSize 1000 in
/-- **C89, refuted.** In the references reported, one of two authors comes twice, and a semicolon stands for a text. -/
theorem C89_refuted_reported : (@parseReferences asciiDB id plainLib emptyKbs defaultFormat none [py! "[1] A. Smith; B. Cox; doi:10.1000/xyz"]).map (·.1) = .ok
    [[(py! "linemarker", [py! "1"]), (py! "raw_ref", [py! "[1] A. Smith; B. Cox; doi:10.1000/xyz"]), (py! "author", [py! "A. Smith"])],
     [(py! "linemarker", [py! "1"]), (py! "raw_ref", [py! "[1] A. Smith; B. Cox; doi:10.1000/xyz"]), (py! "misc", [[';']]), (py! "author", [py! "B. Cox"])],
     [(py! "linemarker", [py! "1"]), (py! "raw_ref", [py! "[1] A. Smith; B. Cox; doi:10.1000/xyz"]), (py! "misc", [[';'], [';']]), (py! "author", [py! "B. Cox"]),
      (py! "doi", [py! "doi:10.1000/xyz"])]] := by decide +kernel

/-! ### C90: letters that are transliterated -/

/-- **C90.** If transliterating brings no further authors to light, every character outside the marks is as in the line. -/
theorem C90_partial [UnicodeDB] (lib : Lib) (line : Str) (hN : NoNesting line) (hn : '\n' ∉ line)
    (hu : (finditer Rx.RE_AUTH (stripTags (lib.unidecode line))).length ≤ (finditer Rx.RE_AUTH (stripTags line)).length) :
    tagAuthors lib line [] = tagAuthors ⟨id, lib.unquote, lib.years, lib.years5⟩ line [] := by
  obtain ⟨B, t, h1, h2, h3⟩ := tagAuthors_spec lib line line [] rfl hu hN hn
  obtain ⟨B', t', h1', h2', h3'⟩ := tagAuthors_spec ⟨id, lib.unquote, lib.years, lib.years5⟩ line line [] rfl (Nat.le_refl _) hN hn
  rw [h1, h1', C86_unique h2 h2' h3 h3']

/-- A library that takes accents away. -/
def accentLib : Lib := ⟨fun s => (s.filter (· != '́')).map fun c => if c = 'Ü' then 'U' else c, id, .fail, .fail⟩

example : @tagAuthors asciiDB accentLib (py! "A. Smith, Über") [] = .ok (py! "<cds.AUTHstnd>A. Smith</cds.AUTHstnd>, Über") := by decide +kernel

set_option synthInstance.maxSize 1000 in
/-- **C90, refuted.** One name that is recognised only without its accent, and the title is reported in other letters. -/
theorem C90_refuted : (@parseReferences asciiDB id accentLib emptyKbs defaultFormat none [py! "[1] A. Kówal, Über alles, doi:10.1000/xyz"]).map (·.1) = .ok
    [[(py! "linemarker", [py! "1"]), (py! "raw_ref", [py! "[1] A. Kówal, Über alles, doi:10.1000/xyz"]), (py! "author", [py! "A. Kowal"]),
      (py! "misc", [py! "Uber alles"]), (py! "doi", [py! "doi:10.1000/xyz"])]] := by decide +kernel

end Props
