# Design: a Lean model of refextract

The code under study is `/repo` (inspirehep/refextract, Python). It is read as
text only. The model lives in `lean/Verif/`, is core Lean 4 unless a file says
otherwise, and mirrors the Python function by function.

## Layout

| Path | Contents |
|---|---|
| `Verif/Py/*` | Python primitives: strings as lists of code points, `str` methods, slices, integers, exceptions; a backtracking regular-expression engine in Python's priority order |
| `Verif/Gen/*` | Regular expressions of the code as syntax trees, generated by `tools/gen_regex.py` from the source text of `/repo` |
| `Verif/Model/*` | Model of each function; every definition cites file and lines |
| `Verif/Spec/*` | Independent specifications used to state the properties |
| `Verif/Lemmas/*` | Helper lemmas |
| `Verif/Props/*` | Property theorems (named after the property ids) and the concrete examples beside them |

## Modelling decisions

* A Python `str` is `List Char`. Lone surrogates do not exist in Lean's `Char`
  and are outside the model.
* Exceptions are values: `Except PyErr α`. Functions that cannot raise are pure.
* ASCII behaviour of `isdigit`, `upper`, `\w`, `\d` and case-insensitive matching
  is concrete. Behaviour on other code points is an abstract table
  (`UnicodeDB`) over which every theorem quantifies. White space is the concrete
  Python table.
* A regular expression is a syntax tree and `run` returns the list of all
  successes in Python's backtracking order; the first is Python's match.
  `scan` cuts a string into unmatched characters and matches with the
  CPython >= 3.7 rule for empty matches; `finditer`, `search`, `sub` are read
  off `scan`.
* Loops whose bound is not syntactic are written with structural recursion on
  the text or on a fuel argument that is proved sufficient.
* Dictionaries of citation elements are a structure with one optional field per
  key, so a missing key is `none` and reading it is `KeyError`.
* After the split step the same Python object can sit in two citations. From
  there on the model uses an explicit heap and citations are lists of object
  identifiers.
* External code is a parameter: the linker callback, `unidecode`, `unquote`,
  the alternatives of two-digit years made from today's date (fields of `Lib`),
  `replace_undesirable_characters` (`undesirable`), `re.compile` on knowledge
  base entries (`compile`), `pdftotext`, libmagic, requests, pypdf, the clock.
  Theorems quantify over all their behaviours. Where a law is needed it is a
  hypothesis: `Spec.Decodes` (percent-decoding turns `%2F` into a slash, C23).
* C94 asks of `unidecode` that it works character by character, keeps ASCII, spells white space with white
  space and everything else with ASCII, and that capitals bring no `<` (`Spec.Spelled`); of
  `replace_undesirable_characters` that it brings no `<`; of the knowledge bases `Spec.PlainKbs`.
* `dedupe_list` of inspire_utils is not in /repo; it is taken to keep first
  occurrences in order (C49).
* Comparison of header lines uses a float quotient in the code; the model
  compares the integers by cross multiplication, which agrees for lists of less
  than 10^15 words.
* `UnicodeDB` has six laws (`Verif/Py/Basic.lean`), facts of Python's tables:
  decimal values are below ten; decimal characters are digits; digits are word
  characters; digits are not white space; decimal characters have no case
  variants; ASCII case variants of non-ASCII characters are among `IiKkSs`. Two instances (`asciiDB`, `sampleDB`) show that they
  can be satisfied.

## Plan and method per property

`W` marks properties the code violates: the negation is proved with a concrete
witness, and a theorem named `_partial` covers the inputs for which the property
holds. `MANIFEST.json` names the theorems.

| Id | What is modelled | How it is proved |
|---|---|---|
| C01 | `parse_references`, `parse_references_elements`, `build_references` over the modelled line parser | induction over the lines; non-emptiness from C09 |
| C02 | `build_reference_fields`, `add_subfield` | invariant of the fold over elements |
| C03 | `create_reference_field`, `format_marker` | characterisation of `strip` |
| C04 | `build_reference_fields` | induction; a text with a content character is not emptied by the two one-sided strips |
| C05 | `build_reference_fields`, `str.format` on templates | induction: each key's list is a filter-map of the elements |
| C06, C07, C09 | `split_citations_iter` | loop invariants: current citation and set of types; concatenation of non-author text |
| C08 W | `split_citations_iter` | witness; partial when no text has a semicolon or there are at most two authors |
| C10 | the three `remove_duplicated_*` functions, including removal by equality; then whole lines | induction with the snapshot/actual list relation |
| C11 | `associate_recids`, `add_recid_elements` with an arbitrary callback | induction |
| C12 | `add_year_elements` | induction, regex search by its specification |
| C13 W | `remove_year` | witness; partial: texts where the year is isolated |
| C14 | `roman2arabic`, `format_volume` | arithmetic on the three letters; general formula |
| C15, C16 | `mangle_volume`, `split_volume_from_journal` | engine lemma for `\d+[A-Z]`; `rsplit` lemma; dropped tail shown |
| C17 W | `handle_special_journals` | arithmetic on digit strings; ValueError witness for `isdigit` but not decimal characters |
| C18 | `format_report_number`, `format_hep` | regex and prefix lemmas |
| C19, C20 | `parse_tagged_reference_line` | parse/render round trip by induction on tokens; structural measure; subsequence invariant |
| C21 W, C22 W | same, with the tagging functions | witnesses; partial: kinds for which it holds, enough DOIs and URLs |
| C23 | `identify_and_tag_DOI` | engine lemmas (match text, group content in the language of the group) |
| C24 W | `identify_and_tag_URLs` | same; witness for a link glued to a preceding URL |
| C25 | `remove_and_record_multiple_spaces_in_line`, `account_for_stripped_whitespace` | reference position map, invariant on the running offset |
| C26 W | `identify_publishers`, `add_tagged_publisher` | C25 composed with upper-casing, blanking and overwriting (`Lemmas.Places.place`); witness |
| C27 W | `strip_tags` | witness with nesting; partial without |
| C28 W, C29 | `identify_journals`, `identify_report_numbers`, `identify_ibids` | invariant on the working line: what is overwritten is what is recorded |
| C30 W | `sum_2_dictionaries`, `parse_references_elements`, `build_stats` | witness; what is computed instead |
| C31 | `remove_reference_line_marker` | engine lemma on the marker patterns, priority of alternatives |
| C32 W | `look_for_hdl`, `look_for_hdl_urls` | greedy-tail lemma, multiset equality; witness for the order |
| C33, C34 | `rebuild_reference_lines`, `join_lines` | loop invariant of the backward loop |
| C35 W | blank line separation and string input | witness; partial for lines with line ends |
| C36 | `find.py`, `get_reference_lines` | bounds by induction on the searching loops |
| C37, C64 | `remove_page_boundary_lines` and callees | index-set characterisation |
| C38 | `join_lines` | direct |
| C39, C40 W | `wash_line` | edit relation over scans; C40: witness |
| C41-C43 W, C62 W | `get_kbs` as a state machine | refinement to a fresh load; failing loads, shared dictionaries and changed lists refuted |
| C44 W | `build_journals_kb` | induction; witness for repeated terms |
| C45, C68 W, C69 | `institute_num_pattern_to_regex`, `order_reportnum_patterns_bylen`, `build_reportnum_kb` | sequential equals simultaneous replacement; witness for quoted text |
| C46, C47 W | `clean_pdf_file` on byte lists | find/rfind lemmas |
| C48 | `extract_references_from_url` as an effectful step sequence with a file-system state | case analysis over outcomes, induction over chunks |
| C49 | `extract_references_from_file` enrichment | zip induction |
| C50, C51 W | `extract_texkeys_and_urls_from_pdf` | sorting lemmas; witness |
| C52, C53, C63 | `extract.py` | induction |
| C54 W, C55 W | `find_substring_ignore_special_chars`, `cut_substring_with_special_chars`, `search_for_book_in_misc` | index of the n-th letter or digit; witnesses |
| C56 W, C57, C61, C71 | `find_numeration`, `find_numeration_more`, `add_tagged_journal`, `create_numeration_tag` | which groups take part in a match, that they lie inside the text matched, last group of a pattern; exact values of written forms by a symbolic run of the patterns over shapes of texts (`Lemmas/Shape`), proved sound |
| C58 | post-processing pipeline | well-formedness invariant |
| C59 | journal references of whole lines | invariant: elements are complete |
| C60 | `remove_b_for_nucl_phys` | direct |
| C65 | `_repair_url` patterns | scan lemmas |
| C66 W, C67 W | `find_reference_section`, `find_end_of_reference_section` | witness; partial |
| C70 | `parse_reference_line` | all citations of a line carry its marker |
| C72, C73 W | `process_reference_line`, `identifiy_journals_re` | `Lemmas.Places.place`; witness with the shipped entry |
| C74 W | `process_reference_line` | every dictionary lookup succeeds; witness for a special title that is a pattern |
| C75 W | `add_tagged_report_number` | exact formula; witness |
| C76 W | `tag_isbn` | exact description of the pieces replaced, shown to determine the result; two witnesses |
| C77 W | `tag_arxiv` | the same, four passes; three witnesses |
| C78 W | `tag_arxiv_more` | the same, one pass for each archive of the table; two witnesses |
| C79 W | `tag_pos_volume` | the same, four forms; no error; one witness |
| C80 | `tag_atlas_conf` | the same, two passes |
| C81 | `tag_quoted_text` | the same, one pass |
| C82 | first half of `tag_reference_line` | the passes put together; no error |
| C83, C85 W | `identify_and_tag_collaborations` | exact description of the pieces replaced in the blanked line, shown to determine the result; tags stay closed |
| C84 W | `build_publishers_kb`, `build_books_kb`, `build_collaborations_kb` | one lemma on tables built row by row; witness |
| C86 W, C90 | `identify_and_tag_authors` | groups read from left to right in the blanked line, marks and the doubtful ones described exactly and shown to determine the result |
| C87, C88 | the pattern for author groups | its outer parts described exactly, using the captures; plain authors shown to be matched through the semantics of patterns; no group at the end of the line |
| C89 | `identify_and_tag_authors` | every character of a mark comes from the line, `et al.`, ` (eds.)` or the tags |
| C91, C92, C93 | `extract_references_from_string`, `extract_references_from_list` | pieces of lines are moved, never copied (C33); the text of a reference is its pieces but for white space and hyphens; a marker found in a single line is found at its beginning; a match of a marker is never blank |
| C94 | `parse_reference_line` and all of `tag.py` | a line is text and whole tags (`Built`), counted tag by tag; every later rewriting is `Meek`: it brings no beginning of `<cds.DOI` or `<cds.URL` into any context, up to white space and transliteration; a verified automaton check (`Avoid`) for the author names; then C22 and C58 |
| C95 | `find_reference_section_no_title_generic`, `rebuild_reference_lines`, `remove_reference_line_marker` and `format_marker` through `extract_references_from_string` | the marker pattern finds `[1]`, then the next number wherever it stands first; a verified check that a title pattern only matches a line that opens with a title behind at most thirteen characters (`Re.early`); the substitutions of `wash_line` keep the leading number (`Re.passes`) |
| C96 | `find_reference_section`, `find_end_of_reference_section`, `get_reference_lines` and `rebuild_reference_lines` through `extract_references_from_string(is_only_references=False)` | the section begins at the last line that opens with a title; titles and closing titles are recognised by a verified matcher check (`Re.can`), and nothing else opens like one (`Re.early`); the count of references keeps the end from falling inside the list; then the argument of C95 with the pattern of the line marker |
| C97 | `get_plaintext_document_body`, `extract_references_from_file`, `extract_references_from_file_url` against `extract_references_from_string(is_only_references=False)`; file type, decoding and the output of `pdftotext` as parameters | the lines of the file are those of the string with a line feed each; every condition of C96 holds for them too (`plain_ended`), so the same blocks are found; joining the lines of a reference depends on the stripped lines only, and empty lines leave at most one blank (`join_blanks`) |
| C98 | `parse_references` over `parse_references_elements`, `tag_reference_line`, `sum_2_dictionaries`; `extract_references_from_string` | the counts handed from line to line decide nothing but their own sums, which cannot fail without the literal key `key`; records are built line by line; the raw texts of a string have no line feed and no white space at their ends, so each is a single reference again (`stringLines_one`) |
| C99 | `Model/Kept.lean`: the loop and `parse_references` with the knowledge bases they leave, also on failure; sequences of calls | updating a dictionary twice with the same entries is updating it once (`dupdate_twice`), so the kept dictionary is the loaded or the updated one, and both give the same results |
| C100 | `find_reference_section`, `find_numeration`, `find_reference_section_no_title_generic`, `get_reference_section_beginning` | invariant of the backward loop: what is left after the positions from n on, in terms of headings, headings with a mark and headings with number one in their own line; first-match lists described without the search function |
| C101 | `look_for_implied_ibids`, `find_numeration`, `extract_series_from_volume`, all steps after splitting | citations share only authors (`splitCitations_shared`), so on the heap each citation is completed on its own; the later steps keep everything but texts, authors, DOIs, years, books and records (`post_completed`); the series patterns are described without the engine (`series_cases`) |
| C102 | the transformations and C101 | each transformation is the identity on the articles that C101 adds, for journals without rules of their own |
| C103 | the whole of `parse_references` | recognition of one title by a completeness argument; every other pattern is shown barren on plain text by a checker; then C61, C19 and the record lemmas |
| C104 | the transformations and C07 | an invariant on the items that are neither articles nor texts, through every pass; then `C05_values` |
| C105 | `look_for_books` and C104 | the same invariant for titles and books; later steps only add to them |
| C106 | `look_for_undetected_books` on the heap of elements | the loop over texts and books with what has been refused so far; the part cut out by C54 |
| C107 | the whole of `parse_references` | as C103, with nothing to be found: every pattern is barren on the text or excluded by the hypothesis; then C12 for the year |
| C108 W | `remove_year` | deletion relation of C12, restricted to what is not white space |
| C109 | the whole of `parse_references` | as C103 with `identify_report_numbers`: the category order as a sort that refines length, the place of the number by counting blanks, C75 for the cut, C19 for the tags, the exact form of C18, and one lemma (`references_lone`) for everything behind the tags that works for every single item |
| C110 | the whole of `parse_references` | C23 with the first match of the DOI pattern (the longest text, `match_doi_longest`); the line with the placeholder is clean: a checker shows that each fixed pattern needs something forbidden there, a slash being allowed only in ` />`; one lemma (`tag_token`) for a line with one tag and nothing else known; then `references_lone` as for C109 |
| C111 | the whole of `parse_references` | C77 says exactly what `tag_arxiv` does; in a line with one identifier every pattern but its own begins nowhere, before and after it is rewritten (`tagArxiv_calm`: an identifier is announced by the word, or has digits on both sides of a full stop, and there is one place for both); the line with the tag is clean for the other patterns; then `tag_token` and `references_lone` as for C110 |
| C112 | `file_resolving`, `load_kb`, `load_kb_from_file`, `re_kb_line` | The lines of a text are described by an inductive relation, shown total and unique. A row is described by the last hyphens with something behind them; the first match of the pattern takes exactly that (`first_word_seq`: a greedy word in a group takes the most that lets the rest match), and the description has one solution |
| C113 | `build_authors_kb`, `build_journals_re_kb`, `build_special_journals_kb` | By induction on the lines, with the row of a line from C112 |
| C114 | `repair_broken_urls`, `identify_and_tag_URLs`, `parse_references` | A small automaton shows that every repair pattern needs `:/` behind a letter other than `s`; the preferred match of the URL pattern is computed forwards; then the lemma on a line with one item (as C110) |
| C115 | `identify_and_tag_DOI`, `split_citations_iter`, `parse_references` | The scan for DOIs by induction over the DOIs of the line; a line with several tags and nothing known between them (generalises the lemma for one tag); every further DOI starts a citation; each citation has one DOI and no year, so the later steps keep it |
| C116 | `convert_PDF_to_plaintext` on what `pdftotext` writes | UTF-8 from Lean's library (`List.utf8Decode?_utf8Encode`); no byte of another character is a line feed; the pattern for page breaks with the greedy run of white space (`first_star_seq`) gives the last break that is followed by text; pages by induction |
| C117 | `clean_pdf_file`, `get_plaintext_document_body`, `convert_PDF_to_plaintext`, `remove_page_boundary_lines`, `extract_references_from_file` | C46 for the bytes, C116 for the lines, C64 for headers and footers; then every condition of C96 holds for lines some of which have lost their ends (`ends_plain`, which generalises `plain_ended`); C49 for the keys |
| C118 | `find_end_of_reference_section`, the test for numbers | `Spec/Figure`: a line of numbers described by its characters, four such lines. The loop of the code is shown to hold iff the next three lines are lines of numbers at once (`digitLoop_iff`), and stripping and leaving out signs is shown to be that description. Two refutations. |
| C119 | `tag_dois`, `tag_reference_line`, `parse_reference_line`, `build_reference_fields` | `Spec/ArticleDoi`: the line as texts, title, numeration and DOI; its record. The mark of the DOI is one more token of the line: the cleaned line is read token by token (`recognise_marked`), the numeration ends at the punctuation in front of the mark, the tags of the article and the mark are parsed by `C19`, and the elements stay in one citation (`post_with`). |
| C120 | `tag_arxiv`, `tag_reference_line`, `parse_reference_line`, `build_reference_fields` | `Spec/ArticleArxiv`: the line as texts, title, numeration and identifier. `fixed_cited` (from C111) tags the identifier, whatever stands in front; then the lemmas of C119, which are about any closed tag behind the article (`tag_marked`, `post_with`, `build_with`). |
| C121 | `extract_references_from_string`, `extract_references_from_file`, down to `build_references` | `Spec/Cited`: `Cited` lists the kinds of lines with their records, `CitedList` a list of them (joined by `RefOf`, which is shown to be functional), `Listed` the expected records. Composition: the lines of the document (C96), one by one (C98), each line (C103, C107, C109, C110, C111, C114, C115, C119, C120); files by C97, PDF files by C117. `C121_options` composes it with C122 and C123: a linker and any format without the last page. |
| C122 | `parse_references` and everything below it, with and without a linker callback | `Spec/Linked`: `Steady` callbacks, `SameButLinked` records, `Unlinked`, `OnlyLine`, `Finds`. Erasing the record ids commutes with splitting and with every step on the heap up to linking (`Linked2`); after linking, an element's answer is a function of the rest of the element, so equality of elements, by which duplicates are removed, is not changed (`Linked3`); the record builder looks at record ids for `recid` elements only (`Linked4`). |
| C123 | `parse_references` with two formats | `Spec/Format`: `SameButFormatted`. The parsed lines do not depend on the format; every element that reaches the record builder is complete (C58), so no format without the last page fails; the subfields an element adds differ under `journal_reference` only. |
| C124 | `parse_references`, reported DOIs against those cited | `C124_partial`: an invariant of the loop over the marks (`DoisFrom`: every DOI element made and every DOI left is a recognised one) and of all later steps (`OwnDoi`, closed under the transformations, the split, the implied articles and the removal of duplicates), with C23 for what a recognised DOI is. The other half is refuted. |
| C125 | `parse_references`, reported URLs against those cited | As C124, with `UrlsFrom` and `OwnUrl`, and C24 for what a recognised URL is; `Spec/OwnUrl`: `DoisOut`, the text in which URLs are looked for. The condition on links is that of `C24_partial`; `linksApart_plain`: it holds for lines without quotation marks. The other half is refuted. |

## What the code gets wrong

Each of these is a theorem about the model with a concrete input.

| Id | Theorem | What happens |
|---|---|---|
| C08 | `C08_author_lost` | of three authors, the second, followed by a semicolon and the third, is in no citation |
| C13 | `C13_counterexample` | removing the year 2010 turns 120105 into 15 |
| C17 | `C17_digit_crash` | a page with a superscript digit raises ValueError |
| C18 | `C18_line_feed_dropped` | a final line feed of a report number goes |
| C15 | `C15_tail_dropped` | volume `12A-34` becomes `A12` |
| C21 | `C21_lost` | the text after a quotation tag that is not closed is partly lost |
| C22 | `C22_crash` | a line with the text `<cds.DOI />` raises IndexError |
| C24 | `C24_swallowed` | a link right behind a URL becomes part of it |
| C26 | `C26_leftover` | `Univ. Pr.` leaves a stray `r` in the text |
| C27 | `C27_nested` | a tag inside a quoted text makes the blanked line shorter than the line |
| C28 | `C28_empty` | a title without letters or digits is recorded as an empty one in place of the title found |
| C30 | `C30_not_summed` | the counters of two lines are those of the second line |
| C32 | `C32_misplaced` | a handle behind the second of two equal DOIs is put behind the first |
| C35 | `C35_strings_violated`, `C35_few_violated` | a reference of two lines is split in spite of separating blank lines: in strings, and in files with at most three references |
| C40 | `C40_counterexample` | washing a washed line changes it again |
| C41, C42, C43, C62 | `*_counterexample` | entries of an earlier override stay among the journals after a line was tagged; an override that failed to load is silently replaced the second time; a second caller changes the dictionary the first one holds; a changed list is not read again |
| C44 | `C44_repeated` | a repeated search term keeps the last mapping and is listed twice |
| C47 | `C47_violation` | a PDF with bytes before its header and no end marker raises or is cut to at most three bytes |
| C51 | `C51_counterexample`, `C51_same_height` | a link is attached to two references |
| C54 | `C54_displaced` | a sharp s in front of a book title displaces the cut |
| C55 | `C55_crash`, `C55_line` | a book title without ASCII letters makes lines with its year fail |
| C56 | `C56_swallowed`, `C56_merged` | a numeration without a year drops the character behind it; two citations become one |
| C65 | `C65_glued` | the blank that separates a URL from the next word may go |
| C66 | `C66_violated` | a first reference in the line of the section title: all references become one |
| C67 | `C67_violated` | a closing phrase listed in the code becomes part of the last reference |
| C68 | `C68_quoted` | letters of a quoted mask are translated |
| C73 | `C73_displaced` | `A, b, DAN 12 (1990) 3` yields volume 2 |
| C74 | `C74_crash` | a special title that is a pattern raises KeyError |
| C75 | `C75_merged` | the semicolon in front of a report number goes; two citations become one |
| C76 | `C76_words` | "International Standard Book Number" is never recognised: blanks do not count in the pattern |
| C76 | `C76_thirteen` | "ISBN-13-978-0521880329" is reported as 13-978-0521880329 |
| C77 | `C77_version` | version v12: the 2 stays in the line and the category is lost |
| C77 | `C77_blank` | the blank behind an identifier without a category is lost |
| C78 | `C78_wrong` | ep-th/9901001 is reported as hep-ph/9901001 |
| C78 | `C78_nested` | physics.acc-ph loses its first half; physics.plasm-ph is tagged twice, one tag inside the other |
| C79 | `C79_word` | "V. Kampos, Astron 2001 (2001) 12" is reported as the journal PoS |
| C81 | `C81_empty` | behind empty quotation marks the text outside of the next pair is the title |
| C84 | `C84_shared` | of two spellings of one collaboration only the last is looked for |
| C85 | `C85_bare`, `C85_comma` | `CMS, Phys. Lett.` does not report the collaboration: the blank in front of the optional word is required |
| C87 | `C87_refuted_before`, `C87_refuted_behind` | `(ed.) A. Smith, ` is reported as an author, `A. Smith (Ed.), ` as the author `A. Smith (Ed.`: the pattern for this notation is compiled without the flag for blanks in patterns and never matches a line |
| C88 | `C88_refuted`, `C88_refuted_words` | an author at the end of a reference is not reported as an author, because a character is required behind the group; nor is `A. van der Waals` |
| C89 | `C89_refuted`, `C89_refuted_reported` | a semicolon behind authors is doubled: `A. Smith; B. Cox; doi` gives three references, one with the text `;`, two with `B. Cox` |
| C90 | `C90_refuted` | one name recognised only in transliteration, and the title is reported in transliteration |
| C91 | `C91_refuted` | of a reference of more than twenty-five lines the rest is dropped |
| C92 | `C92_indented`, `C92_lines` | a raw reference with white space before its marker `[1]` comes back as an empty one: an empty reference is cut off in front and only the first is kept; of a raw reference of two lines the second is dropped |
| C93 | `C93_refuted` | indentation before the first marker is a reference of its own, with an empty text |
| C94 | `C94_refuted`, `C94_refuted_page` | a fullwidth `＜cds.DOI />` after an accented author becomes a placeholder when the line is transliterated: `IndexError`; the page `²34` of a special journal: `int()` raises `ValueError`; in both cases the references of the whole text are lost |
| C95 | `C95_refuted`, `C95_refuted_title`, `C95_refuted_heading` | `[2]` within the lines of item 1 cuts it there and item 2 is glued to the rest; a line `References` in the list or in front of it is a reference |
| C96 | `C96_refuted`, `C96_refuted_cut` | `[3] Tables of integrals` as the last item is taken for the title of a following section and lost; a last item is cut before a line `stable case` (any letter is allowed in front of `table`) |
| C97 | `C97_refuted`, `C97_refuted_header` | with an empty line below the title a file gives one more reference, with empty raw text, where the string does not; a text file that quotes `%PDF-` is refused with ValueError by the cleaning of PDF files |
| C99 | `C99_refuted` | after a call with its own journals given by regular expression, one of which is called like a title, a later call without them writes the journal of the earlier call |
| C100 | `C100_refuted` | a table of contents whose entry for the references is followed by a numbered section is taken for the reference section |
| C102 | `C102_refuted`, `C102_refuted_roman`, `C102_refuted_third` | `JHEP 05 (2001) 34; 06 (2001) 35` gives volume 06 and page 35 where the repeated title gives 0106 and 035; a roman volume stays roman; the third of three articles is not reported |
| C104 | `C104_https` | `https://arxiv.org/abs/hep-th/9901001` and `http://www.arxiv.org/abs/…` stay links; only `http://arxiv.org/abs/` is taken for an e-print |
| C105 | `C105_text`, `C105_second` | the text in front of the quoted title of a known book is not reported; only the first quoted title of a line is looked up |
| C106 | `C106_words` | `the study of antigravitation, 1973` is reported as the book Gravitation and the text `the study of anti` |
| C108 | `C108_refuted` | `see the lectures of 1998 at the summer school` is reported as `see the lectures ofat the summer school` |
| C112 | `C112_refuted` | the row `ASTRONOMY AND ASTROPHYSICS              ---Astron. Astrophys.` of the documentation (`kbs.py:494`): the white space in front of the hyphens is part of the term, and the title is not recognised |
| C113 | `C113_refuted` | an empty line in a file of journals given by regular expressions raises `AttributeError` (`kbs.py:456`); a line with two hyphens in a file of authors is passed over |
| C114 | `C114_refuted` | `see http://www.cern.ch/a/b.html now` is reported with the URL `http://www.cern.ch/a/b.htmlnow`: the repair patterns (`documents/text.py:46-97`) know only `http` and `ftp` and take blanks out of the text behind the URL |
| C115 | `C115_refuted` | `doi:10.1000/xyz; doi:10.2000/uvw` is reported with the DOI `10.1000/xyz;`: the pattern for DOIs (`references/regexs.py:822`) allows a semicolon as the last character and excludes only the full stop |
| C116 | `C116_refuted` | a page without text: in `\f\fText` the run of white space takes the first form feed, so that only one page break is left of two (`documents/pdf.py:65`) |
| C118 | `C118_refuted` | `find.py:456-477`: the section ends with the first line of the numbers of a figure, which becomes part of the last reference; with blank lines between the lines of numbers it does not end at all, since `digit_lines` is raised by every blank line and `num_digit_lines` has to be equal to it in the end. |
| C124 | `C124_refuted`, `C124_mark_shown` | `tag.py:344-351` tags a quoted title after DOIs were replaced by marks, and `engine.py:1288-1293` takes the whole title, marks included, without using up their DOIs: the next mark outside takes the DOI of the title, the last DOI of the line is lost, and the title shows `<cds.DOI />`. |
| C125 | `C125_refuted` | the same as C124 for a URL in a quoted title: the URL behind the title is lost, the one in the title is reported in its place, and the title shows `<cds.URL />`. |

Also seen while reading, without a theorem: `extra_ibids` is collected but never
read (`engine.py:1026,1052`); a marker of more than 4300 digits leads to
`UnboundLocalError` in `rebuild_reference_lines`.

## Trusted base

* Lean 4.33.0 kernel. Axioms: `propext`, `Classical.choice`, `Quot.sound` at
  most; the list per theorem is at the end of this file.
* The faithfulness of the hand translation in `Verif/Model`, stated definition by
  definition.
* `tools/gen_regex.py` and CPython's `re._parser`, which produced `Verif/Gen`.

Checks made on the trusted parts, outside the proofs:

* `tools/difftest/difftest.py` compares the regular expression engine on the 181
  generated patterns with CPython's `re` on ASCII texts (matches and groups);
  65160 pairs of pattern and text (seeds 7, 8, 9) showed no difference;
* `tools/validate/validate.py` runs the model on the lines of the project's own
  unit tests and compares the results: 27 tests, no difference;
* that `str.upper` is idempotent was checked for all code points;
* `seeded/LOG.jsonl` records deliberate errors put into copies of the model and
  the theorems that failed.

## Not modelled

* The numeric values of Unicode properties outside ASCII (abstract table).
* `pdftotext`, libmagic, requests, pypdf, `unidecode`, `inspire_utils`.
* Logging.
* `remove_invalid_references`, `merge_invalid_references`, `merge_misc` (never called).

## Axioms per theorem

<!-- axioms: generated by tools/axioms.py -->
* none: `C42_counterexample`, `C43_counterexample`, `count_unique`.
* propext: `C11_linker`, `C16_other`, `C18_other`, `C32_unique`, `C38`, `C38_unique`, `C41_counterexample`, `C48_removed`, `C48_success`, `C50_total`, `C52_entries`, `C52_isolated`, `C62_counterexample`, `C80_unique`, `C81_unique`, `C85_bare`.
* propext, Quot.sound: `C06_no_repeats`, `C07_conservation`, `C10_authors`, `C10_authors_total`, `C100_refuted`, `C102_refuted`, `C102_refuted_roman`, `C102_refuted_third`, `C104_https`, `C105_text`, `C105_second`, `C106_words`, `C108_refuted`, `C11_recid`, `C11_all`, `C112_lines`, `C112_unique`, `C112_refuted`, `C113_special`, `C113_refuted`, `C114_refuted`, `C115_refuted`, `C118_refuted`, `C124_refuted`, `C124_mark_shown`, `C125_refuted`, `C13_counterexample`, `C15_tail_dropped`, `C16_series`, `C17_other`, `C18_line_feed_dropped`, `C21_lost`, `C22_crash`, `C24_swallowed`, `C26_literal`, `C26_leftover`, `C27_nested`, `C28_empty`, `C30_partial`, `C30_not_summed`, `C32_text`, `C32_misplaced`, `C33`, `C33_blank_piece`, `C35_strings_violated`, `C35_few_violated`, `C38_list`, `C40_counterexample`, `C44_repeated`, `C46_not_pdf`, `C46_cut`, `C46_idempotent`, `C47_partial`, `C47_violation`, `C47_counterexample`, `C48_error`, `C49_otherwise`, `C49_layout`, `C51_counterexample`, `C51_same_height`, `C53_first`, `C54_found`, `C54_position`, `C55_cut_fails`, `C55_found`, `C55_crash`, `C55_partial`, `C55_line`, `C56_merged`, `C58_books`, `C60_other`, `C61_year_first_violated`, `C63_all_or_nothing`, `C65_glued`, `C66_violated`, `C67_violated`, `C68_quoted`, `C69`, `C73_displaced`, `C74_titles`, `C74_crash`, `C75_partial`, `C75_merged`, `C76_unique`, `C76_words`, `C76_thirteen`, `C77_version`, `C77_blank`, `C77_month`, `C78_wrong`, `C78_nested`, `C79_word`, `C81_empty`, `C83_unique`, `C84_publishers`, `C84_books`, `C84_shared`, `C85_comma`, `C86_unique`, `C87_refuted_before`, `C87_refuted_behind`, `C88_refuted`, `C88_refuted_words`, `C89_refuted`, `C89_refuted_reported`, `C90_refuted`, `C91_refuted`, `C92_indented`, `C92_lines`, `C93_refuted`, `C94_refuted`, `C95_refuted`, `C95_refuted_title`, `C95_refuted_heading`, `C96_refuted`, `C96_refuted_cut`, `C98`, `C99_partial`, `C99_refuted`.
* propext, Classical.choice, Quot.sound: `C01_raw_lines`, `C02_record_shape`, `C03_linemarker`, `C04_misc`, `C05_values`, `C07_line`, `C07_articles`, `C08_author_lost`, `C08_authors_kept_partial`, `C09_nonempty`, `C10_dois`, `C10_collaborations`, `C10_line`, `C10_references`, `C100_heading`, `C100_list`, `C100_extract`, `C100_partial`, `C101_line`, `C101_reported`, `C102_partial`, `C103`, `C104_partial`, `C104_reported`, `C105_partial`, `C105_reported`, `C106_partial`, `C107`, `C108_partial`, `C109`, `C110`, `C111`, `C112_partial`, `C112_written`, `C113_partial`, `C113_authors`, `C114_partial`, `C114_kept`, `C115_partial`, `C116_complete`, `C116_refused`, `C116_lines`, `C116_pages_partial`, `C116_refuted`, `C117_partial`, `C117_other`, `C118_partial`, `C118_end`, `C119`, `C12_year`, `C120`, `C121`, `C121_file`, `C121_pdf`, `C121_options`, `C122`, `C122_string`, `C123`, `C123_string`, `C124_partial`, `C125_partial`, `C13_partial`, `C14_roman`, `C14_other`, `C15_letter_first`, `C15_idempotent`, `C15_other`, `C17_digit_crash`, `C17_special_partial`, `C18_only_separator`, `C18_exact`, `C18_idempotent`, `C19`, `C20_ends`, `C20_text`, `C21_partial`, `C22_partial`, `C23_dois`, `C23_restores`, `C23_longest`, `C24_partial`, `C25_compress`, `C25_positions`, `C26_partial`, `C27_partial`, `C28_partial`, `C29_reports`, `C29_ibids`, `C30_line`, `C31`, `C31_stop`, `C31_blank`, `C32_one`, `C32_kept`, `C32_partial`, `C33_text`, `C33_hyphens`, `C33_total`, `C34`, `C35_partial`, `C36`, `C36_start`, `C36_extract`, `C37`, `C37_sublist`, `C37_few`, `C39`, `C39_length`, `C39_blanks`, `C39_hyphens`, `C39_kept`, `C40_partial`, `C40_colons`, `C41_partial`, `C42_partial`, `C43_partial`, `C44_terms`, `C44_partial`, `C45_tokens`, `C45_append`, `C45_cut`, `C45_order`, `C47_early_marker`, `C48_returns`, `C49_attached`, `C50_reading_order`, `C50_or_empty`, `C51_partial`, `C54_partial`, `C54_displaced`, `C56_all_or_nothing`, `C56_partial`, `C56_swallowed`, `C57_numeration`, `C57_more`, `C57_tag`, `C58_errors`, `C58_record`, `C59_journals`, `C60_letter_removed`, `C61_recognised`, `C61_values`, `C62_partial`, `C64`, `C65`, `C65_sublist`, `C66_partial`, `C67_partial`, `C68_partial`, `C70_same_marker`, `C71_series`, `C72_place`, `C73_partial`, `C74_partial`, `C76_partial`, `C77_partial`, `C77_unique`, `C78_partial`, `C78_unique`, `C79_partial`, `C80`, `C81`, `C81_kept`, `C82`, `C83`, `C83_line`, `C84_partial`, `C85_partial`, `C86`, `C86_plain`, `C87_partial`, `C88_partial`, `C88_gap_partial`, `C88_end`, `C89_partial`, `C90_partial`, `C91_partial`, `C91_lines`, `C92_partial`, `C93_partial`, `C94_partial`, `C94_lines_partial`, `C94_refuted_page`, `C95_lines_partial`, `C95_partial`, `C96_lines_partial`, `C96_partial`, `C97_partial`, `C97_url_partial`, `C97_refuted`, `C97_refuted_header`, `C98_again`.
