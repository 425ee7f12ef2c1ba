{
 "claims": [
  {
   "property": "C01",
   "status": "proved",
   "theorems": [
    "Props.C01_raw_lines"
   ],
   "note": "For every list of lines, knowledge base, format and linker for which parsing returns."
  },
  {
   "property": "C02",
   "status": "proved",
   "theorems": [
    "Props.C02_record_shape"
   ],
   "note": ""
  },
  {
   "property": "C03",
   "status": "proved",
   "theorems": [
    "Props.C03_linemarker"
   ],
   "note": ""
  },
  {
   "property": "C04",
   "status": "proved",
   "theorems": [
    "Props.C04_misc"
   ],
   "note": ""
  },
  {
   "property": "C05",
   "status": "proved",
   "theorems": [
    "Props.C05_values"
   ],
   "note": ""
  },
  {
   "property": "C06",
   "status": "proved",
   "theorems": [
    "Props.C06_no_repeats"
   ],
   "note": "for lines in which only report numbers are flagged as arXiv, which is what the parser produces"
  },
  {
   "property": "C07",
   "status": "proved",
   "theorems": [
    "Props.C07_conservation",
    "Props.C07_line",
    "Props.C07_articles"
   ],
   "note": "C07_line and C07_articles carry it through all later steps for report numbers, URLs, handles, quoted titles, ISBNs, publishers and articles."
  },
  {
   "property": "C08",
   "status": "partial",
   "theorems": [
    "Props.C08_author_lost",
    "Props.C08_authors_kept_partial"
   ],
   "note": "The full statement is false: C08_author_lost proves the negation with a concrete line. Proved: no author is lost if there is no semicolon in any text or there are at most two authors."
  },
  {
   "property": "C09",
   "status": "proved",
   "theorems": [
    "Props.C09_nonempty"
   ],
   "note": ""
  },
  {
   "property": "C10",
   "status": "proved",
   "theorems": [
    "Props.C10_authors",
    "Props.C10_authors_total",
    "Props.C10_dois",
    "Props.C10_collaborations",
    "Props.C10_line",
    "Props.C10_references"
   ],
   "note": "Per citation: what each pass keeps; for a whole line: the counts. When equal collaborations repeat, Python's list.remove deletes the first equal one, so the surviving one may stand later in the citation."
  },
  {
   "property": "C100",
   "status": "partial",
   "theorems": [
    "Props.C100_heading",
    "Props.C100_list",
    "Props.C100_extract",
    "Props.C100_partial",
    "Props.C100_refuted"
   ],
   "note": "The code violates the property: of several headings with marks the first is taken, so a table of contents in which a numbered section follows the entry for the references swallows the document (C100_refuted). C100_heading says exactly which heading is taken, for every document; C100_partial: if only one heading has a mark it is taken. The part on documents without heading is proved in full (C100_list). C100_extract ties both to what is extracted, for lines of at most 4300 characters."
  },
  {
   "property": "C101",
   "status": "proved",
   "theorems": [
    "Props.C101_line",
    "Props.C101_reported"
   ],
   "note": "Stated for the elements of a line after the transformations and the citations into which they are split (C07, C09); Completed in Spec/Implied.lean says what is added, and C101_reported what of it is in the reference."
  },
  {
   "property": "C102",
   "status": "partial",
   "theorems": [
    "Props.C102_partial",
    "Props.C102_refuted",
    "Props.C102_refuted_roman",
    "Props.C102_refuted_third"
   ],
   "note": "The code violates the property: for special journals the volume and page are not formatted (C102_refuted), a roman volume is not converted (C102_refuted_roman), and a third article in a row is not reported (C102_refuted_third). C102_partial: for other journals and plain volumes the article is what the transformations would have made of it."
  },
  {
   "property": "C103",
   "status": "proved",
   "theorems": [
    "Props.C103"
   ],
   "note": "End to end, for parse_references with the default format and no linker. Plain text: ASCII letters, digits and punctuation, tidily spaced, without the words that announce identifiers; the texts in front and behind have no capital letters. The title may be any title whose journal has no special treatment; shorter titles inside of it are allowed."
  },
  {
   "property": "C104",
   "status": "partial",
   "theorems": [
    "Props.C104_partial",
    "Props.C104_reported",
    "Props.C104_https"
   ],
   "note": "Every item that is not an article, for whole lines, and the values reported for numbers and links. Refuted: links to abstracts that begin with https or www stay links (C104_https). Authors, DOIs and collaborations of the citations are the subject of C07, C09 and C10."
  },
  {
   "property": "C105",
   "status": "partial",
   "theorems": [
    "Props.C105_partial",
    "Props.C105_reported",
    "Props.C105_text",
    "Props.C105_second"
   ],
   "note": "The first title of a line, and that no title is lost. Refuted: the text in front of a known book is dropped (C105_text); later titles are not looked up (C105_second)."
  },
  {
   "property": "C106",
   "status": "partial",
   "theorems": [
    "Props.C106_partial",
    "Props.C106_words"
   ],
   "note": "Each citation, knowledge bases as build_books_kb makes them. Refuted: titles inside longer words are taken for books (C106_words)."
  },
  {
   "property": "C107",
   "status": "proved",
   "theorems": [
    "Props.C107"
   ],
   "note": "Lines are numbered [n], tidily spaced and in ASCII (Calm); texts of small letters, digits, blanks and the punctuation . , : ( ) -. The hypotheses on knowledge bases say that none of their entries occurs in the text as the code compares it."
  },
  {
   "property": "C108",
   "status": "partial",
   "theorems": [
    "Props.C108_partial",
    "Props.C108_refuted"
   ],
   "note": "False as stated: the white space around the year is taken out with it, and the words on both sides are reported as one (C108_refuted). Proved: apart from white space only the year and brackets around it go."
  },
  {
   "property": "C109",
   "status": "proved",
   "theorems": [
    "Props.C109"
   ],
   "note": "Lines are numbered [n], tidily spaced and in ASCII (Calm); texts around the number of small letters, digits and quiet punctuation; the number itself of any calm characters. The hypothesis KnownReport says what the patterns of the categories find: one finds exactly the number, those at least as long find nothing, those not longer find nothing beside it."
  },
  {
   "property": "C11",
   "status": "proved",
   "theorems": [
    "Props.C11_recid",
    "Props.C11_linker",
    "Props.C11_all"
   ],
   "note": "All citations and all stateless callbacks."
  },
  {
   "property": "C110",
   "status": "proved",
   "theorems": [
    "Props.C110"
   ],
   "note": "One DOI in a line of plain text of which nothing else is known; for all such lines, knowledge bases and formats."
  },
  {
   "property": "C111",
   "status": "proved",
   "theorems": [
    "Props.C111"
   ],
   "note": "for lines of plain text; the words that announce book numbers, PoS and conference notes must not occur"
  },
  {
   "property": "C112",
   "status": "partial",
   "theorems": [
    "Props.C112_partial",
    "Props.C112_lines",
    "Props.C112_unique",
    "Props.C112_written",
    "Props.C112_refuted"
   ],
   "note": "Exactly what is read from every file is proved. False as stated: white space in front of the hyphens belongs to the search term, so the example in the documentation of build_journals_kb is never found (C112_refuted)."
  },
  {
   "property": "C113",
   "status": "partial",
   "theorems": [
    "Props.C113_partial",
    "Props.C113_authors",
    "Props.C113_special",
    "Props.C113_refuted"
   ],
   "note": "Exactly what is read from every file is proved for each kind. False as stated: journals given by regular expressions raise AttributeError, authors pass the line over (C113_refuted)."
  },
  {
   "property": "C114",
   "status": "partial",
   "theorems": [
    "Props.C114_partial",
    "Props.C114_kept",
    "Props.C114_refuted"
   ],
   "note": "Proved for https URLs without a port, through the whole pipeline. False for http and ftp URLs: the repair of broken URLs takes the next word into the URL (C114_refuted)."
  },
  {
   "property": "C115",
   "status": "partial",
   "theorems": [
    "Props.C115_partial",
    "Props.C115_refuted"
   ],
   "note": "Proved for any number of DOIs between plain texts without years. The code violates the property for DOIs separated by semicolons: C115_refuted shows that the semicolon is taken into the DOI."
  },
  {
   "property": "C116",
   "status": "partial",
   "theorems": [
    "Props.C116_complete",
    "Props.C116_refused",
    "Props.C116_lines",
    "Props.C116_pages_partial",
    "Props.C116_refuted"
   ],
   "note": "Completeness, refusal and the fate of every line are proved for all outputs; one page break line for every page is proved for pages with text in their first lines. It fails for pages without text: the break of an empty page is lost (C116_refuted)."
  },
  {
   "property": "C117",
   "status": "partial",
   "theorems": [
    "Props.C117_partial",
    "Props.C117_other"
   ],
   "note": "Proved for PDF files of two pages or more, longer than their headers and footers, with text in the first line of every page but the first, whose text is a document with a list numbered in square brackets. Missing: other documents, PDF files of one page. Files of other types are covered without a PDF header in them."
  },
  {
   "property": "C118",
   "status": "partial",
   "theorems": [
    "Props.C118_partial",
    "Props.C118_end",
    "Props.C118_refuted"
   ],
   "note": "Proved: the section never goes past the first of four consecutive lines of numbers (digits, more than ten, blanks, points, signs; exact description), and it ends exactly at the end of the document, before a heading, or with the first of four such lines; without heading and numbers it is read to its end. Refuted by witnesses: the first line of the numbers is itself taken into the last reference, and with a blank line between the lines the whole figure is, although the code means to skip blank lines."
  },
  {
   "property": "C119",
   "status": "proved",
   "theorems": [
    "Props.C119"
   ],
   "note": "Article in a known journal followed by a DOI: exactly one record with exactly the listed values. Plain lines: calm characters, quiet texts, year not repeated in the texts, one slash in the DOI, no linker, default format of the one-line form."
  },
  {
   "property": "C12",
   "status": "proved",
   "theorems": [
    "Props.C12_year"
   ],
   "note": "Assumes that journal elements have a year entry, as the parser makes them; without it the code raises KeyError."
  },
  {
   "property": "C120",
   "status": "proved",
   "theorems": [
    "Props.C120"
   ],
   "note": "Proved for all lines of this form and all knowledge bases, from the line to the record. Hypotheses: the texts are of plain characters without other identifiers (ArticleArxivLine), the title is known (KnownJournal) and nothing else of the knowledge bases is in the line (NothingFurther, NoCollaborations); unidecode keeps ASCII texts; the year alternatives of the compiled patterns are two-digit years, as in C111."
  },
  {
   "property": "C121",
   "status": "proved",
   "theorems": [
    "Props.C121",
    "Props.C121_file",
    "Props.C121_pdf",
    "Props.C121_options"
   ],
   "note": "End to end: a document whose bracket-numbered list (PlainDocument of C96) consists of references of the kinds of C103, C107, C109, C110, C111, C114, C115, C119 and C120 gives exactly their records, in order. Text files (with the conditions of C97) and PDF files (those of C117, when the TeX keys of the file do not fit in number) give the same. Journal format of extract_references_from_string; the word key is not a title. C121_options: the same with any steady linker (C122) and any format without the last page (C123): all values but the journal reference and the record id are those of the references."
  },
  {
   "property": "C122",
   "status": "proved",
   "theorems": [
    "Props.C122",
    "Props.C122_string"
   ],
   "note": "Relates the run with the callback to the run without it, step by step: the transformations, splitting, implied journals, years, books, linking, removal of duplicates and the building of records. The callback is modelled as a function from elements to an answer or an error; a callback with memory or one that changes the element is not covered."
  },
  {
   "property": "C123",
   "status": "proved",
   "theorems": [
    "Props.C123",
    "Props.C123_string"
   ],
   "note": "Formats are lists of literal text and the entries type, misc_txt, title, volume, year, page and page_end. A format that asks for page_end can fail, shown by an example beside the theorem; the statement leaves it out."
  },
  {
   "property": "C124",
   "status": "partial",
   "theorems": [
    "Props.C124_partial",
    "Props.C124_refuted",
    "Props.C124_mark_shown"
   ],
   "note": "Proved for all lines, knowledge bases, formats and linkers: a DOI a reference reports is cited by the line the reference comes from. Missing: that every cited DOI is reported and that no mark shows; both are false: with a DOI in a quoted title, the reference's own DOI is lost, the one in the title is reported in its place, and the title shows <cds.DOI /> (C124_refuted, C124_mark_shown)."
  },
  {
   "property": "C125",
   "status": "partial",
   "theorems": [
    "Props.C125_partial",
    "Props.C125_refuted"
   ],
   "note": "Proved for all knowledge bases, formats and linkers and all lines in which no link directly follows a character that a URL may contain (the condition of C24_partial; it holds for lines without quotation marks): a URL or description a reference reports is cited by the line the reference comes from, with its DOIs replaced by marks. Missing: that every cited URL is reported, which is false: with a URL in a quoted title, the URL behind the title is lost and the one in the title is reported in its place (C125_refuted)."
  },
  {
   "property": "C13",
   "status": "partial",
   "theorems": [
    "Props.C13_counterexample",
    "Props.C13_partial"
   ],
   "note": "False as stated: removing 2010 from 120105 leaves 15, and '12 2010 34' becomes 1234. Proved for texts without brackets in which no digit comes next to the year."
  },
  {
   "property": "C14",
   "status": "proved",
   "theorems": [
    "Props.C14_roman",
    "Props.C14_other"
   ],
   "note": "Every numeral X*unit in any case (canonical for 1..39, proved for all n>=1); volumes not made of I,V,X letters and other elements unchanged."
  },
  {
   "property": "C15",
   "status": "proved",
   "theorems": [
    "Props.C15_letter_first",
    "Props.C15_idempotent",
    "Props.C15_other",
    "Props.C15_tail_dropped"
   ],
   "note": "Also shows that text after the letter is dropped (12A-34 becomes A12), which the property does not forbid."
  },
  {
   "property": "C16",
   "status": "proved",
   "theorems": [
    "Props.C16_series",
    "Props.C16_other"
   ],
   "note": "Every title and volume."
  },
  {
   "property": "C17",
   "status": "partial",
   "theorems": [
    "Props.C17_digit_crash",
    "Props.C17_special_partial",
    "Props.C17_other"
   ],
   "note": "False as stated: a page with a digit that is not decimal raises ValueError (C17_digit_crash). Proved for pages of at most 4300 decimal digits of any script and for non-numeric pages."
  },
  {
   "property": "C18",
   "status": "proved",
   "theorems": [
    "Props.C18_only_separator",
    "Props.C18_exact",
    "Props.C18_other",
    "Props.C18_idempotent",
    "Props.C18_line_feed_dropped"
   ],
   "note": "Idempotence for every string; exact form for every string without a final line feed, which the pattern drops (C18_line_feed_dropped)."
  },
  {
   "property": "C19",
   "status": "proved",
   "theorems": [
    "Props.C19"
   ],
   "note": "Any sequence of texts without tag openings and closed tags of the ten kinds; the counters too."
  },
  {
   "property": "C20",
   "status": "proved",
   "theorems": [
    "Props.C20_ends",
    "Props.C20_text"
   ],
   "note": "For every string: the number of steps is at most the length, no tag is left, and all texts are a subsequence of the line in order."
  },
  {
   "property": "C21",
   "status": "partial",
   "theorems": [
    "Props.C21_lost",
    "Props.C21_partial"
   ],
   "note": "Violated for quoted texts, ISBNs, publishers and collaborations (witness C21_lost). Proved for all other kinds."
  },
  {
   "property": "C22",
   "status": "partial",
   "theorems": [
    "Props.C22_crash",
    "Props.C22_partial"
   ],
   "note": "Violated by a line with the text <cds.DOI /> (witness C22_crash). Proved when there are as many DOIs and URLs as placeholders."
  },
  {
   "property": "C23",
   "status": "proved",
   "theorems": [
    "Props.C23_dois",
    "Props.C23_restores",
    "Props.C23_longest"
   ],
   "note": "For every line. Percent-decoding comes from the standard library; the theorem assumes only that it decodes an encoded slash (Spec.Decodes)."
  },
  {
   "property": "C24",
   "status": "partial",
   "theorems": [
    "Props.C24_partial",
    "Props.C24_swallowed"
   ],
   "note": "Proved for lines in which no link directly follows a character that a URL may contain; refuted without it (C24_swallowed)."
  },
  {
   "property": "C25",
   "status": "proved",
   "theorems": [
    "Props.C25_compress",
    "Props.C25_positions"
   ],
   "note": "For every line, position and length. The unused positions of publishers are treated under C26."
  },
  {
   "property": "C26",
   "status": "partial",
   "theorems": [
    "Props.C26_partial",
    "Props.C26_literal",
    "Props.C26_leftover"
   ],
   "note": "Exact when no blanks were squeezed inside the publisher's text; refuted otherwise by C26_leftover. Lines without nested tags and with even upper case."
  },
  {
   "property": "C27",
   "status": "partial",
   "theorems": [
    "Props.C27_partial",
    "Props.C27_nested"
   ],
   "note": "Proved for lines in which no tag stands inside another one; refuted for nested tags (C27_nested)."
  },
  {
   "property": "C28",
   "status": "partial",
   "theorems": [
    "Props.C28_partial",
    "Props.C28_empty"
   ],
   "note": "Proved for knowledge bases whose titles are non-empty and have no underscore; refuted for an empty title (C28_empty)."
  },
  {
   "property": "C29",
   "status": "proved",
   "theorems": [
    "Props.C29_reports",
    "Props.C29_ibids"
   ],
   "note": "Every recorded report number and every ibid is the text of a match in the line it is recorded for. Hypothesis: the report number patterns do not match the empty text."
  },
  {
   "property": "C30",
   "status": "partial",
   "theorems": [
    "Props.C30_partial",
    "Props.C30_line",
    "Props.C30_not_summed"
   ],
   "note": "Violated: sum_2_dictionaries tests for the literal string 'key', so the counters of the last line replace those before. Proved: the counters of a line are the numbers of elements read off it, and the counters returned are those of the last line (zeros without lines). C30_not_summed is the counterexample."
  },
  {
   "property": "C31",
   "status": "proved",
   "theorems": [
    "Props.C31",
    "Props.C31_stop",
    "Props.C31_blank"
   ],
   "note": "For every line. C31_stop and C31_blank say which form wins where several apply."
  },
  {
   "property": "C32",
   "status": "partial",
   "theorems": [
    "Props.C32_one",
    "Props.C32_unique",
    "Props.C32_text",
    "Props.C32_kept",
    "Props.C32_partial",
    "Props.C32_misplaced"
   ],
   "note": "Proved for every citation up to the order of elements (C32_kept, C32_text), and with the order when no element with a handle is like an earlier one apart from its text (C32_partial). C32_misplaced: otherwise the handle is put behind the earlier element, because the position is found by equality."
  },
  {
   "property": "C33",
   "status": "proved",
   "theorems": [
    "Props.C33",
    "Props.C33_text",
    "Props.C33_hyphens",
    "Props.C33_total",
    "Props.C33_blank_piece"
   ],
   "note": "For every list of lines and marker: lines are cut into at most two pieces, pieces are dealt out in order, each reference is the join of its first 25 pieces; every non-blank character kept but final hyphens of pieces. Totality for lines of at most 4300 characters (limit of int)."
  },
  {
   "property": "C34",
   "status": "proved",
   "theorems": [
    "Props.C34"
   ],
   "note": "For every numbered pattern of the code (any title as prefix) and every list of lines."
  },
  {
   "property": "C35",
   "status": "partial",
   "theorems": [
    "Props.C35_partial",
    "Props.C35_strings_violated",
    "Props.C35_few_violated"
   ],
   "note": "Violated for strings (blank lines are empty strings, isspace is false on them) and for at most three references; positive theorem for lines with line ends, more than three references."
  },
  {
   "property": "C36",
   "status": "proved",
   "theorems": [
    "Props.C36",
    "Props.C36_start",
    "Props.C36_extract"
   ],
   "note": "Finder total for every document; boundaries valid; section lines are the lines between them without repeated titles; end to end for lines of at most 4300 characters."
  },
  {
   "property": "C37",
   "status": "proved",
   "theorems": [
    "Props.C37",
    "Props.C37_sublist",
    "Props.C37_few"
   ],
   "note": "Pages are defined by page-break lines (white space with a form feed); if anything is removed then all page breaks and the same numbers of top and bottom lines of every inner page are."
  },
  {
   "property": "C38",
   "status": "proved",
   "theorems": [
    "Props.C38",
    "Props.C38_unique",
    "Props.C38_list"
   ],
   "note": "Lists of lines that are not empty; lists with empty lines are covered with the rebuilding of references (C33)."
  },
  {
   "property": "C39",
   "status": "proved",
   "theorems": [
    "Props.C39",
    "Props.C39_length",
    "Props.C39_blanks",
    "Props.C39_hyphens",
    "Props.C39_kept"
   ],
   "note": "C39_kept for lines without a backslash; C39 lists the possible edits for all lines."
  },
  {
   "property": "C40",
   "status": "partial",
   "theorems": [
    "Props.C40_partial",
    "Props.C40_counterexample",
    "Props.C40_colons"
   ],
   "note": "False in general; true for lines without adjacent white space and without colons."
  },
  {
   "property": "C41",
   "status": "partial",
   "theorems": [
    "Props.C41_partial",
    "Props.C41_counterexample"
   ],
   "note": "Violated once lines are tagged: tagging writes the journal patterns into the cached journal titles (C41_counterexample). Proved for histories of successful requests (C41_partial)."
  },
  {
   "property": "C42",
   "status": "partial",
   "theorems": [
    "Props.C42_partial",
    "Props.C42_counterexample"
   ],
   "note": "Violated: the input is recorded before the load (C42_counterexample)."
  },
  {
   "property": "C43",
   "status": "partial",
   "theorems": [
    "Props.C43_partial",
    "Props.C43_counterexample"
   ],
   "note": "Violated: all callers share the cached dictionary (C43_counterexample)."
  },
  {
   "property": "C44",
   "status": "partial",
   "theorems": [
    "Props.C44_terms",
    "Props.C44_partial",
    "Props.C44_repeated"
   ],
   "note": "Everything but distinctness and 'the first mapping wins' is proved for every list of pairs; those two are proved for pairs with distinct search terms and refuted in general (the last mapping wins and the term is listed twice)."
  },
  {
   "property": "C45",
   "status": "proved",
   "theorems": [
    "Props.C45_tokens",
    "Props.C45_append",
    "Props.C45_cut",
    "Props.C45_order"
   ],
   "note": "For masks without quotes and closing square brackets (the remaining multi-character tokens) the sequential replacements equal simultaneous ones and distribute over concatenation except inside 'w+', 'mm', 'yy'; masks are ordered by width, stably."
  },
  {
   "property": "C46",
   "status": "proved",
   "theorems": [
    "Props.C46_not_pdf",
    "Props.C46_cut",
    "Props.C46_idempotent"
   ],
   "note": "All byte strings. An empty file cannot be mapped: ValueError, file unchanged."
  },
  {
   "property": "C47",
   "status": "partial",
   "theorems": [
    "Props.C47_partial",
    "Props.C47_violation",
    "Props.C47_early_marker",
    "Props.C47_counterexample"
   ],
   "note": "The code violates the property: C47_violation and C47_counterexample show ValueError or a destroyed file; C47_partial covers files that start with the header."
  },
  {
   "property": "C48",
   "status": "proved",
   "theorems": [
    "Props.C48_removed",
    "Props.C48_success",
    "Props.C48_error",
    "Props.C48_returns"
   ],
   "note": "The steps of the download are parameters, so every outcome is covered."
  },
  {
   "property": "C49",
   "status": "proved",
   "theorems": [
    "Props.C49_attached",
    "Props.C49_otherwise",
    "Props.C49_layout"
   ],
   "note": "dedupe_list of inspire_utils is modelled from its documentation."
  },
  {
   "property": "C50",
   "status": "proved",
   "theorems": [
    "Props.C50_reading_order",
    "Props.C50_or_empty",
    "Props.C50_total"
   ],
   "note": "What pypdf answers is a parameter. A destination name that is not valid UTF-8 raises (C50_total)."
  },
  {
   "property": "C51",
   "status": "partial",
   "theorems": [
    "Props.C51_partial",
    "Props.C51_counterexample",
    "Props.C51_same_height"
   ],
   "note": "Violated for bibliographies over several pages and for links at the height of a reference; C51_partial covers one page and one column."
  },
  {
   "property": "C52",
   "status": "proved",
   "theorems": [
    "Props.C52_entries",
    "Props.C52_isolated"
   ],
   "note": "Extraction of one line is a parameter with a state (the knowledge-base cache)."
  },
  {
   "property": "C53",
   "status": "proved",
   "theorems": [
    "Props.C53_first"
   ],
   "note": "On the citations of the line."
  },
  {
   "property": "C54",
   "status": "partial",
   "theorems": [
    "Props.C54_found",
    "Props.C54_position",
    "Props.C54_partial",
    "Props.C54_displaced"
   ],
   "note": "Finding is proved in full. Cutting is proved for texts whose characters each have an upper case of one character; C54_displaced shows that for others (e.g. a sharp s before the title) the cut is displaced."
  },
  {
   "property": "C55",
   "status": "partial",
   "theorems": [
    "Props.C55_cut_fails",
    "Props.C55_found",
    "Props.C55_crash",
    "Props.C55_partial",
    "Props.C55_line"
   ],
   "note": "The code violates the property: such a title is found in every text, and cutting it out raises IndexError or TypeError once the years agree, so a whole line cannot be parsed (C55_line). C55_partial: it is harmless when the years differ."
  },
  {
   "property": "C56",
   "status": "partial",
   "theorems": [
    "Props.C56_all_or_nothing",
    "Props.C56_partial",
    "Props.C56_swallowed",
    "Props.C56_merged"
   ],
   "note": "Nothing is lost without numeration, and a numeration found right behind the title is consumed exactly. Missing: a numeration without year found by the second search always drops the character behind it, refuted by C56_swallowed (general) and C56_merged (two citations become one)."
  },
  {
   "property": "C57",
   "status": "proved",
   "theorems": [
    "Props.C57_numeration",
    "Props.C57_more",
    "Props.C57_tag"
   ],
   "note": "All texts; the parts found are parts of the text and have the stated form."
  },
  {
   "property": "C58",
   "status": "proved",
   "theorems": [
    "Props.C58_errors",
    "Props.C58_record",
    "Props.C58_books"
   ],
   "note": "Post-processing of whatever the parser yields never raises KeyError; the remaining errors are listed with the conditions for them. BooksOk holds for tables read from a file when upper-casing is idempotent (checked for all code points of Python's tables). Making the reference never fails with any format that does not ask for the last page."
  },
  {
   "property": "C59",
   "status": "proved",
   "theorems": [
    "Props.C59_journals"
   ],
   "note": "Stated on the returned references: title, volume, year and page are texts, so the word None never stands for a missing value."
  },
  {
   "property": "C60",
   "status": "proved",
   "theorems": [
    "Props.C60_letter_removed",
    "Props.C60_other"
   ],
   "note": "All elements with a title."
  },
  {
   "property": "C61",
   "status": "proved",
   "theorems": [
    "Props.C61_recognised",
    "Props.C61_values",
    "Props.C61_year_first_violated"
   ],
   "note": "Recognition for three written forms behind any spaces and before any text; exact values for ten written forms behind nothing, a blank or a comma and a blank, before punctuation or the end. Outside the statement: with the year in front the values may be taken otherwise (1998 12 1999), which is shown by a witness."
  },
  {
   "property": "C62",
   "status": "partial",
   "theorems": [
    "Props.C62_partial",
    "Props.C62_counterexample"
   ],
   "note": "Violated for a changed list object (C62_counterexample). Proved for knowledge bases always given as files, whatever happens to other objects (C62_partial)."
  },
  {
   "property": "C63",
   "status": "proved",
   "theorems": [
    "Props.C63_all_or_nothing"
   ],
   "note": "Extraction of one note is a parameter."
  },
  {
   "property": "C64",
   "status": "proved",
   "theorems": [
    "Props.C64",
    "Props.count_unique"
   ],
   "note": "The numbers of header and footer lines are fixed by a specification of repeated lines; the output follows."
  },
  {
   "property": "C65",
   "status": "proved",
   "theorems": [
    "Props.C65",
    "Props.C65_sublist",
    "Props.C65_glued"
   ],
   "note": "C65_glued shows that the blank after a URL may go as well."
  },
  {
   "property": "C66",
   "status": "partial",
   "theorems": [
    "Props.C66_partial",
    "Props.C66_violated"
   ],
   "note": "Violated when the first reference follows the title in its line: the pattern kept contains the title, so no other line matches. Positive theorem for a title with its own line."
  },
  {
   "property": "C67",
   "status": "partial",
   "theorems": [
    "Props.C67_partial",
    "Props.C67_violated"
   ],
   "note": "Closing phrases are matched but the result is not used. Positive theorem for headings, digit lines, end of document."
  },
  {
   "property": "C68",
   "status": "partial",
   "theorems": [
    "Props.C68_quoted",
    "Props.C68_partial"
   ],
   "note": "Violated: the letters of a quoted text are translated as tokens before the quotes are removed; C68_quoted gives two masks. C68_partial: quoted texts without token characters are kept, the rest is translated as if it stood alone."
  },
  {
   "property": "C69",
   "status": "proved",
   "theorems": [
    "Props.C69"
   ],
   "note": "compile (re.compile) is a parameter."
  },
  {
   "property": "C70",
   "status": "proved",
   "theorems": [
    "Props.C70_same_marker"
   ],
   "note": "For every list of lines for which parsing returns."
  },
  {
   "property": "C71",
   "status": "proved",
   "theorems": [
    "Props.C71_series"
   ],
   "note": "For every call of the replacement of a title."
  },
  {
   "property": "C72",
   "status": "proved",
   "theorems": [
    "Props.C72_place"
   ],
   "note": "For lines without nested tags whose upper case has the same length (otherwise see C27_nested), knowledge bases built from pairs of titles, and no special titles (see C73)."
  },
  {
   "property": "C73",
   "status": "partial",
   "theorems": [
    "Props.C73_partial",
    "Props.C73_displaced"
   ],
   "note": "Holds when no blanks were squeezed up to the end of the title; refuted otherwise by C73_displaced with the shipped knowledge base entry (volume 2 for 12)."
  },
  {
   "property": "C74",
   "status": "partial",
   "theorems": [
    "Props.C74_titles",
    "Props.C74_partial",
    "Props.C74_crash"
   ],
   "note": "Holds when the special titles are plain texts; refuted by C74_crash for a special title that is a real pattern."
  },
  {
   "property": "C75",
   "status": "partial",
   "theorems": [
    "Props.C75_partial",
    "Props.C75_merged"
   ],
   "note": "Exact account of what is kept; the character in front of the number is always dropped, refuting the property: C75_merged."
  },
  {
   "property": "C76",
   "status": "partial",
   "theorems": [
    "Props.C76_partial",
    "Props.C76_unique",
    "Props.C76_words",
    "Props.C76_thirteen"
   ],
   "note": "Exactly what is recognised and reported is proved for every line and determines the result; the label in words is never recognised and a hyphen after ISBN-13 draws the 13 into the number (refuted with witnesses)."
  },
  {
   "property": "C77",
   "status": "partial",
   "theorems": [
    "Props.C77_partial",
    "Props.C77_unique",
    "Props.C77_version",
    "Props.C77_blank",
    "Props.C77_month"
   ],
   "note": "Exactly what is recognised and reported is proved for every line, given that the pattern for years is a list of alternatives; versions of two digits leave a digit in the line and lose the category, and blanks behind an identifier are lost (refuted with witnesses)."
  },
  {
   "property": "C78",
   "status": "partial",
   "theorems": [
    "Props.C78_partial",
    "Props.C78_unique",
    "Props.C78_wrong",
    "Props.C78_nested"
   ],
   "note": "Exactly what is recognised and reported is proved for every line, archive by archive; archives whose names end like others are cut, tagged twice or reported as another archive (refuted with witnesses)."
  },
  {
   "property": "C79",
   "status": "partial",
   "theorems": [
    "Props.C79_partial",
    "Props.C79_word"
   ],
   "note": "For every line no error is raised and exactly the texts of the four forms are replaced; words ending in 'pos' are taken for the journal (refuted with a witness). The description leaves open how a run of several years is divided."
  },
  {
   "property": "C80",
   "status": "proved",
   "theorems": [
    "Props.C80",
    "Props.C80_unique"
   ],
   "note": ""
  },
  {
   "property": "C81",
   "status": "proved",
   "theorems": [
    "Props.C81",
    "Props.C81_unique",
    "Props.C81_kept",
    "Props.C81_empty"
   ],
   "note": "Empty quotation marks are not a title, so the text behind them up to the next mark is taken for one (C81_empty)."
  },
  {
   "property": "C82",
   "status": "proved",
   "theorems": [
    "Props.C82"
   ],
   "note": "Given that the pattern for years is a list of alternatives, as the code builds it."
  },
  {
   "property": "C83",
   "status": "proved",
   "theorems": [
    "Props.C83",
    "Props.C83_unique",
    "Props.C83_line"
   ],
   "note": "Exact description of the pieces replaced, for every line and entry; C83_unique: the description has one solution when the names cannot be confused with what stands in front of them. Entries are plain names, with or without the word Collaboration, as all entries of the shipped file are; re.compile is represented by collabRe for these."
  },
  {
   "property": "C84",
   "status": "partial",
   "theorems": [
    "Props.C84_publishers",
    "Props.C84_books",
    "Props.C84_partial",
    "Props.C84_shared"
   ],
   "note": "Proved for publishers and books. The table of collaborations is keyed by the right-hand side: C84_shared shows that of two spellings of one collaboration only the last is looked for; C84_partial covers files without repeated right-hand sides."
  },
  {
   "property": "C85",
   "status": "partial",
   "theorems": [
    "Props.C85_bare",
    "Props.C85_comma",
    "Props.C85_partial"
   ],
   "note": "Refuted: the blank between name and word is required, and behind it a delimiter: neither CMS, nor CMS followed by one blank and a word is recognised (C85_bare, C85_comma). C85_partial: recognised when a blank and then a delimiter or a second blank follow."
  },
  {
   "property": "C86",
   "status": "proved",
   "theorems": [
    "Props.C86",
    "Props.C86_plain",
    "Props.C86_unique"
   ],
   "note": "Exact description of every mark, of the groups left alone and of the text taken in; C86_unique: the description determines the result. What a group is, is what the pattern matches first at a place (AuthorHere); its parts are described in C87 and C88."
  },
  {
   "property": "C87",
   "status": "partial",
   "theorems": [
    "Props.C87_partial",
    "Props.C87_refuted_before",
    "Props.C87_refuted_behind"
   ],
   "note": "C87_partial: exactly which marks make a group count as editors, and where a group may stand. Refuted as documented: (ed.) followed by a blank and (Ed.) behind one author do not count; the latter is reported with an unclosed bracket."
  },
  {
   "property": "C88",
   "status": "partial",
   "theorems": [
    "Props.C88_partial",
    "Props.C88_gap_partial",
    "Props.C88_end",
    "Props.C88_refuted",
    "Props.C88_refuted_words"
   ],
   "note": "Proved for authors with at most one short particle that are followed by white space or punctuation. Refuted at the end of the line (C88_end: no group ever reaches it) and for two particles (van der Waals)."
  },
  {
   "property": "C89",
   "status": "partial",
   "theorems": [
    "Props.C89_partial",
    "Props.C89_refuted",
    "Props.C89_refuted_reported"
   ],
   "note": "Refuted: a semicolon directly behind a group is doubled, and an author is then reported twice. C89_partial: a line without semicolons gets none."
  },
  {
   "property": "C90",
   "status": "partial",
   "theorems": [
    "Props.C90_partial",
    "Props.C90_refuted"
   ],
   "note": "Refuted: if one name is recognised only in transliteration, the whole line is reported in transliteration. C90_partial: otherwise transliteration has no effect on the result."
  },
  {
   "property": "C91",
   "status": "partial",
   "theorems": [
    "Props.C91_partial",
    "Props.C91_lines",
    "Props.C91_refuted"
   ],
   "note": "Order and raw texts for every string; the texts are a subsequence of the string but for white space and hyphens, and equal to it for up to twenty-five lines. C91_refuted: the lines of a reference after the twenty-fifth are lost. Making the lines never fails for lines of up to 4300 characters."
  },
  {
   "property": "C92",
   "status": "partial",
   "theorems": [
    "Props.C92_partial",
    "Props.C92_indented",
    "Props.C92_lines"
   ],
   "note": "Every entry has a single raw text, the beginning of its raw reference, and all of it for a single line that does not begin with white space. C92_indented: with white space before the marker [1] everything is lost. C92_lines: of several lines only the first reference is kept."
  },
  {
   "property": "C93",
   "status": "partial",
   "theorems": [
    "Props.C93_partial",
    "Props.C93_refuted"
   ],
   "note": "Holds when no line begins with white space. C93_refuted: an indented first marker gives an empty reference."
  },
  {
   "property": "C94",
   "status": "partial",
   "theorems": [
    "Props.C94_partial",
    "Props.C94_lines_partial",
    "Props.C94_refuted",
    "Props.C94_refuted_page"
   ],
   "note": "Proved without special journals, books and linker; with them the only errors left are a ValueError for the page of a special journal, an IndexError or TypeError when a book is cut out, and errors of the linker. Violated by text with '<' or a character transliterated with '<' (C94_refuted) and by a page of a special journal that begins with a superscript digit (C94_refuted_page)."
  },
  {
   "property": "C95",
   "status": "partial",
   "theorems": [
    "Props.C95_lines_partial",
    "Props.C95_partial",
    "Props.C95_refuted",
    "Props.C95_refuted_title",
    "Props.C95_refuted_heading"
   ],
   "note": "Proved for lists in which no number in square brackets stands in a further line, no line opens with the title of a reference section behind at most thirteen characters, lines have at most 4300 characters and the second item begins within the ten lines after the first (or the list has at most five lines). Refuted where the next number is mentioned in a further line (the item is cut there), where a further line is a section title, and where a title stands in front of the list (each becomes a reference of its own). Depends on replace_undesirable_characters leaving a leading number as it is."
  },
  {
   "property": "C96",
   "status": "partial",
   "theorems": [
    "Props.C96_lines_partial",
    "Props.C96_partial",
    "Props.C96_refuted",
    "Props.C96_refuted_cut"
   ],
   "note": "Proved for documents without page breaks, with at most four empty lines between the title and the list and any white space around the title, in which no other line opens with the title of a reference section (behind at most thirteen characters), no number in square brackets stands in a further line, items but the last have less than 200 lines, lines of items have at most 4300 characters, no further line is made of numbers only, no line of the last item opens like the title of another section, and the text behind the list, if any, begins with such a title on a line of its own and has no number in square brackets. Refuted where the last item begins like the title of another section (it is lost) and where a further line of it does (it is cut there). Depends on replace_undesirable_characters leaving a leading number as it is."
  },
  {
   "property": "C97",
   "status": "partial",
   "theorems": [
    "Props.C97_partial",
    "Props.C97_url_partial",
    "Props.C97_refuted",
    "Props.C97_refuted_header"
   ],
   "note": "Proved for documents as in C96 whose list follows the title without an empty line, with lines shorter than 4300 characters, and with empty lines only where the line in front does not end with a hyphen (at most 25 lines for a reference then); file type, decoding, conversion and keys of a PDF are parameters. Refuted where an empty line follows the title (the file gives one more reference, with empty text) and where the text quotes the header of a PDF (the file is refused with ValueError)."
  },
  {
   "property": "C98",
   "status": "proved",
   "theorems": [
    "Props.C98",
    "Props.C98_again"
   ],
   "note": "For all lines, libraries, knowledge bases, formats and linkers. The word key in lower case must not be a title of the knowledge base: sum_2_dictionaries tests for this literal; the titles of a loaded knowledge base are in upper case (C44). C98_again: the raw texts of extract_references_from_string in both modes, of one to 4300 characters (Python's limit for numbers), in mode False for lines of at most 4300 characters."
  },
  {
   "property": "C99",
   "status": "partial",
   "theorems": [
    "Props.C99_partial",
    "Props.C99_refuted"
   ],
   "note": "The code violates the property: tag_reference_line writes the journals given by regular expression into the kept dictionary of titles, and C99_refuted shows a later call without them that writes another journal title. C99_partial proves it for all sequences of calls, failing or not, that use the same journals given by regular expression; the other knowledge bases are the same in all calls."
  }
 ]
}