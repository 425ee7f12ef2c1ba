{"id": "C01", "title": "Every returned reference carries the exact raw line it came from, in input order", "statement": "When a list of reference lines is parsed successfully, the returned references are the concatenation, in input order, of one non-empty contiguous block per input line, and every reference of a block has raw_ref equal to a one-element list holding exactly the input line (before any cleaning).", "quantifier": "every list of reference lines (any strings, any length), every knowledge base, every linker callback and reference format for which parsing returns", "why_tests_cant": "Tests check a handful of lines; nothing short of a proof shows that no line is dropped, reordered, merged or altered for arbitrary text.", "anchors": ["refextract/references/engine.py:parse_references", "refextract/references/engine.py:parse_references_elements", "refextract/references/record.py:build_references", "refextract/references/record.py:build_reference_fields"]}
{"id": "C02", "title": "Returned references have only documented keys, each holding a non-empty list of non-empty strings", "statement": "Every reference dictionary that the record builder returns has keys only among linemarker, raw_ref, misc, journal_title, journal_volume, journal_year, journal_page, journal_reference, reportnumber, url, urldesc, doi, hdl, author, title, isbn, publisher, year, collaboration, recid; every key other than raw_ref maps to a non-empty list whose members are all non-empty strings.", "quantifier": "every list of citation elements, every line marker, raw line and reference format", "why_tests_cant": "The shape must hold for every combination of element kinds and empty values; tests compare whole dictionaries for a few lines only.", "anchors": ["refextract/references/record.py:build_reference_fields", "refextract/references/record.py:add_subfield", "refextract/references/record.py:create_reference_field"]}
{"id": "C03", "title": "The linemarker field appears exactly when the marker has content, and is stripped of brackets, dots and blanks", "statement": "A reference has a linemarker exactly when the marker contains a character other than '.', ',', blank and brackets; its single value is the marker with leading and trailing brackets, dots and blanks removed, hence non-empty, a substring of the marker, neither starting nor ending with such a character.", "quantifier": "every marker string", "why_tests_cant": "An if-and-only-if over all strings.", "anchors": ["refextract/references/record.py:create_reference_field", "refextract/references/record.py:format_marker"]}
{"id": "C04", "title": "Miscellaneous text is kept verbatim except for edge punctuation", "statement": "The misc list of a reference is, in order, the miscellaneous text of each element that contains a character other than '.', ',', blank and brackets, with only leading closing brackets/blank/comma/dot and trailing opening brackets/blank/comma/dot removed; no misc entry is ever empty, and no other misc text appears.", "quantifier": "every list of citation elements", "why_tests_cant": "Universally quantified over all texts; a test cannot rule out that the trimming empties or reorders some text.", "anchors": ["refextract/references/record.py:build_reference_fields"]}
{"id": "C05", "title": "Per-kind values are reported completely and in order", "statement": "For each output key other than misc, linemarker and raw_ref, the list of values is exactly the sequence of non-empty values of the elements of the corresponding kind in element order: report numbers, URLs, URL descriptions only when different from the URL, DOIs prefixed by 'doi:', handles prefixed by 'hdl:', authors with 'incl' authors parenthesised, quoted and book titles merged in order, and the formatted journal reference obtained by filling the user's template with the journal element.", "quantifier": "every list of citation elements and every template made of literal text and element fields", "why_tests_cant": "Order and completeness across arbitrary interleavings of kinds cannot be enumerated.", "anchors": ["refextract/references/record.py:build_reference_fields", "refextract/references/record.py:add_journal_subfield"]}
{"id": "C06", "title": "A citation never contains two non-repeatable identifiers of the same kind", "statement": "After a reference line is split into citations, no citation contains two journal elements, two URLs, two DOIs, two handles, two ISBNs, two quoted titles, two books, two publishers, two years or two record ids, nor two arXiv report numbers; only ordinary report numbers, collaborations, authors and miscellaneous text may repeat.", "quantifier": "every list of elements", "why_tests_cant": "The splitting loop keeps running state over lists of unbounded length; tests exercise a few orders.", "anchors": ["refextract/references/engine.py:split_citations_iter", "refextract/references/engine.py:split_needed"]}
{"id": "C07", "title": "Splitting a line into citations loses and reorders nothing but misplaced authors", "statement": "Concatenating the citations produced from a line gives back all non-author elements in their original order with their contents; miscellaneous text is only cut at the first semicolon of an element, that semicolon being the only character removed. Authors are the exception: the last of several authors is moved to the following citation.", "quantifier": "every list of elements", "why_tests_cant": "Conservation over unbounded sequences.", "anchors": ["refextract/references/engine.py:split_citations_iter", "refextract/references/engine.py:postpone_last_auth"]}
{"id": "C08", "title": "No author is lost when a line is split", "statement": "Every author element of the line occurs in at least one of the citations produced from that line.", "quantifier": "every list of elements", "why_tests_cant": "The loss needs a particular interleaving of two authors, a semicolon and an author in the next citation, which no test has; only a universally quantified statement exposes it.", "anchors": ["refextract/references/engine.py:split_citations_iter", "refextract/references/engine.py:postpone_last_auth"]}
{"id": "C09", "title": "Splitting always terminates with at least one citation and no empty one", "statement": "Splitting any line, including one with no elements, yields at least one citation, and no citation is empty unless the line has no elements at all.", "quantifier": "every list of elements", "why_tests_cant": "Quantifies over all inputs including degenerate ones.", "anchors": ["refextract/references/engine.py:split_citations_iter"]}
{"id": "C10", "title": "At most one author, DOI and record id, and distinct collaborations, per returned citation", "statement": "After post-processing, every citation has at most one author element, at most one DOI element, and pairwise different collaboration names; all other elements are kept unchanged and in order, and the surviving author is the first, the surviving DOI the first, and every collaboration name that occurred still occurs.", "quantifier": "every citation (list of elements)", "why_tests_cant": "In-place removal from a list being iterated over a copy is a classic source of order-dependent bugs; every list must be considered.", "anchors": ["refextract/references/engine.py:remove_duplicated_authors", "refextract/references/engine.py:remove_duplicated_dois", "refextract/references/engine.py:remove_duplicated_collaborations"]}
{"id": "C11", "title": "Record ids: first linked element wins, one per citation", "statement": "A citation receives a record-id element exactly when some element of it has a truthy record id, its value is that of the first such element, it is appended at the end and nothing else changes. The linker callback's answer is stored when it returns, KeyError and IndexError are absorbed as 'no record', any other exception reaches the caller.", "quantifier": "every citation and every linker callback (any function of the element that may return or raise)", "why_tests_cant": "The callback is arbitrary user code: all behaviours must be considered.", "anchors": ["refextract/references/engine.py:associate_recids", "refextract/references/engine.py:add_recid_elements"]}
{"id": "C12", "title": "Year of a citation", "statement": "The year given to a citation is the year of its first journal or dated book element when that year is non-empty, otherwise the first isolated year (1900-2099) in the miscellaneous text of the last element that has one; exactly one year element is appended when such a year exists and none otherwise, the other elements keep their kind, order and contents except that occurrences of that year disappear from miscellaneous texts.", "quantifier": "every citation", "why_tests_cant": "All element orders and texts.", "anchors": ["refextract/references/engine.py:add_year_elements", "refextract/references/engine.py:year_from_citation", "refextract/references/regexs.py:remove_year"]}
{"id": "C13", "title": "Removing a year leaves no other number damaged", "statement": "Removing a found year from the misc text of a citation never deletes digits belonging to a longer number.", "quantifier": "every text and every year", "why_tests_cant": "Needs a text in which the year occurs inside a longer digit string, arbitrary otherwise.", "anchors": ["refextract/references/regexs.py:remove_year", "refextract/references/engine.py:add_year_elements"]}
{"id": "C14", "title": "Roman numeral volumes are converted to their value", "statement": "For every well-formed roman numeral written with I, V and X (1 to 39) the reported volume is its decimal value; text without roman volume pattern is unchanged.", "quantifier": "every canonical numeral over I, V, X and every volume string", "why_tests_cant": "All numerals, all volume strings.", "anchors": ["refextract/references/engine.py:roman2arabic", "refextract/references/engine.py:format_volume"]}
{"id": "C15", "title": "Volume letters are moved in front of the number without loss", "statement": "For every volume made of digits followed by a letter, the reported volume is the letter followed by the digits; applying the step twice changes nothing more; volumes that do not start that way are unchanged.", "quantifier": "every volume string", "why_tests_cant": "Every string; the tail of the volume after the letter is dropped for inputs no test uses.", "anchors": ["refextract/references/engine.py:mangle_volume"]}
{"id": "C16", "title": "Journal series letter is separated from the title without loss", "statement": "If the journal title contains ';', the part after the last ';' is put in front of the volume and the part before becomes the title, so no character but that ';' disappears; otherwise nothing changes.", "quantifier": "every title and volume", "why_tests_cant": "Quantifies over all strings.", "anchors": ["refextract/references/engine.py:split_volume_from_journal"]}
{"id": "C17", "title": "JHEP/JCAP volumes and pages are normalised to fixed width without changing their number", "statement": "For a special journal, a numeric page shorter than three digits is left-padded with zeros to three, a numeric volume of one digit to two, preserving the numeric value; a year suffix is put in front only when the volume has at most two digits; other journals are untouched; no exception is raised for numeric pages and volumes.", "quantifier": "every journal element, title list and digit string in any script", "why_tests_cant": "Digit predicates differ on Unicode (isdigit versus int), which tests with ASCII never reach.", "anchors": ["refextract/references/engine.py:handle_special_journals"]}
{"id": "C18", "title": "Report number normalisation is idempotent and only inserts or replaces a separator", "statement": "Report-number normalisation only inserts one '-' between the letter part and the digit part of an upper-case report number, and only replaces the '-' after an archive name (hep-th and five others) by '/'; all other characters are kept in order, and normalising twice equals normalising once.", "quantifier": "every report number string", "why_tests_cant": "All strings.", "anchors": ["refextract/references/engine.py:format_hep", "refextract/references/engine.py:format_report_number"]}
{"id": "C19", "title": "Parsing tagged text inverts rendering", "statement": "Rendering any sequence of plain text and closed tags (title with volume, year and page; report number; arXiv number; ISBN; quoted text; publisher; collaboration; author in standard, et al. and incl. form; URL and DOI placeholders) into a tagged line and parsing it gives back exactly one element per tag with its contents, in order, with the text in front of each tag as that element's miscellaneous text, and the trailing text as a final miscellaneous element exactly when it is non-blank.", "quantifier": "every sequence of tokens whose texts contain no tag openings", "why_tests_cant": "Round trip over unboundedly many tokens with arbitrary contents.", "anchors": ["refextract/references/engine.py:parse_tagged_reference_line"]}
{"id": "C20", "title": "Parsing a tagged line always terminates and never invents text", "statement": "For every string whatsoever, parsing it as a tagged line stops, and the number of steps is bounded by its length; all miscellaneous texts and contents reported are taken from the line.", "quantifier": "every string", "why_tests_cant": "A while-loop over shrinking text with about fifteen branches; termination for all inputs cannot be tested.", "anchors": ["refextract/references/engine.py:parse_tagged_reference_line"]}
{"id": "C21", "title": "An unclosed tag loses no following text", "statement": "If an opening tag has no closing tag, the text after it is still available in the output.", "quantifier": "every line containing an unclosed tag", "why_tests_cant": "Needs malformed lines; the code skips the tag length twice for some kinds.", "anchors": ["refextract/references/engine.py:parse_tagged_reference_line"]}
{"id": "C22", "title": "Document text cannot crash the parser by looking like an internal tag", "statement": "Parsing a reference line never raises for lack of a recorded URL or DOI, whatever the line's text.", "quantifier": "every reference line", "why_tests_cant": "A user-supplied line containing the internal placeholder is not in any test.", "anchors": ["refextract/references/engine.py:parse_tagged_reference_line", "refextract/references/tag.py:identify_and_tag_DOI", "refextract/references/tag.py:identify_and_tag_URLs"]}
{"id": "C23", "title": "DOI recognition replaces exactly the DOIs and keeps the rest", "statement": "Tagging DOIs in a line leaves every character outside a recognised DOI in place and in order; the recognised identifiers are reported in left-to-right order, one per placeholder, each starts with '10.' followed by digits and contains a '/'; putting them back at the placeholders restores the line.", "quantifier": "every line", "why_tests_cant": "Regex replacement on every string.", "anchors": ["refextract/references/tag.py:identify_and_tag_DOI", "refextract/references/regexs.py:re_doi"]}
{"id": "C24", "title": "URL recognition replaces exactly the URLs and keeps the rest", "statement": "Tagging URLs in a line keeps all text outside the recognised URLs in order; the reported list has one entry per placeholder in left-to-right order.", "quantifier": "every line", "why_tests_cant": "Interleaving of two recogniser kinds over arbitrary text.", "anchors": ["refextract/references/tag.py:identify_and_tag_URLs"]}
{"id": "C25", "title": "Positions found in the space-compressed line map exactly to the original line", "statement": "Compressing runs of blanks and recording how many were removed is invertible: for a title or report number found in the compressed line at given positions, the position and length computed for the original line delimit exactly the original substring whose compressed form is the match, for any number of matches processed left to right.", "quantifier": "every line and every set of non-overlapping matches", "why_tests_cant": "Index arithmetic with running offsets over arbitrarily many replacements; off-by-one errors show only for particular spacings.", "anchors": ["refextract/references/tag.py:account_for_stripped_whitespace", "refextract/documents/text.py:remove_and_record_multiple_spaces_in_line"]}
{"id": "C26", "title": "Publisher tagging keeps the text around the publisher intact", "statement": "Replacing a recognised publisher by its tag removes exactly the publisher's text.", "quantifier": "every line and publisher position", "why_tests_cant": "Fails only when blanks were compressed inside the publisher's name.", "anchors": ["refextract/references/tag.py:add_tagged_publisher", "refextract/references/tag.py:process_reference_line"]}
{"id": "C27", "title": "Blanking out tags preserves positions", "statement": "The tag-blanking step returns a string of the same length in which every character outside tags is unchanged.", "quantifier": "every tagged line", "why_tests_cant": "True only when tags do not nest; nesting arises from quoted text around an arXiv number.", "anchors": ["refextract/references/tag.py:strip_tags"]}
{"id": "C28", "title": "Journal recognition: positions are exact, non-overlapping, longest title first", "statement": "Every recorded journal match is at a position where the line really contains that title, no two recorded matches overlap, a title that contains another one is preferred, and the working line keeps its length so positions stay valid.", "quantifier": "every line and every journal knowledge base", "why_tests_cant": "Mutable working line with underscores overwriting; all lines and all knowledge bases.", "anchors": ["refextract/references/tag.py:identify_journals"]}
{"id": "C29", "title": "Report number and ibid recognition keep positions valid", "statement": "Recording report numbers and ibids overwrites them by the same number of characters, so all other positions stay valid; every recorded position and length lie inside the line.", "quantifier": "every line and every report-number knowledge base", "why_tests_cant": "All inputs.", "anchors": ["refextract/references/tag.py:identify_report_numbers", "refextract/references/tag.py:identify_ibids"]}
{"id": "C30", "title": "Match statistics are summed over all lines", "statement": "The counters returned for a list of lines are the sum of the counters of each line.", "quantifier": "every list of lines and every key", "why_tests_cant": "Only visible with more than one line having the same counter; the tests look at the references only.", "anchors": ["refextract/references/engine.py:parse_references_elements", "refextract/references/tag.py:sum_2_dictionaries", "refextract/references/engine.py:build_stats"]}
{"id": "C31", "title": "Line marker removal keeps the text", "statement": "Removing the line marker returns the marker and the remaining text such that the remaining text is a suffix of the cleaned line, everything removed is the marker and blanks, and a line without a marker is returned unchanged with a single blank as marker.", "quantifier": "every line", "why_tests_cant": "All strings.", "anchors": ["refextract/references/engine.py:remove_reference_line_marker"]}
{"id": "C32", "title": "Handles are split out of misc text without loss", "statement": "Looking for handles in a citation replaces every 'hdl:' identifier in misc text by a handle element, keeping all other text and elements in order.", "quantifier": "every citation", "why_tests_cant": "In-place insertion while iterating.", "anchors": ["refextract/references/engine.py:look_for_hdl", "refextract/references/engine.py:look_for_hdl_urls"]}
{"id": "C33", "title": "Rebuilding broken reference lines loses no text", "statement": "Joining the lines of each reference keeps every non-blank character in order, except a hyphen at a line break that is joined and the lines beyond the maximum number of lines per reference; no line is assigned to two references.", "quantifier": "every list of lines and every marker pattern", "why_tests_cant": "A backward loop with several pieces of carried state over arbitrary documents.", "anchors": ["refextract/references/text.py:rebuild_reference_lines", "refextract/documents/text.py:join_lines"]}
{"id": "C34", "title": "Rebuilt references start at increasing markers", "statement": "With a numeric marker pattern a line starts a new reference only if its number is the one expected by the consecutive numbering; lines that look like markers out of sequence are treated as continuation text.", "quantifier": "every list of lines", "why_tests_cant": "All documents.", "anchors": ["refextract/references/text.py:rebuild_reference_lines"]}
{"id": "C35", "title": "Blank lines separate references whatever the input route", "statement": "A reference list without markers whose references are separated by blank lines is split at the blank lines, both for files and for strings.", "quantifier": "every text", "why_tests_cant": "Lines from a string have no newline, so blank lines are empty strings; tests only use marked references for strings.", "anchors": ["refextract/references/text.py:test_for_blank_lines_separating_reference_lines", "refextract/references/text.py:rebuild_reference_lines", "refextract/references/api.py:extract_references_from_string"]}
{"id": "C36", "title": "The reference section is a contiguous part of the document", "statement": "The lines used for extraction are exactly the document lines between the returned start and end (with headers and footers already removed), every boundary is a valid index, and no document makes the section finder fail.", "quantifier": "every list of lines", "why_tests_cant": "Index computations on arbitrary documents including empty and one-line ones.", "anchors": ["refextract/references/text.py:get_reference_lines", "refextract/references/find.py:find_reference_section", "refextract/references/find.py:find_end_of_reference_section", "refextract/references/find.py:get_reference_section_beginning"]}
{"id": "C37", "title": "Header and footer stripping removes only boundary lines", "statement": "Removing page headers and footers returns a subsequence of the document's lines consisting of all lines except page-break lines and, for each inner page, the same number of first and last lines; when the pages are too short to be safe only nothing is removed; the function never raises and never removes a line of a document without page breaks.", "quantifier": "every list of lines", "why_tests_cant": "Index arithmetic over arbitrary page-break positions.", "anchors": ["refextract/documents/text.py:remove_page_boundary_lines", "refextract/documents/text.py:strip_headers_footers_pagebreaks", "refextract/documents/text.py:get_number_header_lines", "refextract/documents/text.py:get_number_footer_lines"]}
{"id": "C38", "title": "Joining two lines", "statement": "Joining two lines gives the first line without its final hyphen (if it has one), or the first line followed by exactly one blank unless it is empty or already ends in a blank, followed by the second line unchanged; joining a whole list keeps every non-blank character except such hyphens.", "quantifier": "every pair of strings", "why_tests_cant": "All strings.", "anchors": ["refextract/documents/text.py:join_lines"]}
{"id": "C39", "title": "Line washing", "statement": "Washing a line never lengthens it, leaves no two adjacent white-space characters and no hyphen look-alikes, and apart from blanks, colons, commas, hyphen-like characters and the literal sequence \\255 keeps all characters in order.", "quantifier": "every string", "why_tests_cant": "All strings.", "anchors": ["refextract/documents/text.py:wash_line"]}
{"id": "C40", "title": "Washing a line is idempotent", "statement": "Washing an already washed line changes nothing.", "quantifier": "every string", "why_tests_cant": "Fails only for a particular order of blanks and punctuation.", "anchors": ["refextract/documents/text.py:wash_line"]}
{"id": "C41", "title": "Knowledge bases do not depend on call history", "statement": "A request for knowledge bases returns the result of loading the requested configuration, independent of which configurations were requested before, provided no load failed.", "quantifier": "every finite history of requests with arbitrary overrides", "why_tests_cant": "A cache keyed on the last inputs: all histories must be considered.", "anchors": ["refextract/references/kbs.py:get_kbs"]}
{"id": "C42", "title": "A failed knowledge-base load is not remembered as a success", "statement": "If loading an overridden knowledge base raises, a repeated request with the same override raises again instead of silently using another knowledge base.", "quantifier": "every history including failing loads", "why_tests_cant": "Needs a failing load followed by the same request.", "anchors": ["refextract/references/kbs.py:get_kbs"]}
{"id": "C43", "title": "Concurrent or nested requests with different overrides do not disturb each other", "statement": "The knowledge bases obtained by one caller stay those of its own configuration while other callers request other configurations.", "quantifier": "every interleaving of two callers", "why_tests_cant": "Depends on the schedule; no test runs two overlapping extractions.", "anchors": ["refextract/references/kbs.py:get_kbs", "refextract/references/engine.py:parse_references"]}
{"id": "C44", "title": "Journal knowledge base is closed and ordered", "statement": "The journal knowledge base built from any list of pairs has a search pattern and a standard title for every search term, its search terms are distinct, ordered by decreasing length, every replacement term is itself recognised, and the first mapping given for a term wins.", "quantifier": "every list of (search, replacement) pairs", "why_tests_cant": "All knowledge bases users may supply.", "anchors": ["refextract/references/kbs.py:build_journals_kb"]}
{"id": "C45", "title": "Report-number mask translation is token-wise", "statement": "Translating a report-number mask to a regular expression replaces each mask token independently, so translation distributes over concatenation outside multi-character tokens, and the resulting patterns are tried longest first, keeping the given order for equal length.", "quantifier": "every mask string and every list of masks", "why_tests_cant": "All user-supplied masks.", "anchors": ["refextract/references/kbs.py:institute_num_pattern_to_regex", "refextract/references/kbs.py:order_reportnum_patterns_bylen"]}
{"id": "C46", "title": "Cleaning a PDF file keeps exactly the PDF part", "statement": "A non-empty file without PDF header is left unchanged; a file with a header and a later end marker becomes exactly the bytes from the first header to the last end marker inclusive; cleaning twice equals cleaning once.", "quantifier": "every byte string", "why_tests_cant": "All file contents.", "anchors": ["refextract/references/engine.py:clean_pdf_file"]}
{"id": "C47", "title": "Cleaning never fails or destroys data on files lacking an end marker", "statement": "For a file with a PDF header but no end marker after it the file content from the header on is kept and no exception is raised.", "quantifier": "every byte string", "why_tests_cant": "Needs a truncated PDF preceded by junk bytes.", "anchors": ["refextract/references/engine.py:clean_pdf_file"]}
{"id": "C48", "title": "The temporary download file is always removed", "statement": "Once extraction from a URL has created and closed its temporary file, and unless the operating system refuses to remove it, the file no longer exists when the call returns or raises, whatever fails in between; an HTTP error status is reported as full text not available, other errors unchanged, and success returns the result of extracting the downloaded bytes.", "quantifier": "every outcome of each step (request, status, any number of chunks, write, extraction, file removal)", "why_tests_cant": "All failure points, including after any number of chunks.", "anchors": ["refextract/references/api.py:extract_references_from_url"]}
{"id": "C49", "title": "TeX keys and PDF links never change the number, order or other contents of references", "statement": "For a PDF, enrichment happens only if the number of TeX keys equals the number of references; then the i-th reference gets the i-th TeX key and its URLs appended without duplicates, nothing else changes; otherwise the references are returned as parsed.", "quantifier": "every list of references and every list of TeX-key entries", "why_tests_cant": "All lengths and contents.", "anchors": ["refextract/references/api.py:extract_references_from_file", "refextract/references/record.py:update_reference_with_urls"]}
{"id": "C50", "title": "TeX keys are listed in reading order", "statement": "The TeX keys extracted from a PDF are exactly those of its citation destinations, sorted by page and position (column first in two-column documents), one entry each; any failure to determine positions yields an empty list instead of an exception.", "quantifier": "every set of destinations and positions", "why_tests_cant": "All geometric layouts.", "anchors": ["refextract/references/pdf.py:extract_texkeys_and_urls_from_pdf", "refextract/references/pdf.py:_destinations_in_two_columns"]}
{"id": "C51", "title": "Each PDF link is attached to at most one reference", "statement": "A link annotation of the PDF is attached to at most one of the references.", "quantifier": "every layout", "why_tests_cant": "Boundary coordinates not covered by tests.", "anchors": ["refextract/references/pdf.py:_match_urls_with_reference"]}
{"id": "C52", "title": "List API isolates failures", "statement": "Extracting references from a list of lines returns exactly one reference per input line in order: the first reference extracted from the line, or, when processing the line fails or finds nothing, a reference with only the raw text. A failing line does not affect other lines except through the knowledge bases it left loaded.", "quantifier": "every list of lines and every failure pattern", "why_tests_cant": "All combinations of failing lines.", "anchors": ["refextract/extract.py:extract_references_from_list"]}
{"id": "C53", "title": "Journal lookup returns the first journal of the line or nothing", "statement": "Extracting a journal reference returns the first journal element in citation order if there is one and nothing otherwise.", "quantifier": "every line", "why_tests_cant": "All lines.", "anchors": ["refextract/references/api.py:extract_journal_reference"]}
{"id": "C54", "title": "Book title matching ignores case and punctuation only", "statement": "A known book title is found in a text exactly when the alphanumeric characters of the title occur contiguously, in upper case, among those of the text; cutting it out removes the span from its first to its last alphanumeric character, the characters behind it up to the next blank, bracket or alphanumeric character, and the blanks around, and nothing else.", "quantifier": "every title and text", "why_tests_cant": "All strings, including letters whose upper case has another length.", "anchors": ["refextract/references/engine.py:find_substring_ignore_special_chars", "refextract/references/engine.py:cut_substring_with_special_chars"]}
{"id": "C55", "title": "A knowledge-base book without letters or digits is harmless", "statement": "Searching a book whose title has no ASCII letter or digit finds nothing and raises nothing.", "quantifier": "every title without ASCII letters or digits", "why_tests_cant": "Custom knowledge bases with non-Latin titles are not tested.", "anchors": ["refextract/references/engine.py:search_for_book_in_misc", "refextract/references/engine.py:cut_substring_with_special_chars"]}
{"id": "C56", "title": "Numeration extraction is all or nothing", "statement": "When a journal title is recognised but no volume/page numeration follows, the title's text stays in the line and nothing is lost; when it is found the consumed text is exactly the numeration matched.", "quantifier": "every line and position", "why_tests_cant": "All texts following a title.", "anchors": ["refextract/references/tag.py:add_tagged_journal", "refextract/references/tag.py:find_numeration"]}
{"id": "C57", "title": "Numerations always carry a volume, page and year entry", "statement": "Whenever a numeration is recognised its volume, page and year are strings (possibly empty year), so later formatting never meets a missing value.", "quantifier": "every text", "why_tests_cant": "Depends on which optional groups took part in the match for every string.", "anchors": ["refextract/references/tag.py:find_numeration", "refextract/references/engine.py:look_for_implied_ibids"]}
{"id": "C58", "title": "No internal key error in post-processing", "statement": "Post-processing elements produced by the tagged-line parser never raises for a missing entry.", "quantifier": "every list of well-formed elements", "why_tests_cant": "All sequences.", "anchors": ["refextract/references/engine.py:parse_reference_line"]}
{"id": "C59", "title": "A formatted journal reference never contains the word None", "statement": "With the default reference format, the formatted journal reference of an extracted journal consists of the title, volume, year and page found in the text and never of the literal word None standing for a missing value.", "quantifier": "every reference line", "why_tests_cant": "Whether some line leads to an element with a missing value depends on the numeration patterns and on which pass created the element; tests only look at complete journals.", "anchors": ["refextract/references/record.py:add_journal_subfield", "refextract/references/engine.py:look_for_implied_ibids", "refextract/references/tag.py:find_numeration"]}
{"id": "C60", "title": "Supplement volumes lose their series letter and nothing else does", "statement": "For journals with the title Nucl.Phys.Proc.Suppl. a leading b or B of the volume is removed, one letter only; all other volumes of that journal, all other journals and all other elements stay exactly as they are.", "quantifier": "every element", "why_tests_cant": "The claim is about every title and every volume text, in particular that no other element is touched.", "anchors": ["refextract/references/engine.py:remove_b_for_nucl_phys"]}
{"id": "C61", "title": "Common numerations are recognised with the right values", "statement": "A text that begins with a volume number, a year in brackets and a page number, or a volume, a page and a year in brackets, or a year, a volume and a page, separated by blanks, is always recognised as a numeration. When the volume stands first, with or without a series letter from A to H, the year is in brackets and the numeration is followed by punctuation or nothing, the series, volume, year, first page and last page reported are exactly those written, and the text consumed ends with the numeration.", "quantifier": "all numbers of any length and all years from 1900 to 2099, in ten written forms, behind nothing, a blank or a comma and a blank, with any text behind the punctuation", "why_tests_cant": "Eleven patterns that backtrack and look around are tried in order; that no digit combination makes an earlier one match otherwise is a statement about infinitely many texts.", "anchors": ["refextract/references/tag.py:find_numeration", "refextract/references/regexs.py"]}
{"id": "C62", "title": "A changed knowledge-base list is read again", "statement": "If a caller passes a knowledge base as a list or dictionary, changes its contents and passes it again, the extraction uses the new contents.", "quantifier": "every history of requests and every change of contents between them", "why_tests_cant": "Needs the same object passed twice with a change in between; depends on what the cache compares.", "anchors": ["refextract/references/kbs.py:get_kbs"]}
{"id": "C63", "title": "Journal information is all or nothing", "statement": "Extracting journal information from a list of publication notes returns one entry per note in order, an empty one for a note without text, or no result at all when processing one of them fails.", "quantifier": "every list of notes and every failure pattern", "why_tests_cant": "All combinations of failing and missing notes.", "anchors": ["refextract/extract.py:extract_journal_info"]}
{"id": "C64", "title": "Exactly the repeated lines are taken for headers and footers", "statement": "A line is removed from the inner pages as part of the page header (footer) exactly if it and all lines between it and the page break repeat from page to page, where two lines repeat if they have the same number of words and nine tenths of the words agree in first and last letter or are both numbers; if some inner page would lose all its lines the document is returned unchanged.", "quantifier": "every list of lines with some text and at least two page breaks", "why_tests_cant": "The number of removed lines depends on all pages of an arbitrary document.", "anchors": ["refextract/documents/text.py:remove_page_boundary_lines", "refextract/documents/text.py:get_number_header_lines", "refextract/documents/text.py:get_number_footer_lines", "refextract/documents/text.py:check_boundary_lines_similar"]}
{"id": "C65", "title": "Repairing URLs removes nothing but blanks", "statement": "Repairing broken URLs in a line only removes blanks: all other characters stay, in the same order.", "quantifier": "every string", "why_tests_cant": "Twenty-five regular expressions are applied in turn to arbitrary text, each replacing its match by a part of it.", "anchors": ["refextract/documents/text.py:repair_broken_urls", "refextract/documents/text.py:get_url_repair_patterns"]}
{"id": "C66", "title": "References are separated wherever the title stands", "statement": "Numbered references are separated at their numbers whether the title of the section has its own line, stands in the line of the first reference, or is absent.", "quantifier": "every document", "why_tests_cant": "The pattern of the markers is chosen from the line of the title; the tests with the title in the line of the first reference only look at the position found.", "anchors": ["refextract/references/find.py:find_numeration_in_title", "refextract/references/text.py:get_reference_lines", "refextract/references/text.py:rebuild_reference_lines"]}
{"id": "C67", "title": "The reference section ends where something else begins", "statement": "The reference section goes up to the end of the document or to the first heading or closing phrase after which no further reference follows; it never goes past such a line.", "quantifier": "every document", "why_tests_cant": "The end depends on all lines after the start, on a look-ahead of two hundred lines and on the count of references; tests use few documents.", "anchors": ["refextract/references/find.py:find_end_of_reference_section", "refextract/references/regexs.py:get_post_reference_section_keyword_patterns"]}
{"id": "C68", "title": "Quoted text in a report-number mask stands for itself", "statement": "In a report-number knowledge base, the text between double quotes in a mask is searched for literally; only text outside quotes is read as mask tokens.", "quantifier": "every mask with quoted text", "why_tests_cant": "Whether a quoted text survives depends on its letters; a test uses a few quoted texts, the property speaks of all of them.", "anchors": ["refextract/references/kbs.py:133-174"]}
{"id": "C69", "title": "Institutes of a report-number knowledge base do not disturb each other", "statement": "When a report-number knowledge base is loaded, every institute that has at least one category and one mask keeps, for each of its categories, a pattern made of its own masks and its own standard form, even if other institutes use the same category; within one institute the last standard form given for a category counts.", "quantifier": "every file of report-number patterns that loads", "why_tests_cant": "Clashes depend on the positions of institutes in the file, with unboundedly many layouts including comments, empty institutes and a last institute at the end of the file.", "anchors": ["refextract/references/kbs.py:177-377"]}
{"id": "C70", "title": "References made from one line share its marker", "statement": "When a reference line is split into several references, all of them carry the same line marker, or none of them carries one; no reference has more than one marker.", "quantifier": "every list of reference lines, every knowledge base, linker and format for which parsing returns", "why_tests_cant": "Tests look at a few lines with markers; whether every way of splitting keeps the marker for every text needs a proof.", "anchors": ["refextract/references/engine.py:parse_references_elements", "refextract/references/record.py:build_reference_fields", "refextract/references/record.py:build_references"]}
{"id": "C71", "title": "An ibid stands for the journal before it, series included", "statement": "A journal title is written with its standard form; an 'ibid' gets the title and series of the journal before it, and a series found in the numeration replaces the one from the title, both in the volume and for following ibids.", "quantifier": "every line, title, preceding journal and numeration", "why_tests_cant": "Combines the state carried along the line with every form of numeration.", "anchors": ["refextract/references/tag.py:add_tagged_journal"]}
{"id": "C72", "title": "A recognised journal title is replaced where it stands", "statement": "The text replaced for a recognised title or ibid is the part of the original line that reads as that title (ignoring case, punctuation and squeezed blanks); the text before it is kept and numeration is searched in the text right behind it.", "quantifier": "every line without nested tags and without letters whose capital form has several letters, and every knowledge base of journals (special title patterns apart, see C73)", "why_tests_cant": "Positions are converted between the squeezed and the original line; every placement of blanks and punctuation matters.", "anchors": ["refextract/references/tag.py:process_reference_line", "refextract/references/tag.py:account_for_stripped_whitespace"]}
{"id": "C73", "title": "A specially spelled journal title is replaced where it stands", "statement": "A journal found by one of the special title patterns is replaced exactly where it was matched in the line, so that volume, year and page are those printed behind it.", "quantifier": "every line and special title", "why_tests_cant": "Wrong only when blanks or punctuation were squeezed before the title, in which case digits of the volume are silently lost.", "anchors": ["refextract/references/tag.py:identifiy_journals_re", "refextract/references/tag.py:process_reference_line"]}
{"id": "C74", "title": "Writing recognised items into the line never fails", "statement": "Whatever journals, report numbers and publishers are recognised in a line, replacing them by their standard forms raises no error.", "quantifier": "every line and knowledge base", "why_tests_cant": "Every combination of recognised items and knowledge bases.", "anchors": ["refextract/references/tag.py:process_reference_line", "refextract/references/tag.py:add_tagged_journal"]}
{"id": "C75", "title": "Report number tagging keeps the text around the number", "statement": "Replacing a recognised report number removes only the number itself and the brackets around it; separators next to it are kept, so citations separated by a semicolon stay separate.", "quantifier": "every line and report number position", "why_tests_cant": "Depends on the character right in front of the number.", "anchors": ["refextract/references/tag.py:add_tagged_report_number"]}
{"id": "C76", "title": "Book numbers behind their label are recognised and reported without it", "statement": "A book number of ten to twenty-five digits and hyphens printed behind 'ISBN', 'ISBN-10', 'ISBN-13' or 'International Standard Book Number' is recognised as an ISBN, the reported number is the printed one without the label, and the rest of the line is kept.", "quantifier": "every line of text", "why_tests_cant": "Labels, separators and numbers combine freely; which part of a line a backtracking pattern takes as label and which as number is only settled by considering all of them.", "anchors": ["refextract/references/tag.py:tag_isbn", "refextract/references/regexs.py:re_isbn"]}
{"id": "C77", "title": "New-style arXiv identifiers are reported in one normal form", "statement": "Every identifier arXiv:YYMM.NNNN(N), or YYMM.NNNN(N) on its own, with or without version and category, is reported as 'arXiv:YYMM.NNNN' followed by the printed category; the version is dropped and the rest of the line is kept.", "quantifier": "every line of text and every list of years", "why_tests_cant": "Four passes of patterns with optional parts over arbitrary text; the order in which the parts are tried decides what is lost.", "anchors": ["refextract/references/tag.py:tag_arxiv", "refextract/references/regexs.py:re_arxiv", "refextract/references/regexs.py:re_new_arxiv"]}
{"id": "C78", "title": "Old-style arXiv identifiers are reported under their archive", "statement": "Every identifier archive/YYMMNNN of a known archive, and the form arXiv:YYMMNNN [archive], is reported as 'archive/YYMMNNN' with the name of its archive, and nothing else is changed.", "quantifier": "every line of text", "why_tests_cant": "Forty patterns are applied one after the other, each to the result of the ones before; names that end like others interact.", "anchors": ["refextract/references/tag.py:tag_arxiv_more", "refextract/references/regexs.py:old_arxiv"]}
{"id": "C79", "title": "Citations of Proceedings of Science are recognised with volume, year and page", "statement": "Exactly the citations of the journal PoS in one of the four forms (year first, in the middle, last, or volume in brackets) are replaced by the journal with volume name and number joined, the printed year (or the one in the volume) and the page; recognition never fails with an error.", "quantifier": "every line of text", "why_tests_cant": "Any text around and between the parts; a failed search for the year would raise an error.", "anchors": ["refextract/references/tag.py:tag_pos_volume", "refextract/references/regexs.py:re_pos"]}
{"id": "C80", "title": "ATLAS conference notes are reported under their normal name", "statement": "A note printed as ATL-CONF-code or ATLAS-CONF-code is reported as report number ATL-CONF-code if its year is before 2010 and as ATLAS-CONF-code since then; codes inside longer words or paths are left alone, and nothing else in the line is changed.", "quantifier": "every line of text", "why_tests_cant": "The conditions on the characters before and after the code range over all texts.", "anchors": ["refextract/references/tag.py:tag_atlas_conf", "refextract/references/regexs.py:RE_ATLAS_CONF_PRE_2010"]}
{"id": "C81", "title": "Text in quotation marks is reported as title", "statement": "From left to right, each non-empty text between two quotation marks is marked as a title, without the marks; everything else in the line is kept.", "quantifier": "every line of text", "why_tests_cant": "Any number and placement of quotation marks.", "anchors": ["refextract/references/tag.py:tag_quoted_text", "refextract/references/regexs.py:re_quoted"]}
{"id": "C82", "title": "Marking identifiers of fixed shape never fails and changes nothing else", "statement": "For every line, the stage that marks PoS citations, quoted titles, book numbers, arXiv identifiers and ATLAS notes returns a line, namely the cleaned line with exactly these pieces replaced by their marked forms, one kind after the other.", "quantifier": "every line of text and every list of years", "why_tests_cant": "The stages feed each other; only a proof covers all lines.", "anchors": ["refextract/references/tag.py:tag_reference_line"]}
{"id": "C83", "title": "Collaborations of the knowledge base are marked wherever they stand outside other items, as written", "statement": "The entries are taken in order; each is looked for from left to right in the parts of the line not yet inside a marked item, ignoring case and with any white space for a blank. Found text is reported as written without surrounding punctuation. Of the rest of the line only what introduces the name is lost: one bracket, quotation mark or blank, further blanks, and `the` or `and`. Marking never fails and every other character, every tag included, stays.", "quantifier": "every line with properly closed tags, every knowledge base of names without underscores and angle brackets", "why_tests_cant": "Which texts count and what is lost depends on the preference order of an alternation, a lookahead and back-references to shifted positions; tests show single names in single lines.", "anchors": ["refextract/references/tag.py:identify_and_tag_collaborations", "refextract/references/kbs.py:build_collaborations_kb", "refextract/references/tag.py:process_reference_line"]}
{"id": "C84", "title": "Every row of a knowledge base counts; of rows with the same search term the last", "statement": "In the tables of books, publishers and collaborations every search term of the file is looked for; where a term is given twice, the last row counts; the order is that of first appearance; a book without a title column raises an IndexError.", "quantifier": "every list of rows", "why_tests_cant": "It is a statement about all files, including those with repeated terms, which the shipped ones hardly have.", "anchors": ["refextract/references/kbs.py:build_publishers_kb", "refextract/references/kbs.py:build_books_kb", "refextract/references/kbs.py:build_collaborations_kb"]}
{"id": "C85", "title": "An entry `X Collaboration` is also recognised where only `X` is written", "statement": "Where no word character stands before the name of a collaboration and a delimiter or white space stands behind it, the name is recognised with or without the word Collaboration.", "quantifier": "every line and every such entry", "why_tests_cant": "The word is optional in the pattern, but the blank in front of it is not; tests only use names followed by the word.", "anchors": ["refextract/references/kbs.py:build_collaborations_kb", "refextract/references/tag.py:identify_and_tag_collaborations"]}
{"id": "C86", "title": "Authors are marked group by group outside other items, and the rest of the line stays", "statement": "After the knowledge base's spellings have been put in, groups of authors are recognised from left to right outside the items already marked. Each is replaced by its names between tags that say whether the names are authors, authors with et al., or editors; et al. is written in one way and punctuation and brackets at the ends are removed. A group after et al., or a single author after a stray `and`, is left as text unless marked as editors, or takes in the text before it if this contains further authors. Everything else stays in place, and marking never fails.", "quantifier": "every line with properly closed tags and no line feed that transliteration does not make richer in authors, every knowledge base", "why_tests_cant": "Positions are computed in one version of the line and used in another from the right to the left; tests show single lines.", "anchors": ["refextract/references/tag.py:identify_and_tag_authors", "refextract/references/tag.py:strip_tags"]}
{"id": "C87", "title": "Groups marked as editors are reported as editors", "statement": "A group of names counts as editors exactly if it carries one of the documented marks: ed., eds., edited by, (ed), before the names, or eds., (eds.), editors, (Ed.) behind them.", "quantifier": "every line and every group in it", "why_tests_cant": "The marks are optional parts of a pattern of 17 kB; whether a text is read as a mark, as part of a name or not at all depends on its preferences.", "anchors": ["refextract/authors/regexs.py:make_auth_regex_str", "refextract/references/tag.py:identify_and_tag_authors"]}
{"id": "C88", "title": "Authors written as initials and surname are found wherever they stand", "statement": "Where an author is written with one to five initials and a surname, perhaps with a particle such as van or van der, behind a blank, a bracket or at the beginning, and with white space, punctuation or the end of the line behind it, the author is recognised as part of a group.", "quantifier": "every line and every such author", "why_tests_cant": "It concerns all names and all surroundings; the lookahead behind the group is not visible in tests that end in punctuation.", "anchors": ["refextract/authors/regexs.py:get_initial_surname_author_pattern", "refextract/authors/regexs.py:make_auth_regex_str", "refextract/references/tag.py:identify_and_tag_authors"]}
{"id": "C89", "title": "Marking authors does not multiply semicolons", "statement": "The line with authors marked has no more semicolons than the line had; so marking authors does not divide a reference into further ones.", "quantifier": "every line", "why_tests_cant": "A semicolon behind a group is put in again next to the one that stays; tests with several references look at the first authors only.", "anchors": ["refextract/references/tag.py:identify_and_tag_authors", "refextract/references/engine.py:split_citations_iter"]}
{"id": "C90", "title": "Recognising authors does not change the spelling of the rest of the reference", "statement": "Transliteration serves to recognise authors; titles and other text are reported in the letters of the document.", "quantifier": "every line, every transliteration", "why_tests_cant": "The line is replaced as a whole when transliterating brings one more author to light, which depends on the letters of all names.", "anchors": ["refextract/references/tag.py:identify_and_tag_authors"]}
{"id": "C91", "title": "Every reference of a string carries its text, and nothing of the string is lost", "statement": "The references returned for a string come in its order, every one with the text it was made from; these texts put together are the string but for white space and hyphens, when the string is given as a list of references.", "quantifier": "every string, every set of knowledge bases, every format, with or without linking", "why_tests_cant": "How lines are put together depends on markers, indentation and blank lines of the whole string; tests give a few short lists.", "anchors": ["refextract/references/api.py:extract_references_from_string", "refextract/references/text.py:rebuild_reference_lines"]}
{"id": "C92", "title": "Every entry of the list of references accounts for its raw reference", "statement": "For a list of raw references the result has one entry for each, at the same place, whose raw text is all of the raw reference but for white space.", "quantifier": "every list of strings, every set of knowledge bases", "why_tests_cant": "Only the first of the references found in an entry is kept, and what is found first depends on its markers and white space; tests give entries that start with their marker or text.", "anchors": ["refextract/extract.py:extract_references_from_list", "refextract/references/api.py:extract_references_from_string"]}
{"id": "C93", "title": "A string gives no empty reference", "statement": "No reference returned for a string has an empty raw text.", "quantifier": "every string given as a list of references", "why_tests_cant": "An empty reference comes from white space before the first marker, which texts in tests do not have.", "anchors": ["refextract/references/api.py:extract_references_from_string", "refextract/references/text.py:rebuild_reference_lines"]}
{"id": "C94", "title": "Text without '<' never makes extraction fail", "statement": "Extracting the references of a string that contains no '<' (nor a character transliterated with '<') returns references and raises nothing: the placeholders that the tagger writes for DOIs and URLs are never more than the DOIs and URLs that were set aside, whatever journals, report numbers, publishers, authors and collaborations are marked around them.", "quantifier": "every string without '<' whose lines have at most 4300 characters; knowledge bases without '<'; any transliteration that keeps ASCII and white space; any format that does not ask for the last page", "why_tests_cant": "The text and the knowledge bases are arbitrary, and a failure needs a rare interplay of several passes of rewriting.", "anchors": ["refextract/references/api.py:extract_references_from_string", "refextract/references/engine.py:parse_reference_line", "refextract/references/tag.py:tag_reference_line"]}
{"id": "C95", "title": "A list numbered in square brackets is split exactly at its numbers", "statement": "When a text is a list of references whose first lines begin with [1], [2], [3], ... in turn, the references extracted are one block for each item of the list, in the order of the list: every reference of a block has the number of its item as linemarker and exactly the lines of its item as raw text.", "quantifier": "every list of references numbered from one in square brackets, with any number of items, any text and any number of further lines; every knowledge base, library, format and linker", "why_tests_cant": "The number of items, the texts and the line breaks are arbitrary; tests hold a few lists.", "anchors": ["refextract/references/api.py:extract_references_from_string", "refextract/references/text.py:rebuild_reference_lines", "refextract/references/find.py:find_reference_section_no_title_generic"]}
{"id": "C96", "title": "The references of a document are exactly its numbered list", "statement": "When a document consists of text, a line with the title of a reference section, a list of references whose first lines begin with [1], [2], [3], ... in turn, and possibly the title of another section with further text, the references extracted from it are one block for each item of the list, in the order of the list: every reference of a block has the number of its item as linemarker and exactly the lines of its item as raw text. Nothing in front of the title and nothing behind the list appears in any reference.", "quantifier": "every text before and after, every title in any case, every list with any number of items, any text and any number of further lines; every knowledge base, library, format and linker", "why_tests_cant": "The documents, the number of items, the texts and the line breaks are arbitrary; tests hold a few documents, and the search for the end of the section looks two hundred lines ahead.", "anchors": ["refextract/references/api.py:extract_references_from_string", "refextract/references/text.py:extract_references_from_fulltext", "refextract/references/find.py:find_reference_section", "refextract/references/find.py:find_end_of_reference_section", "refextract/references/text.py:rebuild_reference_lines"]}
{"id": "C97", "title": "A text file gives the references of its text", "statement": "Extraction from a plain text file gives the same result as extraction from a string with the content of the file: the same references with the same fields, and the same error if there is one. This holds whether the lines of the file end in a line feed, in a carriage return and a line feed, or in a carriage return, and whether or not the string ends with an end of line; and it holds for a text file downloaded completely from a URL.", "quantifier": "every document with a title and a numbered list of references, every content of a text file with it, every division of the download in chunks; every knowledge base, library, format and linker", "why_tests_cant": "The lines read from a file keep their ends while those of a string do not, so every step of the search for references sees different lines; tests compare at most a few documents.", "anchors": ["refextract/references/api.py:extract_references_from_file", "refextract/references/api.py:extract_references_from_string", "refextract/references/api.py:extract_references_from_url", "refextract/references/engine.py:get_plaintext_document_body", "refextract/extract.py:extract_references_from_file_url", "refextract/references/text.py:rebuild_reference_lines"]}
{"id": "C98", "title": "References do not depend on the references around them", "statement": "The references returned for a list of reference lines are those that each line gives when it is the only one, in the order of the lines; if the extraction fails then one of the lines fails alone with the same error. In particular, giving the raw text of a reference back to the extraction, as a list of references, returns exactly the references that were made from that text, with the same fields and values.", "quantifier": "every list of reference lines, every string in either mode, every raw text of one to 4300 characters; every library, knowledge base, format and linker", "why_tests_cant": "State is carried from line to line: counters, counts of titles, and the dictionary of titles which is changed in place; a test fixes a few neighbouring lines.", "anchors": ["refextract/references/engine.py:parse_references", "refextract/references/engine.py:parse_references_elements", "refextract/references/tag.py:tag_reference_line", "refextract/references/tag.py:sum_2_dictionaries", "refextract/references/api.py:extract_references_from_string", "refextract/references/text.py:rebuild_reference_lines"]}
{"id": "C99", "title": "Earlier extractions do not change later ones", "statement": "An extraction returns the same references whatever was extracted before in the same process, also if earlier extractions failed or used other knowledge bases.", "quantifier": "every finite sequence of earlier calls with arbitrary lines, formats, linkers and journals given by regular expression; every knowledge base", "why_tests_cant": "The loaded knowledge bases are kept and changed in place; a test starts from fresh ones or repeats a single configuration.", "anchors": ["refextract/references/tag.py:tag_reference_line", "refextract/references/kbs.py:get_kbs", "refextract/references/engine.py:parse_references"]}
{"id": "C100", "title": "The reference section begins at the last heading that is followed by a list", "statement": "If a document has headings of a reference section then the extracted references are those below the last heading that is followed by the mark of a first reference, in its line or within the five lines below; other mentions of the heading, as in a table of contents, do not matter. Without a heading the section begins at the last line with the number one that is followed by the number two within ten lines or stands among the last six lines.", "quantifier": "every document, every number and position of headings and numbered lines", "why_tests_cant": "The search keeps and replaces candidates while it goes backwards through the document; which one is left depends on all headings and on the lines below each of them.", "anchors": ["refextract/references/find.py:find_reference_section", "refextract/references/find.py:find_numeration", "refextract/references/find.py:find_numeration_in_title", "refextract/references/find.py:find_numeration_in_body", "refextract/references/find.py:find_reference_section_no_title_generic", "refextract/references/find.py:get_reference_section_beginning", "refextract/references/text.py:extract_references_from_fulltext"]}
{"id": "C101", "title": "A bare numeration after an article continues its journal", "statement": "If a citation of a reference names no journal and follows a citation that does, each of its texts that begins with a numeration (volume, year and page) is reported as an article in the journal named last in the citation before, with the series letter of that journal's volume unless the numeration has its own. The numeration is taken off the text; everything else stays, and no other article is added, removed or changed.", "quantifier": "every list of recognised items of a reference line, every set of special journals and books, with or without a linker", "why_tests_cant": "Which journal is inherited depends on the whole sequence of citations and on shared, mutable elements; a test tries one line at a time.", "anchors": ["refextract/references/engine.py:look_for_implied_ibids", "refextract/references/tag.py:find_numeration", "refextract/references/tag.py:extract_series_from_volume", "refextract/references/record.py:build_reference_fields"]}
{"id": "C102", "title": "A bare numeration is reported as if the title had been repeated", "statement": "After an article, a semicolon and a numeration without a title are reported exactly as if the title of the journal had been written in front of the numeration.", "quantifier": "every journal, every numeration, any number of articles in a row", "why_tests_cant": "The rules for volumes and pages that depend on the journal are many, and apply to any volume.", "anchors": ["refextract/references/engine.py:look_for_implied_ibids", "refextract/references/engine.py:split_citations", "refextract/references/engine.py:handle_special_journals", "refextract/references/engine.py:format_volume"]}
{"id": "C103", "title": "An article in a known journal is reported, exactly", "statement": "A numbered line of plain text that contains the title of a known journal and a numeration (volume with or without series letter, year and page or pages, in any of ten usual spellings), and nothing else that is known, is reported as one reference with exactly these values: the number, the raw line, the text in front, the standard title of the journal, the volume, the year, the page, the formatted article, the text behind, and the year as year of publication. Nothing is missing and nothing is added.", "quantifier": "every number, title, knowledge base, volume, year and page, every plain text in front and behind", "why_tests_cant": "The line goes through some sixty patterns and a dozen passes, each of which could take something away or add something for some text; tests try a few lines.", "anchors": ["refextract/references/api.py:extract_references_from_string", "refextract/references/engine.py:parse_references", "refextract/references/engine.py:parse_reference_line", "refextract/references/tag.py:tag_reference_line", "refextract/references/engine.py:parse_tagged_reference_line", "refextract/references/record.py:build_reference_fields"]}
{"id": "C104", "title": "Links to e-prints and handles are reported as identifiers", "statement": "Every link of a line is reported exactly once and in order: a link to the abstract of an e-print on arxiv.org as the report number arXiv:…, a link to a handle server as the handle, and any other link as it is. The other items of a line that are not articles (report numbers, titles, ISBNs, publishers) come through the same steps changed in the documented ways only: hyphens of old report numbers, marks of editors, known books.", "quantifier": "every sequence of items of a line, every books knowledge base, with and without linking", "why_tests_cant": "A dozen passes rewrite the items of a line in place, and each must leave alone what is not its own; tests show one link at a time.", "anchors": ["refextract/references/engine.py:parse_reference_line", "refextract/references/engine.py:arxiv_urls_to_report_numbers", "refextract/references/engine.py:look_for_hdl_urls", "refextract/references/engine.py:look_for_hdl", "refextract/references/engine.py:format_author_ed", "refextract/references/record.py:build_reference_fields"]}
{"id": "C105", "title": "A known book in quotation marks is reported as in the knowledge base", "statement": "If a title in quotation marks is, case aside, that of a known book, then the title of the knowledge base is reported for it; any other title in quotation marks is reported as it stands. No title is lost, and the texts beside the titles are reported.", "quantifier": "every sequence of items of a line, every books knowledge base", "why_tests_cant": "The element of the title is replaced while the list is walked through; what gets lost depends on what stands beside it.", "anchors": ["refextract/references/engine.py:look_for_books", "refextract/references/engine.py:parse_reference_line", "refextract/references/kbs.py:build_books_kb"]}
{"id": "C106", "title": "A known book of the stated year is found in a text", "statement": "In a citation without book, article, DOI, ISBN or record id whose year is stated, the first text that names the title of a known book of that year, as words of its own, is shortened by the title and the year, and the book is reported; in every other case nothing changes.", "quantifier": "every citation, every books knowledge base", "why_tests_cant": "The position of the title in the text is computed from a copy of the text without punctuation; that the right part is cut out has to hold for every text and title.", "anchors": ["refextract/references/engine.py:look_for_undetected_books", "refextract/references/engine.py:search_for_book_in_misc", "refextract/references/engine.py:is_unknown_citation"]}
{"id": "C107", "title": "Nothing is found in a line of which nothing is known", "statement": "A numbered line of plain text that contains no known title, report number, publisher, collaboration, book or identifier is reported as one reference whose only values are the number, the raw line and the text; if there is a year in the text, the year is reported and taken out of the text. No author, journal, number, link or title is made up.", "quantifier": "every number, every plain text of small letters, digits and punctuation, every knowledge base of which nothing occurs in it, every journal format", "why_tests_cant": "Some sixty patterns are tried on the text, and each of them could take some unlucky text for something; tests try a few texts.", "anchors": ["refextract/references/api.py:extract_references_from_string", "refextract/references/engine.py:parse_references", "refextract/references/tag.py:tag_reference_line", "refextract/references/engine.py:parse_tagged_reference_line", "refextract/references/engine.py:add_year_elements", "refextract/references/record.py:build_reference_fields"]}
{"id": "C108", "title": "The words around a year stay apart", "statement": "When the year of a citation is taken out of a text, nothing else is taken out: the words around it are reported as they were, apart from each other.", "quantifier": "every text and year", "why_tests_cant": "It depends on the white space around each occurrence of the year.", "anchors": ["refextract/references/engine.py:add_year_elements", "refextract/references/regexs.py:remove_year"]}
{"id": "C109", "title": "A report number of a known category is reported exactly", "statement": "In a numbered line of plain text with one report number of a known category and nothing else known, the report number is reported in the standard form of its category with its own numeration, the texts around it are reported (a bracket around the number is dropped), a year in them is reported and taken out, and nothing else is reported. When several categories fit, the longest one counts.", "quantifier": "every number, every plain text around the report number, every knowledge base in which one category finds exactly the report number, every journal format", "why_tests_cant": "The report number is found in a rewritten copy of the line and cut out of the original by counting removed blanks; categories that are parts of each other compete; tests try a few of the thousands of categories.", "anchors": ["refextract/references/api.py:extract_references_from_string", "refextract/references/tag.py:identify_report_numbers", "refextract/references/tag.py:add_tagged_report_number", "refextract/references/engine.py:format_report_number", "refextract/references/engine.py:format_hep", "refextract/references/engine.py:parse_references", "refextract/references/record.py:build_reference_fields"]}
{"id": "C110", "title": "A DOI is reported exactly", "statement": "In a numbered line of plain text with one DOI and nothing else known, the DOI is reported behind `doi:`, as far as it goes but without a full stop at its end. The word that announces it is not reported. The texts in front of it and behind it are reported, a year in them is reported and taken out, and nothing else is reported.", "quantifier": "every number, every plain text around the DOI, every DOI with one slash announced by `doi` in any form or not at all, every knowledge base of which nothing occurs in the texts, every journal format", "why_tests_cant": "The DOI is replaced by a placeholder on which every later pattern is tried, and where the DOI ends depends on the characters behind it; tests try a few DOIs.", "anchors": ["refextract/references/api.py:extract_references_from_string", "refextract/references/engine.py:parse_reference_line", "refextract/references/tag.py:identify_and_tag_DOI", "refextract/references/regexs.py:re_doi", "refextract/references/engine.py:parse_references", "refextract/references/record.py:build_reference_fields"]}
{"id": "C111", "title": "An arXiv identifier is reported exactly", "statement": "In a numbered line of plain text with one arXiv identifier since 2007 behind the word arXiv and nothing else known, the identifier is reported in its standard form: `arXiv:`, year and month, a full stop, the number, and the category behind a blank if there is one. The version is not reported. The texts in front of it and behind it are reported, a year in them is reported and taken out, and nothing else is reported.", "quantifier": "every number, every plain text around the identifier, every identifier with four or five digits, any letter case of the word, any separators, with or without a version of one digit and a category, every knowledge base of which nothing occurs in the texts, every journal format", "why_tests_cant": "Six patterns for arXiv identifiers are tried one after the other and each rewrites the line on which the next is tried, so an identifier could be rewritten twice or its number be read as a year, a volume or an older identifier; tests try a few identifiers.", "anchors": ["refextract/references/api.py:extract_references_from_string", "refextract/references/tag.py:tag_arxiv", "refextract/references/tag.py:tag_arxiv_more", "refextract/references/tag.py:tag_reference_line", "refextract/references/regexs.py:re_arxiv", "refextract/references/regexs.py:re_arxiv_5digits", "refextract/references/engine.py:parse_references", "refextract/references/record.py:build_reference_fields"]}
{"id": "C112", "title": "The rows of a knowledge base file are read completely and exactly", "statement": "Every line of a file of journals, publishers or collaborations that is not a comment gives the two terms that stand on both sides of three hyphens, without the white space around them, in the order of the file. A file with any other line is refused. A table gives the same knowledge base as a file, as a list of pairs and as a dictionary, whatever the line ends of the file.", "quantifier": "every text of a file; every table whose terms can be written in rows", "why_tests_cant": "One pattern with four greedy parts decides where a term ends; lines with more hyphens, white space in odd places and any line end are too many to try.", "anchors": ["refextract/references/kbs.py:load_kb", "refextract/references/kbs.py:load_kb_from_file", "refextract/references/kbs.py:load_kb_from_iterable", "refextract/references/kbs.py:file_resolving", "refextract/references/regexs.py:re_kb_line"]}
{"id": "C113", "title": "A line that is not a row is reported as an error of the knowledge base file", "statement": "Whatever the kind of knowledge base, a line of its file which is neither a comment nor a row is reported as an error of the file, and all other lines are read in order.", "quantifier": "every text of a file of journals, authors, special journals and journals given by regular expressions", "why_tests_cant": "The shipped files have no such lines; the kinds are read by four functions that treat them differently.", "anchors": ["refextract/references/kbs.py:build_authors_kb", "refextract/references/kbs.py:build_journals_re_kb", "refextract/references/kbs.py:build_special_journals_kb", "refextract/references/kbs.py:load_kb_from_file"]}
{"id": "C114", "title": "A URL in a reference is reported exactly", "statement": "A numbered reference that consists of plain text with one URL is reported as one reference with exactly that URL, without a full stop at its end, and with the texts in front of it and behind it as miscellaneous text; the year in the texts is reported as the year.", "quantifier": "every number, every plain text in front and behind, every URL of host and path, every knowledge base that knows nothing in the texts", "why_tests_cant": "Twenty-five patterns repair the line before the URL is looked for and some twenty more look at it afterwards; tests try a handful of URLs while the host, the path and the texts are arbitrary.", "anchors": ["refextract/documents/text.py:get_url_repair_patterns", "refextract/references/tag.py:identify_and_tag_URLs", "refextract/references/engine.py:parse_references", "refextract/references/regexs.py:re_raw_url"]}
{"id": "C115", "title": "Several DOIs in one reference are each reported, in order", "statement": "A numbered reference line of plain text that cites several DOIs yields one reference record per DOI, in the order of the line. Each record holds exactly the number, the raw line, the text in front of its DOI and the DOI itself as it is written, without the punctuation that separates it from the next; the text behind the last DOI is in the last record. The DOI count is the number of DOIs.", "quantifier": "for all numbers, all numbers of DOIs, all plain texts around them, all knowledge bases that know nothing of the line", "why_tests_cant": "Tests contain a handful of lines with two DOIs; that no DOI is lost, merged, reordered or attached to the wrong text holds only if it is shown for every number of DOIs and every text between them.", "anchors": ["refextract/references/tag.py:tag_dois / identify_and_tag_DOI", "refextract/references/engine.py:split_citations_iter", "refextract/references/engine.py:parse_reference_line", "refextract/references/regexs.py:re_doi"]}
{"id": "C116", "title": "The text of a PDF is read completely, page by page", "statement": "When a PDF is read, every character that is not white space in the output of pdftotext comes through, none is added and their order is kept; output that is not UTF-8 is refused. Every line is kept as it is, except that a page break in front of text is put on a line of its own, so that there is one page break line for every page of the document.", "quantifier": "every sequence of bytes that pdftotext may write: every text, every number of pages and lines, every place of the page breaks and of white space", "why_tests_cant": "Page breaks are split off by a pattern with a greedy run of white space, and the form feed is itself white space; which of several page breaks is split off, and what happens to the white space around it, depends on the content of each line, and a few sample PDFs do not show it.", "anchors": ["refextract/documents/pdf.py:convert_PDF_to_plaintext", "refextract/documents/text.py:get_page_break_positions"]}
{"id": "C117", "title": "A PDF gives the references of its text", "statement": "Extraction from a PDF file gives the references that extraction from a string with the text of the PDF gives, where the headers and footers repeated from page to page are left out of the text; references may run over page breaks. Bytes before the header and after the end of the PDF do not matter. The references get the TeX keys and links found in the file, in order, if there are as many keys as references, and are otherwise the same. An error for the text is an error for the file. A file that is neither text nor PDF is refused as a document of unknown type.", "quantifier": "every file with a PDF part, every number of pages of every length, every document with a title and a numbered list of references on these pages, every list of TeX keys; every knowledge base, library, format and linker", "why_tests_cant": "Lines that follow a page break lose their ends while the others keep them, and headers and footers are guessed from similar lines on other pages; where pages break relative to the title and the references is arbitrary, and tests have a few PDFs.", "anchors": ["refextract/references/api.py:extract_references_from_file", "refextract/references/engine.py:get_plaintext_document_body", "refextract/references/engine.py:clean_pdf_file", "refextract/documents/pdf.py:convert_PDF_to_plaintext", "refextract/documents/text.py:remove_page_boundary_lines"]}
{"id": "C118", "title": "A reference section does not run into a figure", "statement": "Where the numbers at the axes of a figure follow the references, that is, four lines of numbers below each other, the section of references ends before them; nothing of them becomes part of a reference, with and without blank lines between the lines. Apart from that, a section ends only before the heading of a following section and at the end of the document.", "quantifier": "every document in which a reference section is found, every position of the lines of numbers, every line", "why_tests_cant": "Which lines count as numbers, and whether four of them follow each other, depends on all characters of all lines of a document and on blank lines between them; the tests have no document with a figure behind the references.", "anchors": ["refextract/references/find.py:find_end_of_reference_section"]}
{"id": "C119", "title": "An article and its DOI are reported together", "statement": "A numbered reference line of plain text that cites an article in a known journal (title, volume, year, pages) and, behind punctuation, the article's DOI yields exactly one reference record. It holds exactly the number, the raw line, the text in front, the standard title, the volume with its series, the year and the page as written, the one-line form of the article, the text between, the DOI as written, the text behind and the year. Neither the article nor the DOI is split off into a record of its own; one title and one DOI are counted.", "quantifier": "for all numbers, all journals known under any title, all volumes, years and pages in the supported notations, all DOIs, all plain texts around them, all knowledge bases that know nothing else of the line", "why_tests_cant": "Tests hold a few lines in which an article is followed by a DOI; that the mark put in place of the DOI never disturbs the recognition of the numeration in front of it, and that the two always stay in one record, must hold for every title, numeration, DOI and surrounding text.", "anchors": ["refextract/references/tag.py:identify_and_tag_DOI", "refextract/references/tag.py:process_reference_line", "refextract/references/engine.py:split_citations_iter", "refextract/references/engine.py:parse_reference_line", "refextract/references/record.py:build_reference_fields"]}
{"id": "C120", "title": "An article and its arXiv identifier are reported together", "statement": "A numbered reference line of plain text that cites an article in a known journal (title, volume, year, pages) and, behind punctuation, an arXiv identifier since 2007 with the word arXiv yields exactly one reference record. It holds exactly the number, the raw line, the text in front, the standard title, the volume with its series, the year and the page as written, the one-line form of the article, the text between, the identifier in its standard form with its category and without its version, the text behind and the year of the article. Neither the article nor the identifier is split off into a record of its own, the digits of the identifier are not taken for part of the numeration, and one title and one report number are counted.", "quantifier": "for all numbers, all journals known under any title, all volumes, years and pages in the supported notations, all arXiv identifiers with four or five digits and any spelling of the announcing word the code accepts, all plain texts around them, all knowledge bases that know nothing else of the line", "why_tests_cant": "Tests hold a few lines of this most usual kind of citation in physics; that the identifier is tagged before the journal is searched and never disturbs the numeration in front of it, and that the two always stay in one record, must hold for every title, numeration, identifier and surrounding text.", "anchors": ["refextract/references/tag.py:tag_arxiv", "refextract/references/tag.py:process_reference_line", "refextract/references/engine.py:split_citations_iter", "refextract/references/engine.py:parse_reference_line", "refextract/references/record.py:build_reference_fields"]}
{"id": "C121", "title": "The reference list of a document is reported record by record, with exactly its contents", "statement": "When the reference section of a document is a list numbered [1], [2], [3], ... in square brackets, and each reference of it - on one line or broken over several - is plain text citing an article in a known journal, such an article with its DOI or arXiv identifier, a known report number, one or several DOIs, an arXiv identifier or a secure URL, or text of which nothing is known, then extraction from the text of the document succeeds and returns exactly the records of these references, in the order of the list. Each record holds exactly the values its reference determines and nothing else: no other field, no value of a neighbouring reference, nothing of the text before the list or behind it. A text file and a PDF file with the same text give the same records.", "quantifier": "for all documents of that form with any text before and behind, all lists of any length and any mixture of such references, all ways to break a reference into lines, all numbers, titles, numerations, DOIs, identifiers, URLs and surrounding plain texts, and all knowledge bases", "why_tests_cant": "A test fixes one document. That finding the section, rebuilding broken lines, tagging, splitting and building of records work together on every list, whatever its length and the order and mixture of its references, is a statement about all of them; a failure in any stage or in what is carried from one line to the next would show in some document only.", "anchors": ["refextract/references/api.py:extract_references_from_string", "refextract/references/api.py:extract_references_from_file", "refextract/references/text.py:extract_references_from_fulltext", "refextract/references/text.py:rebuild_reference_lines", "refextract/references/engine.py:parse_references", "refextract/references/engine.py:parse_reference_line", "refextract/references/tag.py:tag_reference_line", "refextract/references/record.py:build_references"]}
{"id": "C122", "title": "Linking adds record ids and changes nothing else", "statement": "Let a linker callback be given that answers an element without looking at earlier answers and raises nothing but KeyError and IndexError. With the callback, extraction of the same lines (or of the same text) fails exactly when it fails without it, and with the same error. Otherwise it returns the same number of references and the same statistics, and each reference is the reference returned without the callback, or that reference with one more key recid holding the text of one true answer of the callback; without the callback no reference has the key recid. If the callback finds a record for everything it is asked, every reference that holds more than its raw text and marker has a recid.", "quantifier": "all lists of lines, all texts, all knowledge bases, all reference formats, all such callbacks", "why_tests_cant": "The callback is called twice on every element, before the line is split into citations and after years and books are added, and elements compared for removal of duplicates already carry its answers; a test with one callback on one line cannot show that no answer changes splitting, implied journals, years, books, duplicates or the statistics.", "anchors": ["refextract/references/engine.py:associate_recids", "refextract/references/engine.py:add_recid_elements", "refextract/references/engine.py:parse_reference_line", "refextract/references/record.py:build_reference_fields"]}
{"id": "C123", "title": "The reference format changes the journal references and nothing else", "statement": "For any two reference formats that do not ask for the last page, extraction of the same lines (or of the same text) fails with both or with none, and with the same error. Otherwise both return the same number of references and the same statistics, and corresponding references have the same values under every key other than journal_reference, where the same articles are written in the one and in the other format, articles whose text would be empty left out.", "quantifier": "all lists of lines, all texts, all knowledge bases, all linker callbacks, all pairs of formats without the last page", "why_tests_cant": "The format is applied to dictionaries filled in by many different steps, and one missing entry makes the whole extraction fail with KeyError; tests use the default format and two others on lines chosen by hand.", "anchors": ["refextract/references/record.py:add_journal_subfield", "refextract/references/record.py:build_reference_fields", "refextract/references/engine.py:parse_references"]}
{"id": "C124", "title": "The DOIs reported for a reference are those its line cites", "statement": "The references made from a line report the DOIs that the line cites and no others: a reported DOI is never made up and never one of another line, every DOI the line cites is reported, and no internal mark of the program shows in the texts and titles that are reported.", "quantifier": "for all lists of reference lines, knowledge bases, reference formats and linkers", "why_tests_cant": "DOIs are set aside, replaced by a mark, and put back in the order of the marks that survive tagging with every knowledge base; a test fixes one line and one order, and cannot show that no arrangement of titles, journals and marks pairs a reference with a DOI of something else.", "anchors": ["refextract/references/engine.py:parse_reference_line", "refextract/references/engine.py:parse_tagged_reference_line", "refextract/references/tag.py:identify_and_tag_DOI", "refextract/references/tag.py:tag_quoted_text"]}
{"id": "C125", "title": "The URLs reported for a reference are those its line cites", "statement": "The references made from a line report the URLs that the line cites, after repair of broken URLs, and no others: a reported URL or description is never made up and never one of another line, and every URL the line cites is reported.", "quantifier": "for all lists of reference lines, knowledge bases, reference formats and linkers", "why_tests_cant": "URLs are cut out of the line with the DOIs already replaced, kept in a list and put back in the order of the marks that survive; a test fixes one line and one order, and cannot show that no arrangement of titles, links and marks pairs a reference with a URL of something else.", "anchors": ["refextract/references/engine.py:parse_reference_line", "refextract/references/engine.py:parse_tagged_reference_line", "refextract/references/tag.py:identify_and_tag_URLs", "refextract/references/tag.py:tag_quoted_text"]}
