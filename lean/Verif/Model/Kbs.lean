import Verif.Model.Tag

/-!
# Building the knowledge bases

Model of `/repo/refextract/references/kbs.py`. Files are given as the list of their lines. Patterns
whose text comes from a knowledge base are compiled by a parameter, `re.compile`; patterns made by
`re.escape` are built directly.
-/

namespace Py

/-! ### Lines of a knowledge base file -/

/-- The two terms of a line, by `re_kb_line` (`kbs.py:474-477`, `regexs.py:315-317`). -/
def kbLine [UnicodeDB] (raw : Str) : Option (Str × Str) :=
  (search Rx.re_kb_line raw).map fun m => (m.tgroup G.seek, m.tgroup G.repl)

/-- The pairs produced by `lazy_parser` (`kbs.py:466-478`): comments are skipped, the first line
that has not the right form raises. The parser is lazy, but every builder reads it to the end and
has no effect outside before that. -/
def kbPairs [UnicodeDB] : List Str → Py (List (Str × Str))
  | [] => .ok []
  | l :: ls =>
    if startsWith l ['#'] then kbPairs ls
    else match kbLine (rstripP (inSet ['\n']) l) with
      | none => .error .valueError
      | some p => do
        let r ← kbPairs ls
        return p :: r

/-! ### Journals -/

/-- `(?<!\w)(…)\W` around an escaped title (`kbs.py:534`). -/
def seekRe (s : Str) : Re := .behind true [⟨false, false, [.word]⟩] ⬝ .group 1 (.str s) ⬝ .set ⟨false, false, [.nword]⟩

/-- `(?<!\/)\b(…)[^A-Z0-9]` around an escaped title (`kbs.py:550`). -/
def replRe (s : Str) : Re :=
  .behind true [⟨false, false, [.ch '/']⟩] ⬝ .wordb ⬝ .group 1 (.str s) ⬝ .set ⟨true, false, [.range 'A' 'Z', .range '0' '9']⟩

/-- What `build_journals_kb` returns: patterns, standard titles, titles in search order. -/
structure JournalKb where
  pats : List (Str × Re)
  std : List (Str × Str)
  keys : List Str
deriving DecidableEq

/-- A search term as it is stored (`kbs.py:525`). -/
def seekPhrase [UnicodeDB] (s : Str) : Str := upper (replace s ['.'] [' '])

/-- A replacement term as a search term (`kbs.py:543-546`). -/
def replPhrase [UnicodeDB] (s : Str) : Str :=
  strip (sub Rx.re_group_captured_multiple_space (fun _ => [' ']) (sub Rx.re_punctuation (fun _ => [' ']) (upper s)))

/-- One pair (`kbs.py:522-538`). -/
def seekStep [UnicodeDB] (kb : JournalKb) (p : Str × Str) : JournalKb :=
  ⟨dset kb.pats (seekPhrase p.1) (seekRe (seekPhrase p.1)), dset kb.std (seekPhrase p.1) p.2, kb.keys ++ [seekPhrase p.1]⟩

/-- One replacement term (`kbs.py:542-554`). -/
def replStep [UnicodeDB] (kb : JournalKb) (t : Str) : JournalKb :=
  if (dget kb.pats (replPhrase t)).isSome then kb
  else ⟨dset kb.pats (replPhrase t) (replRe (replPhrase t)), dset kb.std (replPhrase t) t, kb.keys ++ [replPhrase t]⟩

/-- The keys of `repl_terms` (`kbs.py:530`). -/
def replTerms (pairs : List (Str × Str)) : List Str := (dupdate [] (pairs.map fun p => (p.2, ()))).map (·.1)

/-- `build_journals_kb` (`kbs.py:484-560`). -/
def buildJournals [UnicodeDB] (pairs : List (Str × Str)) : JournalKb :=
  let kb := pairs.foldl seekStep ⟨[], [], []⟩
  let kb := (replTerms pairs).foldl replStep kb
  { kb with keys := sortBy (fun a b => decide (b.length ≤ a.length)) kb.keys }

/-! ### Report numbers -/

/-- `order_reportnum_patterns_bylen` (`kbs.py:98-114`). -/
def orderMasks [UnicodeDB] (masks : List Str) : List (Nat × Str) :=
  sortBy (fun a b => decide (b.1 ≤ a.1))
    (masks.map fun p => ((sub Rx.re_regexp_character_class (fun _ => ['1']) p).length, p))

/-- The replacements of `institute_num_pattern_to_regex` (`kbs.py:151-161`). -/
def maskReplacements : List (Str × Str) :=
  [(py! "9", py! "\\d"), (py! "w+", py! "\\w+"), (py! "a", py! "[A-Za-z]"), (py! "v", py! "[Vv]"),
   (py! "mm", py! "(0[1-9]|1[0-2])"), (py! "yyyy", py! "[12]\\d{3}"), (py! "yy", py! "\\d\\d"), (py! "s", py! "\\s*"),
   (py! "/", py! "\\/")]

/-- `institute_num_pattern_to_regex` (`kbs.py:133-174`). -/
def maskToRegex [UnicodeDB] (p : Str) : Str :=
  let p := maskReplacements.foldl (fun p r => replace p r.1 r.2) p
  let p := sub Rx.re_extract_quoted_text (fun m => m.tgroup 1) p
  sub Rx.re_extract_char_class (fun m => py! "( [" ++ m.tgroup 1 ++ py! "])?") p

/-- `create_institute_numeration_group_regexp_pattern` (`kbs.py:117-130`). -/
def numerationGroup [UnicodeDB] (masks : List (Nat × Str)) : Str :=
  py! "(?P<numn>" ++ join (py! "|") (masks.map fun p => maskToRegex p.2) ++ py! ")"

/-- The text of the pattern for one category (`kbs.py:269-275`). -/
def categPattern [UnicodeDB] (categ numeration : Str) : Str :=
  py! "(?:^|[^a-zA-Z0-9\\/\\.\\-])([\\[\\(]?(?P<categ>" ++ strip categ ++ py! ")" ++ numeration ++ py! "[\\]\\)]?)"

/-- The state of `build_reportnum_kb`: patterns, standard categories, categories and masks of the
current institute, line number. -/
structure ReportKb where
  pats : List ((Nat × Str) × Re)
  std : List ((Nat × Str) × Str)
  categs : List (Str × Str)
  masks : List Str
  line : Nat

/-- `_add_institute_preprint_patterns` (`kbs.py:222-283`). `compile` stands for `re.compile`. -/
def addInstitute [UnicodeDB] (compile : Str → Py Re) (kb : ReportKb) : Py ReportKb :=
  if kb.categs.isEmpty || kb.masks.isEmpty then .ok kb
  else do
    let num := numerationGroup (orderMasks kb.masks)
    kb.categs.foldlM (fun k c => do
      let r ← compile (categPattern c.1 num)
      return { k with pats := dset k.pats (kb.line, c.1) r, std := dset k.std (kb.line, c.1) c.2 }) kb

/-- `^\*{5}\s*(.+)\s*\*{5}$` (`kbs.py:302`). -/
def re_institute_name : Re :=
  .bos ⬝ Re.times 5 (Re.ch '*') ⬝ .star true Re.space ⬝ .group 1 (Re.plus Re.any) ⬝ .star true Re.space ⬝ Re.times 5 (Re.ch '*') ⬝ .eos

/-- `^\s*(\w.*)\s*---\s*(\w.*)\s*$` (`kbs.py:305-307`). -/
def re_preprint_classification : Re :=
  .bos ⬝ .star true Re.space ⬝ .group 1 (Re.word ⬝ .star true Re.any) ⬝ .star true Re.space ⬝ .str (py! "---") ⬝ .star true Re.space ⬝
    .group 2 (Re.word ⬝ .star true Re.any) ⬝ .star true Re.space ⬝ .eos

/-- `^\<(.+)\>$` (`kbs.py:310`). -/
def re_numeration_pattern : Re := .bos ⬝ Re.ch '<' ⬝ .group 1 (Re.plus Re.any) ⬝ Re.ch '>' ⬝ .eos

/-- One line (`kbs.py:318-362`). -/
def reportLine [UnicodeDB] (compile : Str → Py Re) (kb : ReportKb) (raw : Str) : Py ReportKb :=
  if startsWith raw ['#'] then .ok kb
  else
    let kb := { kb with line := kb.line + 1 }
    if (search re_institute_name raw).isSome then do
      let k ← addInstitute compile kb
      return { k with categs := [], masks := [] }
    else match search re_preprint_classification raw with
      | some m => .ok { kb with categs := kb.categs ++ [(m.tgroup 1, m.tgroup 2)] }
      | none => match search re_numeration_pattern raw with
        | some m => .ok { kb with masks := kb.masks ++ [m.tgroup 1] }
        | none => .ok kb

/-- `build_reportnum_kb` (`kbs.py:177-377`). -/
def buildReports [UnicodeDB] (compile : Str → Py Re) (lines : List Str) :
    Py (List ((Nat × Str) × Re) × List ((Nat × Str) × Str)) := do
  let kb ← lines.foldlM (reportLine compile) ⟨[], [], [], [], 0⟩
  let kb ← addInstitute compile kb
  return (kb.pats, kb.std)

/-! ### The other knowledge bases -/

/-- `build_special_journals_kb` (`kbs.py:380-398`). A set: the order does not matter. -/
def buildSpecial [UnicodeDB] (lines : List Str) : List Str :=
  ((lines.filter fun l => !startsWith l ['#']).map strip).filter fun l => !l.isEmpty

/-- `build_authors_kb` (`kbs.py:420-434`): lines of another form are passed over. -/
def buildAuthors [UnicodeDB] (lines : List Str) : List (Str × Str) :=
  (lines.filter fun l => !startsWith l ['#']).filterMap kbLine

/-- `build_journals_re_kb` (`kbs.py:437-458`): a line of another form raises an `AttributeError`. -/
def buildJournalsRe [UnicodeDB] (lines : List Str) : Py (List (Str × Str)) :=
  (lines.filter fun l => !startsWith l ['#']).mapM fun l => match kbLine l with
    | some p => .ok p
    | none => .error .attributeError

/-- `build_books_kb` (`kbs.py:401-407`), given the rows of the file: the last row with a title counts. -/
def buildBooks [UnicodeDB] (rows : List (List Str)) : Py (List (Str × List Str)) :=
  rows.foldlM (fun d row => match row[1]? with
    | some t => .ok (dset d (upper t) row)
    | none => .error .indexError) []

/-- `build_publishers_kb` (`kbs.py:410-417`), given the pairs of the file. `compile` stands for
`re.compile` with `re.I`. -/
def buildPublishers (compile : Str → Py Re) (pairs : List (Str × Str)) : Py (List (Str × Re × Str)) :=
  pairs.foldlM (fun kb p => do
    let r ← compile (py! "(\\b|^)" ++ p.1 ++ py! "(\\b|$)")
    return dset kb p.1 (r, p.2)) []

/-- The text of the pattern for a collaboration (`kbs.py:566-571`). -/
def collabPattern (s : Str) : Str :=
  let s := replace s [' '] (py! "\\s")
  let s := replace s (py! "Collaboration") (py! "(?:\\s*coll(?:aborations?|\\.)?)?")
  py! "(?:^|[\\(\"\\[\\s]|(?<=\\W))\\s*(?:(?:the|and)\\s+)?" ++ ['('] ++ s ++ [')'] ++ py! "(?=$|[><\\]\\)\"\\s.,:])"

/-- `build_collaborations_kb` (`kbs.py:563-574`), given the pairs of the file. -/
def buildCollaborations (compile : Str → Py Re) (pairs : List (Str × Str)) : Py (List (Str × Re)) :=
  pairs.foldlM (fun kb p => do
    let r ← compile (collabPattern p.1)
    return dset kb p.2 r) []

/-- What `re.compile` gives for a name without special characters, case-insensitively: a blank stands for
any white space (`kbs.py:569`). -/
def nameRe : Str → Re
  | [] => .eps
  | c :: r => (if c = ' ' then Re.space else Re.chI c) ⬝ nameRe r

/-- `(?:^|[\(\"\[\s]|(?<=\W))\s*(?:(?:the|and)\s+)?` (`kbs.py:566`). -/
def collabLeadRe : Re :=
  (Re.alts [.bos, .set ⟨false, false, [.ch '(', .ch '"', .ch '[', .space]⟩, .behind false [⟨false, false, [.nword]⟩]]) ⬝
    (.star true (Re.space)) ⬝ Re.opt ((Re.alts [Re.strI (py! "the"), Re.strI (py! "and")]) ⬝ (Re.plus (Re.space)))

/-- `(?:\s*coll(?:aborations?|\.)?)?` (`kbs.py:567`). -/
def collabWordRe : Re :=
  Re.opt ((.star true (Re.space)) ⬝ (Re.strI (py! "coll")) ⬝ Re.opt (Re.alts [(Re.strI (py! "aboration")) ⬝ (Re.opt (Re.chI 's')), Re.ch '.']))

/-- `(?=$|[><\]\)\"\s.,:])` (`kbs.py:568`). -/
def collabEndRe : Re :=
  .look false (Re.alts [.eos, .set ⟨false, false, [.ch '>', .ch '<', .ch ']', .ch ')', .ch '"', .space, .ch '.', .ch ',', .ch ':']⟩])

/-- What `re.compile` gives for an entry of the knowledge base (`kbs.py:563-572`) which is a name without special
characters; with `coll` the name is followed by a blank and the word `Collaboration`. -/
def collabRe (name : Str) (coll : Bool) : Re :=
  collabLeadRe ⬝ .group 1 (nameRe name ⬝ if coll then Re.space ⬝ collabWordRe else .eps) ⬝ collabEndRe

end Py
