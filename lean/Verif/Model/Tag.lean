import Verif.Model.Lines
import Verif.Model.Numeration
import Verif.Py.Dict
import Verif.Py.Sort

/-!
# Tagging a reference line

Model of `/repo/refextract/references/tag.py`.
-/

namespace Py

/-- What comes from outside the project: `unidecode`, `urllib.parse.unquote`, and the alternatives
of two-digit years that `regexs.py:264-270` builds from today's date. -/
structure Lib where
  unidecode : Str → Str
  unquote : Str → Str
  years : Re
  years5 : Re

/-- The knowledge bases read when tagging (`kbs.py:55-88`). Compiled patterns are `Re`. Of the
dictionary value for a publisher (`kbs.py:415-416`) the pattern and the replacement are kept. -/
structure TagKbs where
  /-- `kbs["journals"][0]`: title to pattern -/
  journalPats : List (Str × Re)
  /-- `kbs["journals"][1]`: title to standard title -/
  journalStd : List (Str × Str)
  /-- `kbs["journals"][2]`: titles in search order -/
  journalKeys : List Str
  /-- `kbs["journals_re"]`: pattern source, pattern, journal -/
  journalsRe : List (Str × Re × Str)
  /-- `kbs["report-numbers"][0]` -/
  reportPats : List ((Nat × Str) × Re)
  /-- `kbs["report-numbers"][1]` -/
  reportStd : List ((Nat × Str) × Str)
  /-- `kbs["publishers"]` -/
  publishers : List (Str × Re × Str)
  /-- `kbs["authors"]` -/
  authors : List (Str × Str)
  /-- `kbs["collaborations"]` -/
  collaborations : List (Str × Re)

/-- `"_" * n` -/
def underscores (n : Nat) : Str := List.replicate n '_'

/-- `line[:start] + text + line[stop:]` -/
def splice (line : Str) (start : Nat) (text : Str) (stop : Nat) : Str :=
  line.take start ++ text ++ line.drop stop

/-- The text of a group that takes part in every match of its pattern, in a replacement template. -/
def Match.tgroup (m : Match) (g : Nat) : Str := (m.group g).getD []

/-! ### Identifiers with fixed patterns -/

/-- `wash_volume_tag` (`tag.py:335-336`). -/
def washVolumeTag [UnicodeDB] (line : Str) : Str :=
  sub Rx.re_wash_volume_tag (fun m => py! "<cds.VOL>" ++ m.tgroup 1 ++ m.tgroup 2 ++ py! "</cds.VOL>") line

/-- `tag_isbn` (`tag.py:339-341`). -/
def tagIsbn [UnicodeDB] (line : Str) : Str :=
  sub Rx.re_isbn (fun m => py! "<cds.ISBN>" ++ m.tgroup G.code ++ py! "</cds.ISBN>") line

/-- `tag_quoted_text` (`tag.py:344-351`). -/
def tagQuoted [UnicodeDB] (line : Str) : Str :=
  sub Rx.re_quoted (fun m => py! "<cds.QUOTED>" ++ m.tgroup G.title ++ py! "</cds.QUOTED>") line

/-- The replacement made by `tag_arxiv` (`tag.py:365-373`). A missing group would be shown as `None`. -/
def arxivTag (m : Match) : Str :=
  let suffix := match m.group G.suffix with
    | some (c :: s) => ' ' :: c :: s
    | _ => []
  py! "<cds.ARXIV>arXiv:" ++ showVal (m.group G.year) ++ showVal (m.group G.month) ++ ['.'] ++ showVal (m.group G.num)
    ++ suffix ++ py! "</cds.ARXIV>"

/-- `tag_arxiv` (`tag.py:354-379`). -/
def tagArxiv [UnicodeDB] (lib : Lib) (line : Str) : Str :=
  let line := sub Rx.re_arxiv_5digits arxivTag line
  let line := sub Rx.re_arxiv arxivTag line
  let line := sub (Rx.re_new_arxiv_5digits lib.years5) arxivTag line
  sub (Rx.re_new_arxiv lib.years) arxivTag line

/-- The pattern for one archive name (`regexs.py:241-252`). -/
def oldArxivRe (name : Re) : Re := Rx.old_arxiv_lead ⬝ (.group G.name name) ⬝ Rx.old_arxiv_numbers

/-- The replacement for an old identifier (`tag.py:391-393`). -/
def oldArxivTag (repl : Option Str) (m : Match) : Str :=
  py! "<cds.ARXIV>" ++ repl.getD (m.tgroup G.name) ++ ['/'] ++ m.tgroup G.num ++ py! "</cds.ARXIV>"

/-- `tag_arxiv_more` (`tag.py:382-394`). -/
def tagArxivMore [UnicodeDB] (line : Str) : Str :=
  let line := sub Rx.RE_ARXIV_CATCHUP
    (fun m => m.tgroup G.suffix ++ ['/'] ++ m.tgroup G.year ++ m.tgroup G.month ++ m.tgroup G.num) line
  Rx.old_arxiv.foldl (fun l p => sub (oldArxivRe p.1) (oldArxivTag p.2) l) line

/-- `pattern.sub(f, s)` with a replacement function that may raise: the first exception counts. -/
def subPy [UnicodeDB] (r : Re) (f : Match → Py Str) (s : Str) : Py Str := do
  let parts ← (scan r s).mapM fun p => match p with
    | .ch c => Except.ok [c]
    | .hit m => f m
  return parts.flatten

/-- The year of a PoS citation (`tag.py:405-412`). `hasYear` tells whether the pattern has a group
`year`; without one, `match.group("year")` is the caught `IndexError`. -/
def posYear [UnicodeDB] (hasYear : Bool) (m : Match) : Py (Option Str) :=
  if hasYear then .ok (m.group G.year)
  else match m.group G.volume_num with
    | none => .error .typeError
    | some v => match search Rx.re_pos_year_num v with
      | none => .error .attributeError
      | some g => .ok (some g.txt)

/-- The replacement made by `tag_pos_volume` (`tag.py:403-424`). -/
def posTag [UnicodeDB] (hasYear : Bool) (m : Match) : Py Str := do
  let year ← posYear hasYear m
  let yr := match year with
    | some (c :: y) => py! " <cds.YR>(" ++ stripP (inSet ['(', ')']) (strip (c :: y)) ++ py! ")</cds.YR>"
    | _ => []
  return py! "<cds.JOURNAL>PoS</cds.JOURNAL> <cds.VOL>" ++ showVal (m.group G.volume_name) ++ showVal (m.group G.volume_num)
    ++ py! "</cds.VOL>" ++ yr ++ py! " <cds.PG>" ++ showVal (m.group G.page) ++ py! "</cds.PG>"

/-- The PoS patterns, and whether they have a group `year` (`regexs.py:57-87`). -/
def posPatterns : List (Re × Bool) :=
  [(Rx.re_pos_0, true), (Rx.re_pos_1, true), (Rx.re_pos_2, true), (Rx.re_pos_3, false)]

/-- `tag_pos_volume` (`tag.py:397-429`). -/
def tagPos [UnicodeDB] (line : Str) : Py Str :=
  posPatterns.foldlM (fun l p => subPy p.1 (posTag p.2) l) line

/-- `tag_atlas_conf` (`tag.py:432-439`). -/
def tagAtlas [UnicodeDB] (line : Str) : Str :=
  let line := sub Rx.RE_ATLAS_CONF_PRE_2010
    (fun m => py! "<cds.REPORTNUMBER>ATL-CONF-" ++ m.tgroup G.code ++ py! "</cds.REPORTNUMBER>") line
  sub Rx.RE_ATLAS_CONF_POST_2010
    (fun m => py! "<cds.REPORTNUMBER>ATLAS-CONF-" ++ m.tgroup G.code ++ py! "</cds.REPORTNUMBER>") line

/-! ### Blanking -/

/-- `strip_tags` (`tag.py:850-859`): the matches are those of the line as given, but each
replacement is made at the first match of the line as it has become. -/
def stripTags [UnicodeDB] (line : Str) : Str :=
  (finditer Rx.re_tag line).foldl (fun l m => sub1 Rx.re_tag (fun _ => underscores (m.stop - m.start)) l) line

/-! ### Recognition in the cleaned line -/

/-- `identifiy_journals_re` (`tag.py:442-448`). -/
def identifyJournalsRe [UnicodeDB] (line : Str) (kb : List (Str × Re × Str)) : List (Nat × Str) :=
  kb.foldl (fun d p => match search p.2.1 line with
    | some m => dset d m.start m.txt
    | none => d) []

/-- The standardised numeration of a report number (`tag.py:1283-1289`). -/
def repnumNumeration [UnicodeDB] (s : Str) : Str :=
  let s := replace s [' '] ['-']
  let s := sub Rx.re_multiple_hyphens (fun _ => ['-']) s
  let s := replace s ['/', '-'] ['/']
  let s := replace s ['-', '/'] ['/']
  replace s ['-', '/', '-'] ['/']

/-- The group `numn` of the report number patterns (`kbs.py:129`). -/
def G.numn : Nat := 1000

/-- What `identify_report_numbers` has recorded so far, and the working line. -/
structure Repnums where
  lens : List (Nat × Nat)
  repls : List (Nat × Str)
  line : Str
deriving DecidableEq, Repr

/-- One match of a report number (`tag.py:1280-1306`). Groups 1 and `numn` take part in every match
of the patterns built by `kbs.py:268-275`; a missing `numn` would be an `AttributeError`. -/
def repnumStep [UnicodeDB] (std : Str) (st : Repnums) (m : Match) : Py Repnums :=
  match m.group 1, m.gstart 1, m.group G.numn with
  | some g, some start, some numn =>
    .ok { line := splice st.line start (underscores g.length) (start + g.length)
          lens := dset st.lens start g.length
          repls := dset st.repls start (std ++ repnumNumeration numn) }
  | _, _, _ => .error .attributeError

/-- `a < b` for strings: by code points. -/
def strLt : Str → Str → Bool
  | _, [] => false
  | [], _ :: _ => true
  | a :: s, b :: t => if a.toNat = b.toNat then strLt s t else a.toNat < b.toNat

/-- `sorted(categs, key=lambda x: (len(x[1]), x), reverse=True)` (`tag.py:1267-1269`): longest
category first, then the larger line number, then the larger text. -/
def categBefore (a b : Nat × Str) : Bool :=
  if a.2.length = b.2.length then (if a.1 = b.1 then !strLt a.2 b.2 else decide (b.1 < a.1))
  else decide (b.2.length < a.2.length)

/-- One category of report numbers (`tag.py:1274-1306`): the matches are those of the line at the
start of the loop. -/
def repnumCateg [UnicodeDB] (pats : List ((Nat × Str) × Re)) (stds : List ((Nat × Str) × Str)) (st : Repnums)
    (categ : Nat × Str) : Py Repnums := do
  let r ← getKey (dget pats categ)
  let std ← getKey (dget stds categ)
  (finditer r st.line).foldlM (repnumStep std) st

/-- `identify_report_numbers` (`tag.py:1225-1313`). -/
def identifyRepnums [UnicodeDB] (line : Str) (kbs : TagKbs) : Py Repnums :=
  let categs := sortBy categBefore (kbs.reportStd.map (·.1))
  categs.foldlM (repnumCateg kbs.reportPats kbs.reportStd) ⟨[], [], replace line ['/'] [' ']⟩

/-- What `identify_journals` has recorded so far, and the working line. -/
structure Titles where
  found : List (Nat × Str)
  line : Str
  count : List (Str × Nat)
deriving DecidableEq, Repr

/-- One match of a title (`tag.py:1193-1216`). -/
def titleStep (title : Str) (st : Titles) (m : Match) : Titles :=
  { count := dset st.count title ((dget st.count title).getD 0 + 1)
    found := dset st.found m.start title
    line := splice st.line m.start (underscores title.length) (m.start + title.length) }

/-- One title (`tag.py:1188-1216`). -/
def titleLoop [UnicodeDB] (pats : List (Str × Re)) (st : Titles) (title : Str) : Py Titles := do
  let r ← getKey (dget pats title)
  return (finditer r st.line).foldl (titleStep title) st

/-- `identify_journals` (`tag.py:1157-1222`). -/
def identifyJournals [UnicodeDB] (line : Str) (pats : List (Str × Re)) (keys : List Str) : Py Titles :=
  keys.foldlM (titleLoop pats) ⟨[], line, []⟩

/-- `identify_ibids` (`tag.py:1077-1095`). -/
def identifyIbids [UnicodeDB] (line : Str) : List (Nat × Str) × Str :=
  (finditer Rx.re_ibid line).foldl
    (fun st m => (dset st.1 m.start m.txt, splice st.2 m.start (underscores m.txt.length) m.stop)) ([], line)

/-- `identify_publishers` (`tag.py:1316-1325`). -/
def identifyPublishers [UnicodeDB] (line : Str) (kb : List (Str × Re × Str)) : List (Nat × Str) :=
  kb.foldl (fun d p => (finditer p.2.1 line).foldl (fun d m => dset d m.start p.1) d) []

/-- `sum_2_dictionaries` (`tag.py:1056-1074`). The test is on the literal string `"key"`. -/
def sumDicts (a b : List (Str × Nat)) : Py (List (Str × Nat)) :=
  b.foldlM (fun d p =>
    if (dget d (py! "key")).isSome then do
      let n ← getKey (dget d p.1)
      return dset d p.1 (n + p.2)
    else return dset d p.1 p.2) a

/-! ### Rebuilding the line -/

/-- The kinds of replacement (`tag.py:752-758`). -/
inductive ReplTy where
  | journal
  | reportnumber
  | publisher
deriving DecidableEq, Repr

/-- `get_replacement_types` (`tag.py:734-759`). -/
def replacementTypes (titles reports publishers : List Nat) : List (Nat × ReplTy) :=
  let d := titles.foldl (fun d i => dset d i .journal) []
  let d := reports.foldl (fun d i => dset d i .reportnumber) d
  publishers.foldl (fun d i => dset d i .publisher) d

/-- One step of the loop of `account_for_stripped_whitespace` (`tag.py:818-843`). State: true
index, spare index, extras. `len` is the length of the journal title or of the report number at this
position, `none` for a publisher. -/
def spaceStep (len : Option Nat) (st : Nat × Nat × Nat) (sp : Nat × Nat) : Nat × Nat × Nat :=
  if sp.1 < st.1 then (st.1 + sp.2, st.2.1 + sp.2, st.2.2)
  else match len with
    | some n => if st.2.1 ≤ sp.1 ∧ sp.1 < st.2.1 + n then (st.1, st.2.1 + sp.2, st.2.2 + sp.2) else st
    | none => st

/-- `account_for_stripped_whitespace` (`tag.py:762-847`): the true index and the extras. `spaces`
is `removed_spaces` with its keys in increasing order. -/
def accountSpaces (spaces : List (Nat × Nat)) (len : Option Nat) (i : Nat) : Nat × Nat :=
  let st := spaces.foldl (spaceStep len) (i, i, 0)
  (st.1, st.2.2)

/-- `add_tagged_report_number` (`tag.py:481-530`). -/
def addReportNumber (line : Str) (len : Nat) (reportnum : Str) (startpos idx extras : Nat) : Str × Nat :=
  let before := if startpos + 1 ≤ idx then slice line startpos (idx - 1) else slice line startpos idx
  let pos := idx + len + extras
  (before ++ py! "<cds.REPORTNUMBER>" ++ reportnum ++ py! "</cds.REPORTNUMBER>",
    match line[pos]? with
    | some c => if c = ']' || c = ')' then pos + 1 else pos
    | none => pos)

/-- `skip_ponctuation` (`tag.py:617-629`). -/
def skipPunctuation (line : Str) (pos : Nat) : Nat :=
  pos + ((line.drop pos).takeWhile (inSet ['.', ':', '-', ')'])).length

/-- The previously matched title and its series (`tag.py:653-657`). -/
structure Prev where
  title : Str
  series : Option Str
deriving DecidableEq, Repr

/-- The state of `add_tagged_journal` before looking for numeration (`tag.py:631-660`): rebuilt text,
position, previous match and series; `none` when numeration is skipped (`tag.py:647-649`). -/
def journalHead [UnicodeDB] (line info : Str) (prev : Option Prev) (startpos idx extras : Nat)
    (std : List (Str × Str)) : Py (Option (Str × Nat × Prev × Option Str)) :=
  let before := slice line startpos idx
  let pos := skipPunctuation line (idx + info.length + extras)
  if (find (py! "IBID") (upper info)).isSome then
    match prev with
    | some p => .ok (some (before ++ py! " <cds.JOURNALibid>" ++ p.title ++ py! "</cds.JOURNALibid>", pos, p, p.series))
    | none => .ok none
  else match dget std info with
    | none => .error .keyError
    | some t =>
      match rsplit1 ';' t with
      | some (title, series) =>
        .ok (some (before ++ py! "<cds.JOURNAL>" ++ title ++ py! "</cds.JOURNAL>", pos,
          ⟨title, some (strip series)⟩, some (strip series)))
      | none => .ok (some (before ++ py! "<cds.JOURNAL>" ++ t ++ py! "</cds.JOURNAL>", pos, ⟨t, none⟩, none))

/-- Numeration after the title, or anywhere in the rebuilt text and the rest (`tag.py:662-671`). -/
def journalNumeration [UnicodeDB] (line rebuilt : Str) (pos : Nat) : Py (Option Numeration) := do
  match ← findNumeration (line.drop pos) with
  | some n => return some n
  | none => findNumerationMore (rebuilt ++ ' ' :: line.drop pos)

/-- `if series and not info["series"]: info["series"] = series` (`tag.py:677-678`). -/
def withSeries (series : Option Str) (n : Numeration) : Numeration :=
  { n with series := orElse n.series (orElse series n.series) }

/-- `add_tagged_journal` (`tag.py:578-684`): rebuilt text, next position, previous match. -/
def addJournal [UnicodeDB] (line info : Str) (prev : Option Prev) (startpos idx extras : Nat)
    (std : List (Str × Str)) : Py (Str × Nat × Option Prev) := do
  match ← journalHead line info prev startpos idx extras std with
  | none => return ([], startpos, prev)
  | some (rebuilt, pos, p, series) =>
    match ← journalNumeration line rebuilt pos with
    | none => return ([], startpos, prev)
    | some n =>
      let n := withSeries series n
      let tag ← numerationTag n
      return (rebuilt ++ tag, pos + n.len, some { p with series := n.series })

/-- `add_tagged_publisher` (`tag.py:687-731`). -/
def addPublisher (line publisher : Str) (startpos idx extras : Nat) (kb : List (Str × Re × Str)) : Py (Str × Nat) := do
  let info ← getKey (dget kb publisher)
  return (slice line startpos idx ++ py! "<cds.PUBLISHER>" ++ info.2 ++ py! "</cds.PUBLISHER>",
    idx + publisher.length + extras)

/-- Everything found in the line that is to be replaced. -/
structure Found where
  journals : List (Nat × Str)
  repLens : List (Nat × Nat)
  repTexts : List (Nat × Str)
  publishers : List (Nat × Str)
  spaces : List (Nat × Nat)
  std : List (Str × Str)
deriving DecidableEq, Repr

/-- One replacement (`tag.py:272-316`). State: position, previous match, text so far. -/
def replaceStep [UnicodeDB] (line : Str) (f : Found) (pubs : List (Str × Re × Str)) (st : Nat × Option Prev × Str)
    (loc : Nat × ReplTy) : Py (Nat × Option Prev × Str) :=
  match loc.2 with
  | .journal => do
    let info ← getKey (dget f.journals loc.1)
    let (idx, extras) := accountSpaces f.spaces (some info.length) loc.1
    let (chunk, pos, prev) ← addJournal line info st.2.1 st.1 idx extras f.std
    return (pos, prev, st.2.2 ++ chunk)
  | .reportnumber => do
    let len ← getKey (dget f.repLens loc.1)
    let text ← getKey (dget f.repTexts loc.1)
    let (idx, extras) := accountSpaces f.spaces (some len) loc.1
    let (chunk, pos) := addReportNumber line len text st.1 idx extras
    return (pos, st.2.1, st.2.2 ++ chunk)
  | .publisher => do
    let (idx, extras) := accountSpaces f.spaces none loc.1
    let pub ← getKey (dget f.publishers loc.1)
    let (chunk, pos) ← addPublisher line pub st.1 idx extras pubs
    return (pos, st.2.1, st.2.2 ++ chunk)

/-- The locations in increasing order with their types (`tag.py:253-262`). -/
def locations (f : Found) : List (Nat × ReplTy) :=
  sortBy (fun a b => decide (a.1 ≤ b.1))
    (replacementTypes (f.journals.map (·.1)) (f.repTexts.map (·.1)) (f.publishers.map (·.1)))

/-- The rebuilding part of `process_reference_line` (`tag.py:236-326`). -/
def rebuildTagged [UnicodeDB] (line : Str) (f : Found) (pubs : List (Str × Re × Str)) : Py Str :=
  if f.journals.length + f.repLens.length + f.publishers.length = 0 then .ok line
  else do
    let (pos, _, out) ← (locations f).foldlM (replaceStep line f pubs) (0, none, [])
    return washVolumeTag (out ++ line.drop pos)

/-! ### Authors and collaborations -/

/-- A match of `re_auth` kept for tagging (`tag.py:917-937`). -/
structure AuthPos where
  start : Nat
  stop : Nat
  etal : Bool
  ed : Bool
  multi : Bool
  before : Str
  names : Option Str
deriving DecidableEq, Repr

/-- Python truthiness of a group. -/
def Match.has (m : Match) (g : Nat) : Bool := truthy (m.tgroup g)

/-- The loop over the author matches (`tag.py:911-941`): matches whose text in the blanked line has
no underscore, each with the text since the previous kept one. -/
def authPositions (line : Str) : Nat → List Match → List AuthPos
  | _, [] => []
  | from_, m :: ms =>
    if (slice line m.start m.stop).contains '_' then authPositions line from_ ms
    else ⟨m.start, m.stop, m.has G.et || m.has G.et2, m.has G.es || m.has G.ee,
        m.has G.multi_auth || m.has G.multi_surs, slice line from_ m.start, m.group G.author_names⟩
      :: authPositions line m.stop ms

/-- `etal_matches` (`authors/regexs.py:375-382`). -/
def etalMatches : List Str :=
  [py! " et al.,", py! " et. al.,", py! " et. al.", py! " et.al.,", py! " et al.", py! " et al"]

/-- Whether the author is dumped in misc, and the start of the author group (`tag.py:951-983`). -/
def authStart [UnicodeDB] (a : AuthPos) : Bool × Nat :=
  let t := lower (strip a.before)
  if etalMatches.any (endsWith t) then (true, a.start)
  else if !a.multi && endsWith t (py! " and") then
    match reMatch Rx.RE_AUTH_NEAR_MISS a.before with
    | some w => if w.has G.es || w.has G.ee then (true, a.start) else (false, a.start - (a.before.length - w.start))
    | none => (true, a.start)
  else (false, a.start)

/-- The cleaned author text (`tag.py:996-1008`). -/
def authText [UnicodeDB] (s : Str) : Str :=
  let s := sub Rx.re_ed_notation (fun _ => py! "(ed.)") s
  let s := sub Rx.re_etal (fun _ => py! "et al.") s
  let s := stripP (inSet (py! ",:;- [](")) (lstripP (inSet ['.']) s)
  if endsWith s (py! "(ed.)") then s else stripP (inSet [')']) s

/-- The semicolon kept in misc, given the character behind the group (`tag.py:985-991`). -/
def semiAfter : Option Char → Str
  | some c => if stripP (inSet [' ', ',', '.']) [c] = [';'] then [';'] else []
  | none => []

/-- Tag one author group (`tag.py:943-1051`). `re.sub` on missing names would be a `TypeError`. -/
def tagAuthor [UnicodeDB] (out : Str) (a : AuthPos) : Py Str :=
  let (dump, start) := authStart a
  let misc := semiAfter out[a.stop]?
  let text := authText (slice out start a.stop)
  if a.etal && !(a.ed || dump) then
    .ok (splice out start (py! "<cds.AUTHetal>" ++ text ++ py! "</cds.AUTHetal>" ++ misc) a.stop)
  else if !(a.ed || dump) then
    .ok (splice out start (py! "<cds.AUTHstnd>" ++ text ++ py! "</cds.AUTHstnd>" ++ misc) a.stop)
  else if a.ed then
    match a.names with
    | none => .error .typeError
    | some names =>
      let names := sub Rx.re_etal (fun _ => py! "et al.") names
      .ok (splice out start (py! "<cds.AUTHincl>" ++ stripP (inSet (py! ",:;- [](")) names ++ py! " (eds.)"
        ++ py! "</cds.AUTHincl>" ++ misc) a.stop)
  else .ok out

/-- `identify_and_tag_authors` (`tag.py:888-1053`). The keys of the authors knowledge base are
non-empty (`kbs.py:429-433`). -/
def tagAuthors [UnicodeDB] (lib : Lib) (line : Str) (kb : List (Str × Str)) : Py Str :=
  let out := kb.foldl (fun l p => replace l p.1 p.2) line
  let line := stripTags out
  let ms := finditer Rx.RE_AUTH line
  let ms2 := finditer Rx.RE_AUTH (stripTags (lib.unidecode out))
  let (out, ms) := if ms.length < ms2.length then (lib.unidecode out, ms2) else (out, ms)
  (authPositions line 0 ms).reverse.foldlM tagAuthor out

/-- One collaboration pattern (`tag.py:874-883`). Group 1 takes part in every match (`kbs.py:571`);
a missing group would be an `AttributeError`. -/
def collabStep (line : Str) (m : Match) : Py Str :=
  match m.group 1 with
  | none => .error .attributeError
  | some g => .ok (splice line m.start
      (py! "<cds.COLLABORATION>" ++ stripP (inSet (py! ".,:;- [](){}")) g ++ py! "</cds.COLLABORATION>") m.stop)

/-- `identify_and_tag_collaborations` (`tag.py:862-885`). -/
def tagCollaborations [UnicodeDB] (line : Str) (kb : List (Str × Re)) : Py Str :=
  kb.foldlM (fun l p => (finditer p.2 (stripTags l)).reverse.foldlM collabStep l) line

/-! ### The whole line -/

/-- `process_reference_line` (`tag.py:182-332`). -/
def processLine [UnicodeDB] (lib : Lib) (line : Str) (f : Found) (kbs : TagKbs) : Py Str := do
  let t ← rebuildTagged line f kbs.publishers
  let t ← tagAuthors lib t kbs.authors
  let t ← tagCollaborations t kbs.collaborations
  return t.filter (· != '\n')

/-- The first half of `tag_reference_line` (`tag.py:91-118`): the identifiers with fixed patterns. -/
def tagFixed [UnicodeDB] (lib : Lib) (line : Str) : Py Str := do
  let l ← tagPos (washLine line)
  let l := washLine l
  let l := tagQuoted l
  let l := tagIsbn l
  let l := tagArxiv lib l
  let l := tagArxivMore l
  let l ← tagPos l
  return tagAtlas l

/-- Blanked, upper-case line without punctuation (`tag.py:127-136`). -/
def cleanedLine [UnicodeDB] (line : Str) : Str :=
  sub Rx.re_punctuation (fun _ => [' ']) (upper (stripTags line))

/-- Everything recognised in the line, and the number of titles (`tag.py:120-166`). -/
def recognise [UnicodeDB] (line : Str) (kbs : TagKbs) : Py (Found × List (Str × Nat)) := do
  let std := dupdate kbs.journalStd (kbs.journalsRe.map fun p => (p.1, p.2.2))
  let byRe := identifyJournalsRe line kbs.journalsRe
  let (spaces, w) := compressSpaces (cleanedLine line)
  let reps ← identifyRepnums w kbs
  let titles ← identifyJournals reps.line kbs.journalPats kbs.journalKeys
  let js := dupdate byRe titles.found
  let (js, w) := if (find (py! "IBID") (upper titles.line)).isSome then
      (dupdate js (identifyIbids titles.line).1, (identifyIbids titles.line).2)
    else (js, titles.line)
  return ({ journals := js, repLens := reps.lens, repTexts := reps.repls, publishers := identifyPublishers w kbs.publishers,
            spaces := sortBy (fun a b => decide (a.1 ≤ b.1)) spaces, std }, titles.count)

/-- `tag_reference_line` (`tag.py:88-179`). The knowledge base of standard titles is also updated in
place (`tag.py:125`), with the same entries every time. -/
def tagReferenceLine [UnicodeDB] (lib : Lib) (line : Str) (kbs : TagKbs) (count : List (Str × Nat)) :
    Py (Str × List (Str × Nat)) := do
  let l ← tagFixed lib line
  let (f, n) ← recognise l kbs
  let count ← sumDicts count n
  let t ← processLine lib l f kbs
  return (t, count)

/-! ### URLs and DOIs -/

/-- What is recorded of a URL: length of the match, URL, description (`tag.py:1366-1369`). The three
dictionaries always have the same keys. -/
abbrev Urls := List (Nat × Nat × Str × Str)

/-- One URL in an anchor (`tag.py:1376-1387`). -/
def htmlUrlStep (st : Urls × Str) (m : Match) : Urls × Str :=
  (dset st.1 m.start (m.txt.length, m.tgroup G.url, m.tgroup G.desc),
    splice st.2 m.start (underscores m.txt.length) m.stop)

/-- Strip one full stop or comma from the end (`tag.py:1398-1400`). -/
def trimUrl (u : Str) : Str :=
  match u.getLast? with
  | some c => if c = '.' || c = ',' then u.dropLast else u
  | none => u

/-- One bare URL (`tag.py:1392-1407`). -/
def rawUrlStep (st : Urls × Str) (m : Match) : Urls × Str :=
  let u := trimUrl (m.tgroup G.url)
  (dset st.1 m.start (m.txt.length, u, u), splice st.2 m.start (underscores m.txt.length) m.stop)

/-- `identify_and_tag_URLs` (`tag.py:1328-1440`). The final assertion compares the lengths of two
lists built from the same positions. -/
def tagUrls [UnicodeDB] (line : Str) : Str × List (Str × Str) :=
  let st := (finditer Rx.re_html_tagged_url line).foldl htmlUrlStep ([], line)
  let st := (finditer Rx.re_raw_url st.2).foldl rawUrlStep st
  let up := sortBy (fun a b => decide (a.1 ≤ b.1)) st.1
  (up.reverse.foldl (fun l p => splice l p.1 (py! "<cds.URL />") (p.1 + p.2.1)) st.2, up.map fun p => p.2.2)

/-- One DOI, from the last to the first (`tag.py:1456-1468`). -/
def doiStep [UnicodeDB] (lib : Lib) (st : Str × List Str) (m : Match) : Str × List Str :=
  let doi := m.tgroup G.doi
  let doi := if contains (lower doi) (py! "%2f") then lib.unquote doi else doi
  (splice st.1 m.start (py! "<cds.DOI />") m.stop, st.2 ++ [doi])

/-- `identify_and_tag_DOI` (`tag.py:1443-1471`). -/
def tagDois [UnicodeDB] (lib : Lib) (line : Str) : Str × List Str :=
  let st := (finditer Rx.re_doi line).reverse.foldl (doiStep lib) (line, [])
  (st.1, st.2.reverse)

end Py
