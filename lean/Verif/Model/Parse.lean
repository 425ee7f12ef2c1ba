import Verif.Model.Post
import Verif.Model.Find
import Verif.Model.Tag
import Verif.Model.Record
import Verif.Model.Rebuild

/-!
# Parsing a reference line

Model of `/repo/refextract/references/engine.py:88-110`, `614-689`, `830-1415` and `1500-1541`.
-/

namespace Py

/-! ### The marker -/

/-- `remove_reference_line_marker` (`engine.py:88-110`). -/
def removeMarker [UnicodeDB] (line : Str) : Str × Str :=
  let line := lstrip line
  match matchList line (Rx.marker_patterns .eps) with
  | some (_, m) => (m.tgroup G.mark, lstrip (line.drop m.stop))
  | none => ([' '], line)

/-! ### The tagged line -/

/-- The counters of a line (`engine.py:930-935`, `1344-1351`). -/
structure Counts where
  misc : Nat := 0
  title : Nat := 0
  reportnum : Nat := 0
  url : Nat := 0
  doi : Nat := 0
  auth : Nat := 0
deriving DecidableEq, Repr

/-- The variables of `parse_tagged_reference_line` that live through its loop
(`engine.py:930-945`): the rest of the line, the miscellaneous text so far, the elements, the DOIs
and URLs not used yet and the counters. -/
structure PState where
  line : Str
  misc : Str := []
  els : List El := []
  dois : List Str := []
  urls : List (Str × Str) := []
  n : Counts := {}
deriving DecidableEq, Repr

/-- `"</cds.…>"` (`config.py:90-120`). -/
def closing (tag : Str) : Str := py! "</cds." ++ tag ++ py! ">"

/-- Volume with the series in front (`engine.py:1003-1006`, `1043-1046`). -/
def seriesVolume (m : Match) : Str :=
  match m.group G.series with
  | some s => s ++ m.tgroup G.vol
  | none => m.tgroup G.vol

/-- The loop over numeration without a title (`engine.py:1034-1071`): the rest of the line and the
numeration found. Only the first one takes the title. Every match is not empty, so a loop of as many
steps as there are characters suffices. -/
def extraIbids [UnicodeDB] : Nat → Str → Str → Str × List Ibid
  | 0, _, line => (line, [])
  | fuel + 1, title, line =>
    match reMatch Rx.re_numeration_no_ibid_txt line with
    | none => (line, [])
    | some m =>
      let (rest, more) := extraIbids fuel [] (line.drop m.stop)
      (rest, ⟨title, seriesVolume m, m.group G.yr, m.tgroup G.pg⟩ :: more)

/-- A journal with its closing tag (`engine.py:980-1077`). `title` is the text between the tags and
`line` the line after them. -/
def journalStep [UnicodeDB] (ibid : Bool) (title line : Str) (st : PState) : PState :=
  match search Rx.re_recognised_numeration_title_plus_series line with
  | none => { st with line := line, misc := st.misc ++ title }
  | some m =>
    let rest := line.drop m.stop
    let (rest, extra) := extraIbids rest.length title rest
    let el : El := { ty := .journal, misc := st.misc, title := some title, volume := some (some (seriesVolume m)),
                     year := some (some (m.tgroup G.yr)), page := some (some (m.tgroup G.pg)), isIbid := some ibid,
                     extraIbids := some extra }
    { st with line := rest, misc := [], els := st.els ++ [el], n := { st.n with title := st.n.title + 1 + extra.length } }

/-- Report numbers, arXiv numbers and authors (`engine.py:1079-1146`, `1190-1234`): the text up to the
closing tag makes an element; without a closing tag the opening tag is dropped. -/
def simpleStep (tag : Str) (mk : Str → Str → El) (count : Counts → Counts) (stop : Nat) (st : PState) : PState :=
  match findFrom (closing tag) st.line stop with
  | none => { st with line := st.line.drop stop }
  | some i =>
    { st with line := st.line.drop (i + (closing tag).length), misc := [],
              els := st.els ++ [mk st.misc (slice st.line stop i)], n := count st.n }

/-- `convert_unusable_tag_to_misc` (`engine.py:1381-1415`). -/
def miscStep (tag : Str) (stop : Nat) (st : PState) : PState :=
  match findFrom (closing tag) st.line stop with
  | none => { st with line := st.line.drop stop }
  | some i => { st with line := st.line.drop (i + (closing tag).length), misc := st.misc ++ slice st.line stop i }

/-- `map_tag_to_subfield` (`engine.py:1356-1378`). Without a closing tag, as many characters as the
opening tag has are dropped from the text after it. -/
def subfieldStep (tag : Str) (mk : Str → Str → El) (stop : Nat) (st : PState) : PState :=
  let line := st.line.drop stop
  match find (closing tag) line with
  | none => { st with line := line.drop (py! "<cds." ++ tag ++ py! ">").length }
  | some i =>
    { st with line := line.drop (i + (closing tag).length), misc := [], els := st.els ++ [mk st.misc (line.take i)] }

/-- One tag (`engine.py:955-1322`). The tests on the type of the tag are made in this order. -/
def tagStep [UnicodeDB] (st : PState) (m : Match) : Py PState :=
  let tag := m.tgroup 1
  let st := { st with misc := st.misc ++ st.line.take m.start }
  let stop := m.stop
  if contains tag (py! "JOURNAL") then
    let ibid := truthy (m.tgroup G.ibid)
    let close := closing (if ibid then py! "JOURNALibid" else py! "JOURNAL")
    match findFrom close st.line stop with
    | none => .ok { st with line := st.line.drop stop }
    | some i => .ok (journalStep ibid (slice st.line stop i) (st.line.drop (i + close.length)) st)
  else if tag = py! "REPORTNUMBER" then
    .ok (simpleStep tag (fun x t => { ty := .reportnumber, misc := x, reportNum := some t })
      (fun n => { n with reportnum := n.reportnum + 1 }) stop st)
  else if tag = py! "ARXIV" then
    .ok (simpleStep tag (fun x t => { ty := .reportnumber, misc := x, reportNum := some t, isArxiv := true })
      (fun n => { n with reportnum := n.reportnum + 1 }) stop st)
  else if tag = py! "URL" then
    match st.urls with
    | [] => .error .indexError
    | (u, d) :: urls => .ok { st with line := st.line.drop stop, urls := urls, misc := [],
                                      els := st.els ++ [{ ty := .url, misc := st.misc, urlString := some u, urlDesc := some d }],
                                      n := { st.n with url := st.n.url + 1 } }
  else if tag = py! "DOI" then
    match st.dois with
    | [] => .error .indexError
    | d :: dois => .ok { st with line := st.line.drop stop, dois := dois, misc := [],
                                 els := st.els ++ [{ ty := .doi, misc := st.misc, doiString := some d }],
                                 n := { st.n with doi := st.n.doi + 1 } }
  else if contains tag (py! "AUTH") then
    let ty := if contains tag (py! "stnd") then py! "stnd" else if contains tag (py! "etal") then py! "etal" else py! "incl"
    .ok (simpleStep (py! "AUTH" ++ ty) (fun x t => { ty := .auth, misc := x, authTxt := some t, authType := some ty })
      (fun n => { n with auth := n.auth + 1 }) stop st)
  else if tag = py! "SER" || tag = py! "VOL" || tag = py! "YR" || tag = py! "PG" then .ok (miscStep tag stop st)
  else if tag = py! "QUOTED" then .ok (subfieldStep tag (fun x t => { ty := .quoted, misc := x, title := some t }) stop st)
  else if tag = py! "ISBN" then .ok (subfieldStep tag (fun x t => { ty := .isbn, misc := x, isbn := some t }) stop st)
  else if tag = py! "PUBLISHER" then
    .ok (subfieldStep tag (fun x t => { ty := .publisher, misc := x, publisher := some t }) stop st)
  else .ok (subfieldStep tag (fun x t => { ty := .collaboration, misc := x, collaboration := some t }) stop st)

/-- The loop (`engine.py:939-1325`). The pattern does not match the empty text, so the line gets
shorter with every step and a loop of as many steps as the line has characters suffices. -/
def tagLoop [UnicodeDB] : Nat → PState → Py PState
  | 0, st => .ok st
  | fuel + 1, st =>
    match search Rx.re_tagged_citation st.line with
    | none => .ok st
    | some m => do
      let st ← tagStep st m
      tagLoop fuel st

/-- The text left over (`engine.py:1327-1338`). -/
def finishTagged (st : PState) : PState :=
  let misc := st.misc ++ st.line
  if truthy (stripP (inSet [' ', '.', ';', ',']) misc) then
    { st with els := st.els ++ [{ ty := .misc, misc := misc }], n := { st.n with misc := st.n.misc + 1 } }
  else st

/-- `parse_tagged_reference_line` (`engine.py:905-1353`): the elements and the counters. -/
def parseTagged [UnicodeDB] (line : Str) (dois : List Str) (urls : List (Str × Str)) : Py (List El × Counts) := do
  let st ← tagLoop line.length { line := line, dois := dois, urls := urls }
  return ((finishTagged st).els, (finishTagged st).n)

/-! ### Reference lines -/

/-- All knowledge bases (`kbs.py:55-88`). -/
structure Kbs where
  tag : TagKbs
  special : List Str
  books : Books

/-- `parse_reference_line` (`engine.py:614-689`): the citations, the marker, the counters and the
counts of titles without a recognised numeration. The knowledge base of standard titles is updated in
place by the tagging, always with the same entries, see `tagReferenceLine`. -/
def parseReferenceLine [UnicodeDB] (lib : Lib) (kbs : Kbs) (link : Option Linker) (line : Str) (bad : List (Str × Nat)) :
    Py (List (List El) × Str × Counts × List (Str × Nat)) := do
  let (marker, line) := removeMarker line
  let (line, dois) := tagDois lib line
  let (line, urls) := tagUrls line
  let (tagged, bad) ← tagReferenceLine lib line kbs.tag bad
  let (els, n) ← parseTagged tagged dois urls
  let cs ← postProcess kbs.special kbs.books link els
  return (cs, marker, n, bad)

/-- The counters as a dictionary (`engine.py:1344-1351`). -/
def Counts.dict (n : Counts) : List (Str × Nat) :=
  [(py! "misc", n.misc), (py! "title", n.title), (py! "reportnum", n.reportnum), (py! "url", n.url), (py! "doi", n.doi),
   (py! "auth_group", n.auth)]

/-- One line of `parse_references_elements` (`engine.py:879-899`). `undesirable` as in `washRepair`. -/
def elementsStep [UnicodeDB] (undesirable : Str → Str) (lib : Lib) (kbs : Kbs) (link : Option Linker)
    (st : List ParsedLine × List (Str × Nat) × List (Str × Nat)) (raw : Str) :
    Py (List ParsedLine × List (Str × Nat) × List (Str × Nat)) := do
  let (cs, marker, n, bad) ← parseReferenceLine lib kbs link (washRepair undesirable raw) st.2.2
  let counts ← sumDicts st.2.1 n.dict
  return (st.1 ++ [⟨cs, marker, raw⟩], counts, bad)

/-- `parse_references_elements` (`engine.py:830-902`). -/
def parseElements [UnicodeDB] (undesirable : Str → Str) (lib : Lib) (kbs : Kbs) (link : Option Linker) (lines : List Str) :
    Py (List ParsedLine × List (Str × Nat) × List (Str × Nat)) :=
  lines.foldlM (elementsStep undesirable lib kbs link) ([], ({} : Counts).dict, [])

/-- The numbers of `build_stats` (`engine.py:1525-1541`) in the order of `old_stats_str`: status,
report numbers, titles, authors, URLs, DOIs and miscellaneous texts. -/
def buildStats (counts : List (Str × Nat)) : Py (List Nat) := do
  let r ← getKey (dget counts (py! "reportnum"))
  let t ← getKey (dget counts (py! "title"))
  let a ← getKey (dget counts (py! "auth_group"))
  let u ← getKey (dget counts (py! "url"))
  let d ← getKey (dget counts (py! "doi"))
  let m ← getKey (dget counts (py! "misc"))
  return [0, r, t, a, u, d, m]

/-- `parse_references` (`engine.py:1500-1522`), given the knowledge bases and the parsed format. -/
def parseReferences [UnicodeDB] (undesirable : Str → Str) (lib : Lib) (kbs : Kbs) (fmt : List FmtPart) (link : Option Linker) (lines : List Str) :
    Py (List Field × List Nat) := do
  let (cs, counts, _) ← parseElements undesirable lib kbs link lines
  let refs ← buildReferences fmt cs
  let stats ← buildStats counts
  return (refs, stats)

end Py
