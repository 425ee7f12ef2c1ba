import Verif.Model.Element

/-!
# Output records

Model of `/repo/refextract/references/record.py`.
-/

namespace Py

/-- A reference dictionary: keys in insertion order, each with a list of strings
(`record.py:65-159`). -/
abbrev Field := List (Str × List Str)

/-- `field.setdefault(code, []).append(value)` (`record.py:54`). -/
def Field.append : Field → Str → Str → Field
  | [], k, v => [(k, [v])]
  | (k', vs) :: f, k, v => if k' = k then (k', vs ++ [v]) :: f else (k', vs) :: Field.append f k v

/-- `field[code] = value` -/
def Field.set : Field → Str → List Str → Field
  | [], k, v => [(k, v)]
  | (k', vs) :: f, k, v => if k' = k then (k', v) :: f else (k', vs) :: Field.set f k v

/-- `field.get(code)` -/
def Field.get (f : Field) (k : Str) : Option (List Str) := f.lookup k

/-- `add_subfield` (`record.py:52-54`). -/
def addSubfield (f : Field) (k : Str) (v : Val) : Field :=
  match v with
  | none => f
  | some s => if truthy s then f.append k s else f

/-- `format_marker` (`record.py:25-26`). -/
def formatMarker (m : Str) : Str := stripP (inSet (py! "[](){}. ")) m

/-- The characters of `"., [](){}"` (`record.py:67`, `record.py:97`). -/
def edgeChars : Str := py! "., [](){}"

/-- `create_reference_field` (`record.py:65-69`). -/
def createReferenceField (m : Str) : Field :=
  if truthy (stripP (inSet edgeChars) m) then addSubfield [] (py! "linemarker") (some (formatMarker m))
  else []

/-- The element keys a reference format may name. -/
inductive FmtKey where
  | type | miscTxt | title | volume | year | page | pageEnd
deriving DecidableEq, Repr

/-- One piece of a reference format: literal text or a replacement field `{key}`.
Conversions, format specifications, indexing and the remaining keys are not modelled. -/
inductive FmtPart where
  | lit (s : Str)
  | key (k : FmtKey)
deriving DecidableEq, Repr

/-- The string `type` of an element. -/
def Kind.name : Kind → Str
  | .journal => py! "JOURNAL"
  | .reportnumber => py! "REPORTNUMBER"
  | .url => py! "URL"
  | .doi => py! "DOI"
  | .hdl => py! "HDL"
  | .auth => py! "AUTH"
  | .quoted => py! "QUOTED"
  | .isbn => py! "ISBN"
  | .book => py! "BOOK"
  | .publisher => py! "PUBLISHER"
  | .year => py! "YEAR"
  | .collaboration => py! "COLLABORATION"
  | .recid => py! "RECID"
  | .misc => py! "MISC"

/-- `str(value)` as `str.format` inserts it: `None` is shown as `None`. -/
def Val.show : Val → Str
  | some s => s
  | none => py! "None"

/-- One replacement field of `reference_format.format(**element)` (`record.py:62`). -/
def fmtKey (e : El) : FmtKey → Py Str
  | .type => .ok e.ty.name
  | .miscTxt => .ok e.misc
  | .title => getKey e.title
  | .volume => (getKey e.volume).map Val.show
  | .year => (getKey e.year).map Val.show
  | .page => (getKey e.page).map Val.show
  | .pageEnd => (getKey e.pageEnd).map Val.show

/-- `reference_format.format(**element)` (`record.py:62`). -/
def formatRef (e : El) : List FmtPart → Py Str
  | [] => .ok []
  | .lit s :: r => do
    let t ← formatRef e r
    return s ++ t
  | .key k :: r => do
    let s ← fmtKey e k
    let t ← formatRef e r
    return s ++ t

/-- The default `reference_format` (`engine.py:1504`). -/
def defaultFormat : List FmtPart :=
  [.key .title, .lit (py! " "), .key .volume, .lit (py! " ("), .key .year, .lit (py! ") "), .key .page]

/-- `add_journal_subfield` (`record.py:57-62`). -/
def addJournalSubfield (f : Field) (e : El) (fmt : List FmtPart) : Py Field := do
  let f := addSubfield f (py! "journal_title") e.title
  let f := addSubfield f (py! "journal_volume") (getOr e.volume)
  let f := addSubfield f (py! "journal_year") (getOr e.year)
  let f := addSubfield f (py! "journal_page") (getOr e.page)
  let s ← formatRef e fmt
  return addSubfield f (py! "journal_reference") (some s)

/-- Treatment of the miscellaneous text of one element (`record.py:96-99`). -/
def addMisc (f : Field) (m : Str) : Field :=
  if truthy (stripP (inSet edgeChars) m) then
    addSubfield f (py! "misc") (some (rstripP (inSet (py! "[({ ,.")) (lstripP (inSet (py! "])} ,.")) m)))
  else f

/-- `str(element["recid"])` (`record.py:157`). -/
def showRecid : Option RecId → Str
  | some r => r.txt
  | none => py! "None"

/-- Type-dependent part of one iteration (`record.py:103-157`). -/
def addTyped (fmt : List FmtPart) (f : Field) (e : El) : Py Field :=
  match e.ty with
  | .journal => addJournalSubfield f e fmt
  | .reportnumber => do
    let v ← getKey e.reportNum
    return addSubfield f (py! "reportnumber") (some v)
  | .url => do
    let s ← getKey e.urlString
    let d ← getKey e.urlDesc
    if s = d then return addSubfield f (py! "url") (some s)
    else return addSubfield (addSubfield f (py! "url") (some s)) (py! "urldesc") (some d)
  | .doi => do
    let v ← getKey e.doiString
    return addSubfield f (py! "doi") (some (py! "doi:" ++ v))
  | .hdl => do
    let v ← getKey e.hdlId
    return addSubfield f (py! "hdl") (some (py! "hdl:" ++ v))
  | .auth => do
    let v ← getKey e.authTxt
    let t ← getKey e.authType
    return addSubfield f (py! "author") (some (if t = py! "incl" then py! "(" ++ v ++ py! ")" else v))
  | .quoted => do
    let v ← getKey e.title
    return addSubfield f (py! "title") (some v)
  | .isbn => do
    let v ← getKey e.isbn
    return addSubfield f (py! "isbn") (some v)
  | .book => do
    let v ← getKey e.title
    return addSubfield f (py! "title") (some v)
  | .publisher => do
    let v ← getKey e.publisher
    return addSubfield f (py! "publisher") (some v)
  | .year => do
    let v ← getKey e.year
    return addSubfield f (py! "year") v
  | .collaboration => do
    let v ← getKey e.collaboration
    return addSubfield f (py! "collaboration") (some v)
  | .recid => do
    let v ← getKey e.recid
    return addSubfield f (py! "recid") (some (showRecid v))
  | .misc => .ok f

/-- The loop of `build_reference_fields` (`record.py:90-157`). -/
def buildLoop (fmt : List FmtPart) : Field → List El → Py Field
  | f, [] => .ok f
  | f, e :: es => do
    let f ← addTyped fmt (addMisc f e.misc) e
    buildLoop fmt f es

/-- `build_reference_fields` (`record.py:72-159`); the one-element list is returned as
its element. -/
def buildReferenceFields (els : List El) (marker raw : Str) (fmt : List FmtPart) : Py Field :=
  buildLoop fmt ((createReferenceField marker).set (py! "raw_ref") [raw]) els

/-- One parsed line: citations (lists of elements), line marker and raw line
(`engine.py:893-899`). -/
structure ParsedLine where
  elements : List (List El)
  marker : Str
  raw : Str
deriving DecidableEq, Repr

/-- `build_references` (`record.py:29-49`). -/
def buildReferences (fmt : List FmtPart) (cs : List ParsedLine) : Py (List Field) := do
  let bs ← cs.mapM fun c => c.elements.mapM fun els => buildReferenceFields els c.marker c.raw fmt
  return bs.flatten

end Py
