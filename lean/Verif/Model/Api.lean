import Verif.Model.Record
import Verif.Model.PdfFile

/-!
# The entry points

Model of `/repo/refextract/extract.py` and `/repo/refextract/references/api.py`. The steps that
the entry points call are parameters here, so that every outcome of them is covered.
-/

namespace Py

/-! ### Lists of references -/

/-- Extraction from one string (`extract.py:68-72`): it may raise, and the program keeps a state
(the knowledge-base cache) from one call to the next. -/
abbrev Extract (S R : Type) := Str → S → Py R × S

/-- Body of the loop of `extract_references_from_list` (`extract.py:67-79`): what is appended.
Errors are those derived from `Exception`. -/
def listEntry (line : Str) : Py (List Field) → Field
  | .ok (r :: _) => r
  | .ok [] => [(py! "raw_ref", [line])]
  | .error _ => [(py! "raw_ref", [line])]

/-- `extract_references_from_list` (`extract.py:64-80`): the list under the key
`extracted_references`, and the state. -/
def extractList {S : Type} (ext : Extract S (List Field)) : S → List Str → List Field × S
  | s, [] => ([], s)
  | s, line :: lines =>
    let (out, s) := ext line s
    let (rest, s) := extractList ext s lines
    (listEntry line out :: rest, s)

/-- The `try` body of `extract_journal_info` (`extract.py:16-27`). An input is its
`pubinfo_freetext`, `none` when the key is missing; an entry `none` is an empty dictionary. -/
def journalInfoLoop {S R : Type} (ext : Extract S (Option R)) : S → List (Option Str) → Py (List (Option R)) × S
  | s, [] => (.ok [], s)
  | s, i :: is =>
    match i with
    | none | some [] =>
      match journalInfoLoop ext s is with
      | (.ok r, s) => (.ok (none :: r), s)
      | (.error e, s) => (.error e, s)
    | some (c :: t) =>
      match ext (c :: t) s with
      | (.error e, s) => (.error e, s)
      | (.ok a, s) =>
        match journalInfoLoop ext s is with
        | (.ok r, s) => (.ok (a :: r), s)
        | (.error e, s) => (.error e, s)

/-- `extract_journal_info` (`extract.py:12-31`): `none` for the result `None`. -/
def journalInfo {S R : Type} (ext : Extract S (Option R)) (s : S) (is : List (Option Str)) : Option (List (Option R)) × S :=
  match journalInfoLoop ext s is with
  | (.ok r, s) => (some r, s)
  | (.error _, s) => (none, s)

/-- `extract_journal_reference` (`api.py:219-231`) on the citations of the line: the first journal. -/
def journalReference (cs : List (List El)) : Option El :=
  cs.findSome? fun els => els.find? (·.ty = .journal)

/-! ### Files from the net -/

/-- The outcomes of the steps of a download (`api.py:86-92`); `none` means that the step does
not raise. -/
structure Download where
  /-- `requests.get` -/
  request : Option PyErr
  /-- `raise_for_status`; `HTTPError` is `PyErr.httpError` -/
  status : Option PyErr
  /-- `open(filepath, "wb")` -/
  openFile : Option PyErr
  /-- the chunks received and written -/
  chunks : List Bytes
  /-- an error while receiving, writing or closing, after these chunks -/
  stop : Option PyErr

/-- The `try` body (`api.py:86-92`): its outcome and the temporary file afterwards. `ext` is
`extract_references_from_file`, which may change the file and may remove it. -/
def downloadBody {R : Type} (d : Download) (ext : Bytes → Py R × Option Bytes) : Py R × Option Bytes :=
  match d.request with
  | some e => (.error e, some [])
  | none =>
    match d.status with
    | some e => (.error e, some [])
    | none =>
      match d.openFile with
      | some e => (.error e, some [])
      | none =>
        match d.stop with
        | some e => (.error e, some d.chunks.flatten)
        | none => ext d.chunks.flatten

/-- The `except` clause (`api.py:93-94`). -/
def mapHttp {R : Type} : Py R → Py R
  | .error .httpError => .error .fullTextNotAvailable
  | o => o

/-- `os.remove(filepath)` (`api.py:96`); `rm` is the failure of the system, if any. -/
def removeFile (rm : Option PyErr) (file : Option Bytes) : Option PyErr × Option Bytes :=
  match file with
  | none => (some .osError, none)
  | some b => match rm with
    | some e => (some e, some b)
    | none => (none, none)

/-- `extract_references_from_url` (`api.py:57-97`) after the temporary file has been created and
closed: the outcome and the temporary file afterwards. -/
def fromUrl {R : Type} (d : Download) (ext : Bytes → Py R × Option Bytes) (rm : Option PyErr) : Py R × Option Bytes :=
  let (out, file) := downloadBody d ext
  match removeFile rm file with
  | (some e, file) => (.error e, file)
  | (none, file) => (mapHttp out, file)

/-! ### Files -/

/-- `dedupe_list` of `inspire_utils` (`api.py:158`), not part of `/repo`: first occurrences in order. -/
def dedupeList : List Str → List Str
  | [] => []
  | x :: xs => x :: (dedupeList xs).filter (· != x)

/-- `update_reference_with_urls` (`record.py:162-164`); the set of URLs is given as a list in its
iteration order. -/
def updateWithUrls (f : Field) (urls : List Str) : Field := urls.foldl (fun f u => addSubfield f (py! "url") (some u)) f

/-- Body of the loop over references and TeX keys (`api.py:156-161`). -/
def attachKey (ref : Field) (t : Str × List Str) : Field :=
  let ref := updateWithUrls ref t.2
  let ref := match ref.get (py! "url") with
    | some (u :: us) => ref.set (py! "url") (dedupeList (u :: us))
    | _ => ref
  ref.set (py! "texkey") [t.1]

/-- The enrichment of the references of a PDF (`api.py:150-164`); `keys` is what
`extract_texkeys_and_urls_from_pdf` returned. -/
def attachKeys (refs : List Field) (keys : List (Str × List Str)) : List Field :=
  if keys.length = refs.length then List.zipWith attachKey refs keys else refs

/-- The steps that `extract_references_from_file` calls (`api.py:130-152`). -/
structure FileSteps where
  isFile : Bool
  /-- `get_plaintext_document_body(path, keep_layout)` -/
  body : Bool → Py (List Str)
  /-- `extract_references_from_fulltext` -/
  lines : List Str → Py (List Str)
  /-- `parse_references` -/
  parse : List Str → Py (List Field)
  /-- `magic.from_file(path, mime=True) == "application/pdf"` -/
  isPdf : Py Bool
  /-- `extract_texkeys_and_urls_from_pdf` -/
  keys : Py (List (Str × List Str))

/-- `extract_references_from_file` (`api.py:102-164`). -/
def fromFile (p : FileSteps) : Py (List Field) :=
  if !p.isFile then .error .fullTextNotAvailable
  else do
    let doc ← p.body false
    let ls ← p.lines doc
    let ls ← (if ls.isEmpty then do
        let doc ← p.body true
        p.lines doc
      else pure ls)
    let refs ← p.parse ls
    if ← p.isPdf then do
      let keys ← p.keys
      return attachKeys refs keys
    else return refs

end Py
