import Verif.Model.Api
import Verif.Model.Strings
import Verif.Model.PdfText

/-!
# Documents in files

Model of `get_plaintext_document_body` (`/repo/refextract/references/engine.py:1474-1497`), of
`extract_references_from_file` (`/repo/refextract/references/api.py:100-164`) with all its steps, and of
`extract_references_from_file_url` (`/repo/refextract/extract.py:47-60`).
-/

namespace Py

/-- What is outside of the repository: `magic.from_file(path, mime=True)` (`engine.py:1487`, `api.py:150`), the
decoding of a text file (`engine.py:1490`), what `pdftotext` writes with or without layout, an `OSError` without that program
(`documents/pdf.py:56-79`), and the keys and links of a PDF (`api.py:151`), all of them functions of the content of the file. -/
structure Outside where
  mime : Bytes → Py Str
  decode : Bytes → Py Str
  pdftotext : Bytes → Bool → Py Bytes
  keys : Bytes → Py (List (Str × List Str))

/-- The translation of line ends when a file is read as text (`engine.py:1490`). -/
def newlines : Str → Str
  | [] => []
  | c :: s => if c = '\r' then (if s.head? = some '\n' then newlines s else '\n' :: newlines s) else c :: newlines s

/-- `f.readlines()` (`engine.py:1491`): the lines with their ends. -/
def readLines : Str → List Str
  | [] => []
  | c :: s => if c = '\n' then [c] :: readLines s else match readLines s with
    | [] => [[c]]
    | l :: ls => (c :: l) :: ls

/-- `get_plaintext_document_body` (`engine.py:1474-1497`). The file is cleaned first, whatever its type. -/
def plaintextBody [UnicodeDB] (o : Outside) (file : Bytes) (keepLayout : Bool) : Py (List Str) :=
  match cleanPdf file with
  | (.error e, _) => .error e
  | (.ok _, file) => do
    let m ← o.mime file
    if m = py! "text/plain" then do
      let t ← o.decode file
      return readLines (newlines t)
    else if m = py! "application/pdf" then o.pdftotext file keepLayout >>= pdfLines
    else .error .unknownDocumentType

/-- The steps of `extract_references_from_file` (`api.py:130-152`) on a file with the content given. The document is read again with
layout when no references were found; the file has been cleaned by then. -/
def documentSteps [UnicodeDB] (undesirable : Str → Str) (lib : Lib) (kbs : Kbs) (fmt : List FmtPart) (link : Option Linker)
    (o : Outside) (file : Bytes) : FileSteps where
  isFile := true
  body keep := plaintextBody o (if keep then (cleanPdf file).2 else file) keep
  lines doc := do
    let r ← extractFulltext doc
    return r.1
  parse ls := do
    let r ← parseReferences undesirable lib kbs fmt link ls
    return r.1
  isPdf := do
    let m ← o.mime (cleanPdf file).2
    return m == py! "application/pdf"
  keys := o.keys (cleanPdf file).2

/-- `extract_references_from_file` (`api.py:100-164`) on a file that exists. -/
def fromDocument [UnicodeDB] (undesirable : Str → Str) (lib : Lib) (kbs : Kbs) (fmt : List FmtPart) (link : Option Linker)
    (o : Outside) (file : Bytes) : Py (List Field) :=
  fromFile (documentSteps undesirable lib kbs fmt link o file)

/-- `extract_references_from_file_url` (`extract.py:47-60`) after the temporary file has been created: `none` for the result `None`. -/
def fromFileUrl [UnicodeDB] (undesirable : Str → Str) (lib : Lib) (kbs : Kbs) (o : Outside) (d : Download) (rm : Option PyErr) : Option (List Field) :=
  match (fromUrl d (fun file => (fromDocument undesirable lib kbs commaFormat none o file, some (cleanPdf file).2)) rm).1 with
  | .ok refs => some refs
  | .error _ => none

end Py
