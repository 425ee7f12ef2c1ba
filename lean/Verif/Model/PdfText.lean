import Verif.Py.Re
import Verif.Model.PdfFile

/-!
# The text of a PDF file

Model of `convert_PDF_to_plaintext`, `/repo/refextract/documents/pdf.py:47-97`. What `pdftotext` writes is given.
-/

namespace Py

/-- `p_break_in_line` (`pdf.py:65`): `^\s*\f(.+)$`. -/
def breakInLine : Re := .bos ⬝ (.star true Re.space) ⬝ (Re.ch '\u000c') ⬝ (.group 1 (Re.plus Re.any)) ⬝ .eos

/-- The lines over which `for docline in pipe_pdftotext.stdout` runs (`pdf.py:81`), with their ends. -/
def byteLines : Bytes → List Bytes
  | [] => []
  | c :: s => if c = 10 then [c] :: byteLines s else match byteLines s with
    | [] => [[c]]
    | l :: ls => (c :: l) :: ls

/-- `docline.decode("utf-8")` (`pdf.py:82`). `UnicodeDecodeError` is a `ValueError`. -/
def decodeUtf8 (b : Bytes) : Py Str :=
  match (ByteArray.mk b.toArray).utf8Decode? with
  | some a => .ok a.toList
  | none => .error .valueError

/-- What the body of the loop (`pdf.py:84-93`) adds to the lines of the document. -/
def pdfLine [UnicodeDB] (l : Str) : List Str :=
  match reMatch breakInLine l with
  | none => [l]
  | some m => [['\u000c'], (m.group 1).getD []]

/-- `convert_PDF_to_plaintext` (`pdf.py:47-97`) after the check for the program, on what `pdftotext` writes. -/
def pdfLines [UnicodeDB] (out : Bytes) : Py (List Str) := do
  let ls ← (byteLines out).mapM fun b => do
    let l ← decodeUtf8 b
    return pdfLine l
  return ls.flatten

end Py
