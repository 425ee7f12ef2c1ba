import Verif.Py.Basic

/-!
# Cleaning a PDF file

Model of `clean_pdf_file`, `/repo/refextract/references/engine.py:1448-1471`.
-/

namespace Py

/-- The content of a file. -/
abbrev Bytes := List UInt8

/-- `b"%PDF-"` (`engine.py:1456`). -/
def pdfHeader : Bytes := [37, 80, 68, 70, 45]

/-- `b"%%EOF"` (`engine.py:1461`). -/
def pdfEof : Bytes := [37, 37, 69, 79, 70]

/-- `mmap.find(sub)`, `none` for -1 (`engine.py:1456`). -/
def findB (sub : Bytes) : Bytes → Option Nat
  | [] => if sub.isEmpty then some 0 else none
  | c :: cs => if sub.isPrefixOf (c :: cs) then some 0 else (findB sub cs).map (· + 1)

/-- `mmap.find` and `mmap.rfind` as Python integers (`engine.py:1456-1461`). -/
def pos (o : Option Nat) : Int :=
  match o with
  | some i => i
  | none => -1

/-- `mmap.move(0, src, count)` (`engine.py:1465`): `ValueError` when the count is negative or
the source range leaves the file. -/
def mmapMove (f : Bytes) (src : Nat) (count : Int) : Py Bytes :=
  if count < 0 then .error .valueError
  else if f.length < src + count.toNat then .error .valueError
  else .ok ((f.drop src).take count.toNat ++ f.drop count.toNat)

/-- `mmap.resize(size)` to at most the present size (`engine.py:1466`, `1470`): the outcome and
the new file. A negative size is a `ValueError`; for size 0 Linux truncates the file and then
refuses to map it. The sizes used by the code never exceed the file. -/
def mmapResize (f : Bytes) (size : Int) : Py Unit × Bytes :=
  if size < 0 then (.error .valueError, f)
  else if size = 0 then (.error .osError, [])
  else (.ok (), f.take size.toNat)

/-- `clean_pdf_file` (`engine.py:1448-1471`): the outcome of the call and the content of the
file afterwards. An empty file cannot be mapped (`ValueError`, `engine.py:1454`). Failures of
`open` and of the disk are not modelled. -/
def cleanPdf (f : Bytes) : Py Unit × Bytes :=
  if f.isEmpty then (.error .valueError, f)
  else
    match findB pdfHeader f with
    | none => (.ok (), f)
    | some start =>
      let fin := pos (rfind pdfEof f)
      let offset : Int := 5
      if 0 < start then
        match mmapMove f start (fin + offset - start) with
        | .error e => (.error e, f)
        | .ok f => mmapResize f (fin + offset - start)
      else if 0 < fin ∧ fin + offset ≠ f.length then mmapResize f (fin + offset - start)
      else (.ok (), f)

end Py
