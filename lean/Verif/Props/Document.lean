import Verif.Lemmas.Document
import Verif.Props.Section
import Verif.Props.PdfFile
import Verif.Props.Api

/-!
# Documents in text files: C97
-/

namespace Props
open Py Spec
open scoped List

/-- **C97.** A text file gives the references that its text gives: for a document with a list of references numbered in square brackets below its
title, extraction from the file and from the string is the same, result and errors, with any of the three ends of lines in the file,
and with or without an end of the last line in the string. Empty lines may stand between
references. Missing: other documents; they may differ where an empty line follows the title (`C97_refuted`), and where a PDF header is quoted (`C97_refuted_header`). -/
theorem C97_partial [UnicodeDB] (undesirable : Str → Str) (lib : Lib) (kbs : Kbs) (fmt : List FmtPart) (link : Option Linker) (o : Outside)
    (body : List Str) (heading : Str) (entries : List Entry) (after : List Str) (h : PlainDocument body heading 0 entries after)
    (hs : ∀ l ∈ listLines entries, l.length < 4300) (hn : ∀ p ∈ numbered 1 entries, Airy (entryLines p))
    (hl : ∀ l ∈ documentLines body heading 0 entries after, OneLine l)
    (file : Bytes) (hf : file ≠ []) (hp : Absent "%PDF-".toUTF8.toList file) (hm : o.mime file = .ok (py! "text/plain"))
    (nl : Str) (hnl : nl ∈ lineEnds) (hd : o.decode file = .ok (fileText nl (documentLines body heading 0 entries after)))
    (source : Str) (hsrc : LinesOf source (documentLines body heading 0 entries after) ∨ source = fileText ['\n'] (documentLines body heading 0 entries after)) :
    fromDocument undesirable lib kbs fmt link o file = fromString undesirable lib kbs fmt link false source := by
  have hne : documentLines body heading 0 entries after ≠ [] := by simp [documentLines]
  have hlines : extractFulltext (splitOn '\n' source) = .ok ((numbered 1 entries).map fun p => prepareRef (solidPieces (entryLines p)), 0) := by
    rcases hsrc with ⟨h1, h2, rfl⟩ | rfl
    · rw [splitOn_lines h1 h2, plainDocument_lines h]
    · rw [splitOn_ended hne fun l hx => (hl l hx).1]
      obtain ⟨es', after', h1, h2, h3⟩ := plain_trailing h
      rw [← h2, plainDocument_lines h1, h3]
  have hnum : ((numbered 1 entries).map fun p => prepareRef (solidPieces (entryLines p))).isEmpty = false := by
    cases entries with
    | nil => exact absurd rfl h.nonempty
    | cons e es => rfl
  have hbody : plaintextBody o file false = .ok ((documentLines body heading 0 entries after).map ended) := by
    unfold plaintextBody
    simp only [C46_not_pdf file hf hp, hm, hd, okBind, if_true, newlines_file hnl hl, readLines_file hl]
    rfl
  unfold fromDocument fromFile fromString documentSteps stringLines
  simp only [Bool.not_true, Bool.false_eq_true, if_false, hbody, okBind, plainDocument_file h hs hn, hlines, C46_not_pdf file hf hp, hm]
  simp only [Pure.pure, Except.pure, okBind, hnum, Bool.false_eq_true, if_false]
  cases parseReferences undesirable lib kbs fmt link ((numbered 1 entries).map fun p => prepareRef (solidPieces (entryLines p))) with
  | error e => rfl
  | ok r => rfl

/-- **C97.** The same for a text file that is downloaded completely by `extract_references_from_file_url`: it gives the references of the text, and
`None` where the extraction from the text fails. -/
theorem C97_url_partial [UnicodeDB] (undesirable : Str → Str) (lib : Lib) (kbs : Kbs) (o : Outside)
    (body : List Str) (heading : Str) (entries : List Entry) (after : List Str) (h : PlainDocument body heading 0 entries after)
    (hs : ∀ l ∈ listLines entries, l.length < 4300) (hn : ∀ p ∈ numbered 1 entries, Airy (entryLines p))
    (hl : ∀ l ∈ documentLines body heading 0 entries after, OneLine l)
    (d : Download) (h1 : d.request = none) (h2 : d.status = none) (h3 : d.openFile = none) (h4 : d.stop = none)
    (hf : d.chunks.flatten ≠ []) (hp : Absent "%PDF-".toUTF8.toList d.chunks.flatten) (hm : o.mime d.chunks.flatten = .ok (py! "text/plain"))
    (nl : Str) (hnl : nl ∈ lineEnds) (hd : o.decode d.chunks.flatten = .ok (fileText nl (documentLines body heading 0 entries after)))
    (source : Str) (hsrc : LinesOf source (documentLines body heading 0 entries after)) :
    fromFileUrl undesirable lib kbs o d none = (fromString undesirable lib kbs commaFormat none false source).toOption := by
  have key := C97_partial undesirable lib kbs commaFormat none o body heading entries after h hs hn hl _ hf hp hm nl hnl hd source (.inl hsrc)
  have hb : fromUrl d (fun file => (fromDocument undesirable lib kbs commaFormat none o file, some (cleanPdf file).2)) none =
      (mapHttp (fromDocument undesirable lib kbs commaFormat none o d.chunks.flatten), none) := by
    unfold fromUrl downloadBody
    simp only [h1, h2, h3, h4]
    rfl
  unfold fromFileUrl
  rw [hb, key]
  cases fromString undesirable lib kbs commaFormat none false source with
  | error e => cases e <;> rfl
  | ok r => rfl

/-- A machine on which every file is a text file in ASCII. -/
def textOnly : Outside where
  mime _ := .ok (py! "text/plain")
  decode b := .ok (b.map fun x => Char.ofNat x.toNat)
  pdftotext _ _ := .ok []
  keys _ := .ok []

/-- The references of a text file: their markers and their texts. -/
def fileTexts (file : String) : Py (List (List Str × List Str)) :=
  (@fromDocument asciiDB id plainLib emptyKbs defaultFormat none textOnly file.toUTF8.toList).map fun rs =>
    rs.map fun r => (vals r (py! "linemarker"), vals r (py! "raw_ref"))

example : fileTexts "As is known [1].\r\n References\r\n[1] A. Smith,\r\n  foo\r\n\r\n[2] B. Jones\r\nAppendix\r\nx\r\n" =
    .ok [([py! "1"], [py! "[1] A. Smith, foo"]), ([py! "2"], [py! "[2] B. Jones"])] := by decide +kernel

example : documentTexts (py! "As is known [1].\n References\n[1] A. Smith,\n  foo\n\n[2] B. Jones\nAppendix\nx") =
    .ok [([py! "1"], [py! "[1] A. Smith, foo"]), ([py! "2"], [py! "[2] B. Jones"])] := by decide +kernel

/-- **C97 fails** for an empty line below the title: from the file there is one more reference, without marker and with an empty text. -/
theorem C97_refuted : fileTexts "Introduction\nReferences\n\n[1] A. Smith, foo\n[2] B. Jones\n" =
      .ok [([], [[]]), ([py! "1"], [py! "[1] A. Smith, foo"]), ([py! "2"], [py! "[2] B. Jones"])] ∧
    documentTexts (py! "Introduction\nReferences\n\n[1] A. Smith, foo\n[2] B. Jones\n") =
      .ok [([py! "1"], [py! "[1] A. Smith, foo"]), ([py! "2"], [py! "[2] B. Jones"])] := by
  decide +kernel

/-- **C97 fails** for a text that quotes the header of a PDF: the file is refused with an error, and the text is not. -/
theorem C97_refuted_header : fileTexts "On files that begin with %PDF-1.4\nReferences\n[1] A. Smith, foo\n[2] B. Jones\n" = .error .valueError ∧
    documentTexts (py! "On files that begin with %PDF-1.4\nReferences\n[1] A. Smith, foo\n[2] B. Jones\n") =
      .ok [([py! "1"], [py! "[1] A. Smith, foo"]), ([py! "2"], [py! "[2] B. Jones"])] := by
  decide +kernel

end Props
