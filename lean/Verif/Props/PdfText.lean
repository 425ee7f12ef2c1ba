import Verif.Lemmas.PdfText2
import Verif.Props.Document
import Verif.Props.Boundary

/-!
# The text of a PDF file: C116, C117
-/

namespace Props
open Py Spec
open scoped List

/-- **C116.** What `pdftotext` writes in UTF-8 is read completely: no character that is not white space is lost, added or moved. -/
theorem C116_complete [UnicodeDB] (t : Str) : ∃ ls, pdfLines (utf8 t) = .ok ls ∧ solidText ls.flatten = solidText t := by
  refine ⟨_, pdfLines_utf8 t, ?_⟩
  have key : ∀ ls : List Str, solidText (ls.flatMap pdfLine).flatten = solidText ls.flatten := by
    intro ls
    induction ls with
    | nil => rfl
    | cons l ls ih =>
      have := solid_line l
      unfold solidText at *
      rw [List.flatMap_cons, List.flatten_append, List.flatten_cons, List.filter_append, List.filter_append, ih, this]
  rw [key, readLines_flatten]

/-- **C116.** Anything else is refused. -/
theorem C116_refused [UnicodeDB] (out : Bytes) (h : ∀ t, out ≠ utf8 t) : pdfLines out = .error .valueError := by
  have hd : ∀ b, decodeUtf8 b = .error .valueError ∨ ∃ t, b = utf8 t := by
    intro b
    unfold decodeUtf8
    cases hb : (ByteArray.mk b.toArray).utf8Decode? with
    | none => exact .inl rfl
    | some a =>
      refine .inr ⟨a.toList, ?_⟩
      have e := ByteArray.utf8Encode_get_utf8Decode? (b := ByteArray.mk b.toArray) (h := by rw [hb]; rfl)
      simp only [hb, Option.get_some] at e
      have := congrArg (fun x => x.data.toList) e
      simpa [List.utf8Encode, utf8] using this.symm
  have hf : ∀ out : Bytes, (byteLines out).flatten = out := by
    intro out
    induction out with
    | nil => rfl
    | cons c t ih =>
      rw [byteLines]
      split
      · rw [List.flatten_cons, ih]; rfl
      · cases hr : byteLines t with
        | nil => rw [hr] at ih; simp at ih; subst ih; rfl
        | cons l ls => rw [hr] at ih; simp only [List.flatten_cons] at ih ⊢; rw [← ih]; rfl
  have key : ∀ ls : List Bytes, (∀ t, ls.flatten ≠ utf8 t) →
      ls.mapM (fun b => do let l ← decodeUtf8 b; return pdfLine l : Bytes → Py (List Str)) = .error .valueError := by
    intro ls
    induction ls with
    | nil => exact fun h => absurd rfl (h [])
    | cons b ls ih =>
      intro h
      rw [List.mapM_cons]
      rcases hd b with e | ⟨t, rfl⟩
      · rw [e]; rfl
      · rw [decode_encode, ih fun s e => h (t ++ s) (by rw [List.flatten_cons, e, utf8_append])]
        rfl
  unfold pdfLines
  rw [key _ (by rw [hf]; exact h)]
  rfl

/-- **C116.** Every line is kept as it is, but for a line with a page break in front of its text, which becomes two: the page break, and the
text behind the last page break that is followed by text. -/
theorem C116_lines [UnicodeDB] (ls : List Str) (h : ∀ l ∈ ls, '\n' ∉ l) :
    ∃ pieces, pdfLines (utf8 (fileText ['\n'] ls)) = .ok pieces.flatten ∧
      All2 (fun l ps => (ps = [l ++ ['\n']] ∧ ∀ t, ¬ BreakAndText (l ++ ['\n']) t) ∨
        ∃ t, ps = [['\u000c'], t] ∧ BreakAndText (l ++ ['\n']) t ∧ ∀ t', ¬ BreakAndText t t') ls pieces := by
  have e : readLines (fileText ['\n'] ls) = ls.map ended := by
    induction ls with
    | nil => rfl
    | cons l ls ih =>
      have e : fileText ['\n'] (l :: ls) = l ++ '\n' :: fileText ['\n'] ls := by simp [fileText]
      rw [e, readLines_line (h l (by simp)), ih fun x hx => h x (by simp [hx])]
      rfl
  refine ⟨(ls.map ended).map pdfLine, by rw [pdfLines_utf8, e, List.flatMap_def], ?_⟩
  clear h e
  induction ls with
  | nil => exact .nil
  | cons l ls ih => exact .cons (pdfLine_cases (ended l)) ih

example : @pdfLines asciiDB (utf8 (py! "Résumé\n \u000c\u000c [1] A\n\u000c\nb\u000cc\n\u000c")) =
    .ok [py! "Résumé\n", py! "\u000c", py! " [1] A", py! "\u000c\n", py! "b\u000cc\n", py! "\u000c"] := by decide +kernel

example : @pdfLines asciiDB [82, 233, 10] = .error .valueError := by decide +kernel

/-- **C116.** Pages with text in their first lines, behind the first page, come out page by page, with a page break alone in its line between pages and at the end.
Missing: pages without text, see `C116_refuted`. -/
theorem C116_pages_partial [UnicodeDB] (p : List Str) (ps : List (List Str)) (hp : ∀ l ∈ p, OneLine l ∧ '\u000c' ∉ l) (h : ∀ q ∈ ps, TextPage q) :
    pdfLines (utf8 (pagesText (p :: ps))) =
      .ok (p.map (fun l => l ++ ['\n']) ++ (ps.flatMap fun q => ['\u000c'] :: belowBreak q) ++ [['\u000c']]) := pdf_pages hp h

example : @pdfLines asciiDB (utf8 (pagesText [[[], py! "a", py! " b"], [py! " c", [], py! "d"], [py! "e"]])) =
    .ok [py! "\n", py! "a\n", py! " b\n", py! "\u000c", py! " c", py! "\n", py! "d\n", py! "\u000c", py! "e", py! "\u000c"] := by decide +kernel

/-- **C116 fails** for an empty page: its page break is lost; three pages give two page breaks. -/
theorem C116_refuted : @pdfLines asciiDB (utf8 (pagesText [[py! "a"], [], [py! "b"]])) = .ok [py! "a\n", py! "\u000c", py! "b", py! "\u000c"] := by
  decide +kernel

/-- The page breaks and the pages below them, as the document is read. -/
def belowBreaks (ps : List (List Str)) : List (Str × List Str) := ps.map (fun q => (['\u000c'], belowBreak q)) ++ [(['\u000c'], [])]

/-- **C117.** A PDF gives the references of its text: for a PDF file, with whatever bytes around its PDF part, with two pages or more that
are longer than their repeated headers and footers, and whose text without those is a document with a list of references numbered in square
brackets below its title, the references are those of that text; they get the TeX keys and links of the file when there are as many keys as
references. Errors are the same, too. Missing: other documents, PDF files of one page, and pages without text in their first lines. -/
theorem C117_partial [UnicodeDB] (undesirable : Str → Str) (lib : Lib) (kbs : Kbs) (fmt : List FmtPart) (link : Option Linker) (o : Outside)
    (file mid : Bytes) (hf : PdfPart file mid) (hm : o.mime mid = .ok (py! "application/pdf"))
    (p : List Str) (ps : List (List Str)) (hp : ∀ l ∈ p, OneLine l ∧ '\u000c' ∉ l) (hps : ∀ q ∈ ps, TextPage q) (hne : ps ≠ [])
    (ho : o.pdftotext mid false = .ok (utf8 (pagesText (p :: ps))))
    (nh nf : Nat) (h1 : Count (HeadLine (belowBreaks ps)) nh) (h2 : Count (FootLine (p.map fun l => l ++ ['\n']) (belowBreaks ps)) nf)
    (h3 : ∀ q ∈ ps, nh + nf < q.length)
    (body : List Str) (heading : Str) (entries : List Entry) (after : List Str) (h : PlainDocument body heading 0 entries after)
    (hd : p ++ ps.flatMap (trimPage nh nf) = documentLines body heading 0 entries after)
    (hs : ∀ l ∈ listLines entries, l.length < 4300) (hn : ∀ p ∈ numbered 1 entries, Airy (entryLines p))
    (source : Str) (hsrc : LinesOf source (documentLines body heading 0 entries after))
    (keys : List (Str × List Str)) (hk : o.keys mid = .ok keys) :
    match fromString undesirable lib kbs fmt link false source with
    | .error e => fromDocument undesirable lib kbs fmt link o file = .error e
    | .ok rs => ∃ out, fromDocument undesirable lib kbs fmt link o file = .ok out ∧
      (keys.length ≠ rs.length → out = rs) ∧
      (keys.length = rs.length → All2 (fun (p : Field × (Str × List Str)) (r : Field) =>
        vals r (py! "texkey") = [p.2.1] ∧ FirstOccurrences (vals p.1 (py! "url") ++ nonEmpty p.2.2) (vals r (py! "url"))
        ∧ ∀ k, k ≠ py! "texkey" → k ≠ py! "url" → vals r k = vals p.1 k) (rs.zip keys) out) := by
  have hlines : extractFulltext (splitOn '\n' source) = .ok ((numbered 1 entries).map fun p => prepareRef (solidPieces (entryLines p)), 0) := by
    obtain ⟨g1, g2, rfl⟩ := hsrc
    rw [splitOn_lines g1 g2, plainDocument_lines h]
  have hnum : ((numbered 1 entries).map fun p => prepareRef (solidPieces (entryLines p))).isEmpty = false := by
    cases entries with
    | nil => exact absurd rfl h.nonempty
    | cons e es => rfl
  -- the pages as they are read
  have hplain : ∀ l, '\u000c' ∉ l → ¬ BreakLine l := fun l hl hb => hl hb.2
  have hfirst : ∀ l ∈ p.map ended, '\u000c' ∉ l := by
    intro l hl hc
    obtain ⟨x, hx, rfl⟩ := List.mem_map.1 hl
    rcases List.mem_append.1 hc with hc | hc
    · exact (hp x hx).2 hc
    · simp at hc
  have hrest : ∀ q ∈ ps, ∀ l ∈ belowBreak q, '\u000c' ∉ l := by
    intro q hq l hl hc
    obtain ⟨x, hx, hr⟩ := all2_from (ends_below (hps q hq)) hl
    have := ((hps q hq).lines x hx).2
    rcases hr with rfl | ⟨rfl, -⟩
    · rcases List.mem_append.1 hc with hc | hc
      · exact this hc
      · simp at hc
    · exact this hc
  have hbreak : BreakLine ['\u000c'] := ⟨by decide, by simp⟩
  have hdoc : p.map ended ++ (ps.flatMap fun q => ['\u000c'] :: belowBreak q) ++ [['\u000c']] =
      p.map ended ++ (belowBreaks ps).flatMap fun q => q.1 :: q.2 := by
    simp [belowBreaks, List.flatMap_map]
  have hpaged : Paged (p.map ended ++ (ps.flatMap fun q => ['\u000c'] :: belowBreak q) ++ [['\u000c']]) (p.map ended)
      (ps.map (fun q => (['\u000c'], belowBreak q)) ++ [(['\u000c'], [])]) := by
    refine ⟨hdoc, ?_, fun l hl => hplain l (hfirst l hl), ?_⟩
    · intro q hq
      rcases List.mem_append.1 hq with hq | hq
      · obtain ⟨x, -, rfl⟩ := List.mem_map.1 hq
        exact hbreak
      · rw [List.mem_singleton.1 hq]
        exact hbreak
    · intro q hq l hl
      rcases List.mem_append.1 hq with hq | hq
      · obtain ⟨x, hx, rfl⟩ := List.mem_map.1 hq
        exact hplain l (hrest x hx l hl)
      · rw [List.mem_singleton.1 hq] at hl
        cases hl
  have hhead : heading ∈ p ++ ps.flatMap (trimPage nh nf) := by rw [hd]; simp [documentLines]
  have hin : ps.map (fun q => (['\u000c'], belowBreak q)) ≠ [] := by simpa using hne
  have hall : All2 Ends (p ++ ps.flatMap (trimPage nh nf))
      (p.map ended ++ (ps.map fun q => (['\u000c'], belowBreak q)).flatMap (fun q => trimPage nh nf q.2) ++ []) := by
    rw [List.append_nil]
    refine all2_app (ends_refl p) ?_
    clear hpaged hdoc hd hhead h1 h2 h3 ho hne hrest hin
    induction ps with
    | nil => exact .nil
    | cons q qs ih =>
      rw [List.map_cons, List.flatMap_cons, List.flatMap_cons]
      exact all2_app (all2_trim (ends_below (hps q (by simp))) nh nf) (ih fun x hx => hps x (by simp [hx]))
  have hsub : ∀ l ∈ p.map ended ++ (ps.map fun q => (['\u000c'], belowBreak q)).flatMap (fun q => trimPage nh nf q.2) ++ [],
      l ∈ p.map ended ∨ ∃ q ∈ ps, l ∈ belowBreak q := by
    intro l hl
    rw [List.append_nil] at hl
    rcases List.mem_append.1 hl with hl | hl
    · exact .inl hl
    · obtain ⟨x, hx, hl⟩ := List.mem_flatMap.1 hl
      obtain ⟨q, hq, rfl⟩ := List.mem_map.1 hx
      exact .inr ⟨q, hq, List.mem_of_mem_drop (List.mem_of_mem_take hl)⟩
  have htext : ∃ l ∈ p.map ended ++ (ps.flatMap fun q => ['\u000c'] :: belowBreak q) ++ [['\u000c']], ¬ Blank l := by
    obtain ⟨l, hl, hr⟩ := all2_to hall hhead
    have hnb : ¬ Blank l := by
      rintro ⟨-, hb⟩
      obtain ⟨⟨c, hc, hl1⟩, -⟩ := letters_of (List.mem_append_left _ h.heading)
      have : c ∈ l := by
        rcases hr with rfl | ⟨rfl, -⟩
        · exact List.mem_append_left _ hc
        · exact hc
      have := hb c this
      rw [(letter_facts hl1).1] at this
      cases this
    refine ⟨l, ?_, hnb⟩
    rcases hsub l hl with hl | ⟨q, hq, hl⟩
    · simp only [List.mem_append]
      exact .inl (.inl hl)
    · simp only [List.mem_append, List.mem_flatMap]
      exact .inl (.inr ⟨q, hq, List.mem_cons_of_mem _ hl⟩)
  obtain ⟨nh', nf', c1, c2, c3, -⟩ := C64 hpaged hin htext
  have e1 : nh' = nh := count_unique c1 h1
  have e2 : nf' = nf := count_unique c2 h2
  subst e1 e2
  have c3 := c3 (by
    intro q hq
    obtain ⟨x, hx, rfl⟩ := List.mem_map.1 hq
    rw [← all2_len (ends_below (hps x hx))]
    exact h3 x hx)
  have hfull : extractFulltext (p.map ended ++ (ps.flatMap fun q => ['\u000c'] :: belowBreak q) ++ [['\u000c']]) =
      .ok ((numbered 1 entries).map fun p => prepareRef (solidPieces (entryLines p)), 0) := by
    rw [hd] at hall
    have hx := plainDocument_ends h hs hn hall
    have hb := c3
    have hkeep := C37_few (doc := p.map ended ++ (ps.map fun q => (['\u000c'], belowBreak q)).flatMap (fun q => trimPage nh' nf' q.2) ++ [])
      (first := p.map ended ++ (ps.map fun q => (['\u000c'], belowBreak q)).flatMap (fun q => trimPage nh' nf' q.2) ++ []) (rest := [])
      ⟨by simp, by simp, by
        intro l hl
        rcases hsub l hl with hl | ⟨q, hq, hl⟩
        · exact hplain l (hfirst l hl)
        · exact hplain l (hrest q hq l hl), by simp⟩ (by simp)
    unfold extractFulltext at hx ⊢
    rw [hkeep, okBind] at hx
    rw [c3, okBind]
    exact hx
  have hbody : plaintextBody o file false = .ok (p.map ended ++ (ps.flatMap fun q => ['\u000c'] :: belowBreak q) ++ [['\u000c']]) := by
    unfold plaintextBody
    simp only [C46_cut file mid hf, hm, ho, okBind, pdf_pages hp hps]
    rfl
  unfold fromDocument fromFile fromString documentSteps stringLines
  simp only [Bool.not_true, Bool.false_eq_true, if_false, hbody, okBind, hfull, hlines, C46_cut file mid hf, hm, hk]
  simp only [Pure.pure, Except.pure, okBind, hnum, Bool.false_eq_true, if_false]
  cases parseReferences undesirable lib kbs fmt link ((numbered 1 entries).map fun p => prepareRef (solidPieces (entryLines p))) with
  | error e => rfl
  | ok r =>
    refine ⟨attachKeys r.1 keys, rfl, fun hl => by rw [attachKeys, if_neg hl], fun hl => C49_attached r.1 keys hl⟩

/-- A machine on which every file is a PDF with these pages and keys. -/
def pdfMachine (pages : List (List Str)) (keys : List (Str × List Str)) : Outside where
  mime _ := .ok (py! "application/pdf")
  decode _ := .error .valueError
  pdftotext _ _ := .ok (utf8 (pagesText pages))
  keys _ := .ok keys

/-- The references of a PDF with these pages: their markers, texts and keys. -/
def pdfTexts (pages : List (List Str)) (keys : List (Str × List Str)) : Py (List (List Str × List Str × List Str)) :=
  (@fromDocument asciiDB id plainLib emptyKbs defaultFormat none (pdfMachine pages keys) "x%PDF-1.4 a%%EOF y".toUTF8.toList).map fun rs =>
    rs.map fun r => (vals r (py! "linemarker"), vals r (py! "raw_ref"), vals r (py! "texkey"))

example : pdfTexts [[py! "As is known [1].", py! " References"], [py! "[1] A. Smith,", py! "  foo"], [py! "bar", py! "[2] B. Jones"]]
    [(py! "Smith:2001", []), (py! "Jones:2002", [])] =
    .ok [([py! "1"], [py! "[1] A. Smith, foo bar"], [py! "Smith:2001"]), ([py! "2"], [py! "[2] B. Jones"], [py! "Jones:2002"])] := by
  decide +kernel

example : pdfTexts [[py! "As is known [1].", py! " References"], [py! "A. Author", py! "[1] A. Smith,", py! "2"], [py! "A. Author", py! "foo", py! "3"],
      [py! "A. Author", py! "[2] B. Jones", py! "4"], [py! "A. Author", py! "bar", py! "5"]] [] =
    .ok [([py! "1"], [py! "[1] A. Smith, foo"], []), ([py! "2"], [py! "[2] B. Jones bar"], [])] := by
  decide +kernel

/-- **C117.** A file that is neither text nor PDF is refused. -/
theorem C117_other [UnicodeDB] (undesirable : Str → Str) (lib : Lib) (kbs : Kbs) (fmt : List FmtPart) (link : Option Linker) (o : Outside)
    (file : Bytes) (hf : file ≠ []) (hp : Absent "%PDF-".toUTF8.toList file) (m : Str) (hm : o.mime file = .ok m)
    (h1 : m ≠ py! "text/plain") (h2 : m ≠ py! "application/pdf") :
    fromDocument undesirable lib kbs fmt link o file = .error .unknownDocumentType := by
  unfold fromDocument fromFile documentSteps plaintextBody
  simp only [Bool.not_true, Bool.false_eq_true, if_false, C46_not_pdf file hf hp, hm, okBind, h1, h2]
  rfl

end Props
