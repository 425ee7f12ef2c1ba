import Verif.Lemmas.Cited
import Verif.Props.Alone
import Verif.Props.ArticleArxiv
import Verif.Props.UrlLine
import Verif.Props.PdfText

/-!
# Lists of references from the document to the records (C121)
-/

open Py Spec
open scoped List

namespace Props

theorem cited_alone [UnicodeDB] {undesirable : Str → Str} {lib : Lib} (hlib : PlainLibs lib) {kbs : Kbs} {n : Nat} {line : Str} {tables : List (List (Str × Str))}
    (h : Cited kbs n line tables) (hw : undesirable line = line) :
    ∃ rs st tables', parseReferences undesirable lib kbs defaultFormat none [line] = .ok (rs, st) ∧ Cited kbs n line tables' ∧
      All2 (fun table r => ∀ k, vals r k = under k table) tables' rs := by
  obtain ⟨ys, hy, hys⟩ := hlib.years
  obtain ⟨ys5, hy5, hys5⟩ := hlib.years5
  cases h with
  | article hl hK hj ho =>
    obtain ⟨r, h1, h2⟩ := C103 undesirable lib kbs n _ _ _ _ _ _ _ _ _ hl hK hj ho hlib.ascii hw
    exact ⟨_, _, _, h1, .article hl hK hj ho, .cons h2 .nil⟩
  | articleDoi hl hK hj ho hc =>
    obtain ⟨r, h1, h2⟩ := C119 undesirable lib kbs n _ _ _ _ _ _ _ _ _ _ _ _ hl hK hj ho hc hlib.unquoted hlib.ascii hw
    exact ⟨_, _, _, h1, .articleDoi hl hK hj ho hc, .cons h2 .nil⟩
  | articleArxiv hl hK hj ho hc =>
    obtain ⟨r, h1, h2⟩ := C120 undesirable lib kbs ys ys5 hy hy5 hys hys5 n _ _ _ _ _ _ _ _ _ _ _ _ hl hK hj ho hc hlib.ascii hw
    exact ⟨_, _, _, h1, .articleArxiv hl hK hj ho hc, .cons h2 .nil⟩
  | report hl hk ho hne _ _ =>
    obtain ⟨r, R, u, v, y, h1, h2, h3, h4⟩ := C109 undesirable lib kbs defaultFormat n _ _ _ _ _ hl hk ho hne hlib.ascii hw
    exact ⟨_, _, _, h1, .report hl hk ho hne h2 h3, .cons h4 .nil⟩
  | doi hl ho _ =>
    obtain ⟨r, u, v, y, h1, h3, h4⟩ := C110 undesirable lib kbs defaultFormat n _ _ _ _ hl ho hlib.unquoted hlib.ascii hw
    exact ⟨_, _, _, h1, .doi hl ho h3, .cons h4 .nil⟩
  | dois hl hne ho =>
    obtain ⟨rs, h1, h2⟩ := C115_partial undesirable lib kbs defaultFormat n _ _ hl hne ho hlib.unquoted hlib.ascii hw
    exact ⟨_, _, _, h1, .dois hl hne ho, h2⟩
  | arxiv hl ho hb _ =>
    obtain ⟨r, u, v, y, h1, h3, h4⟩ := C111 undesirable lib kbs defaultFormat ys ys5 hy hy5 hys hys5 n _ _ _ _ hl ho hb hlib.ascii hw
    exact ⟨_, _, _, h1, .arxiv hl ho hb h3, .cons h4 .nil⟩
  | url hl ho hb _ =>
    obtain ⟨r, u, v, y, h1, h3, h4⟩ := C114_partial undesirable lib kbs defaultFormat n _ _ _ _ hl ho hb hlib.ascii hw
    exact ⟨_, _, _, h1, .url hl ho hb h3, .cons h4 .nil⟩
  | text hl hk _ =>
    obtain ⟨r, table, h1, h2, h3⟩ := C107 undesirable lib kbs defaultFormat n _ hl hk hlib.ascii hw
    exact ⟨_, _, _, h1, .text hl hk h2, .cons h3 .nil⟩

/-- **C121.** A document with a list of references numbered in square brackets, each of which is a line, possibly broken, of the kinds of C103, C107, C109, C110, C111,
C114, C115, C119 and C120, gives exactly the records of these references, in their order, each with exactly the values of its reference. -/
theorem C121 [UnicodeDB] (undesirable : Str → Str) (lib : Lib) (hlib : PlainLibs lib) (kbs : Kbs) (hk : py! "key" ∉ kbs.tag.journalKeys)
    (body : List Str) (heading : Str) (gap : Nat) (entries : List Entry) (after : List Str) (h : PlainDocument body heading gap entries after)
    (hc : CitedList undesirable kbs entries) (source : Str) (hs : LinesOf source (documentLines body heading gap entries after)) :
    ∃ refs, fromString undesirable lib kbs defaultFormat none false source = .ok refs ∧ Listed kbs entries refs := by
  obtain ⟨lines, h1, h2⟩ := C96_lines_partial body heading gap entries after h source hs
  have key : ∀ (ps : List (Nat × Entry)) (lines : List Str), (∀ p ∈ ps, ∃ line tables, RefOf (solidPieces (entryLines p)) line ∧ undesirable line = line ∧ Cited kbs p.1 line tables) →
      All2 (fun p line => RefOf (solidPieces (entryLines p)) line) ps lines →
      ∀ blocks : List (List Field), All2 (fun l b => ∃ st, parseReferences undesirable lib kbs defaultFormat none [l] = .ok (b, st)) lines blocks →
      ∃ tss : List (List (List (Str × Str))), All2 (fun p tables => ∃ line, RefOf (solidPieces (entryLines p)) line ∧ Cited kbs p.1 line tables) ps tss ∧
        All2 (fun table r => ∀ k, vals r k = under k table) tss.flatten blocks.flatten := by
    intro ps lines hp hl
    induction hl with
    | nil =>
      intro blocks hb
      cases hb
      exact ⟨[], .nil, .nil⟩
    | cons hr _ ih =>
      rename_i p line ps lines hrest
      intro blocks hb
      cases hb with
      | cons hb hbs =>
        rename_i block blocks
        obtain ⟨tss, i1, i2⟩ := ih (fun q hq => hp q (by simp [hq])) blocks hbs
        obtain ⟨line', tables, c1, c2, c3⟩ := hp p (by simp)
        have e := refOf_unique hr c1
        subst e
        obtain ⟨rs, st, tables', d1, d2, d3⟩ := cited_alone hlib c3 c2
        obtain ⟨st', hb⟩ := hb
        rw [d1] at hb
        have e : rs = block := by
          have := Except.ok.inj hb
          exact (Prod.mk.inj this).1
        subst e
        exact ⟨tables' :: tss, .cons ⟨_, hr, d2⟩ i1, by rw [List.flatten_cons, List.flatten_cons]; exact all2_concat d3 i2⟩
  have fine : ∀ l ∈ lines, ∃ x, parseReferences undesirable lib kbs defaultFormat none [l] = .ok x := by
    intro l hl
    obtain ⟨p, hp, hr⟩ := all2_in h2 l hl
    obtain ⟨line', tables, c1, c2, c3⟩ := hc p hp
    have e := refOf_unique hr c1
    subst e
    obtain ⟨rs, st, tables', d1, -⟩ := cited_alone hlib c3 c2
    exact ⟨_, d1⟩
  rcases parse_alone (undesirable := undesirable) (lib := lib) hk (fmt := defaultFormat) (link := none) lines with ⟨e, -, l, hl, h4⟩ | ⟨blocks, stats, h3, h4⟩
  · obtain ⟨x, hx⟩ := fine l hl
    rw [hx] at h4
    cases h4
  · obtain ⟨tss, t1, t2⟩ := key _ _ hc h2 _ h4
    refine ⟨blocks.flatten, ?_, tss, t1, t2⟩
    unfold fromString
    rw [h1, okBind, h3]
    rfl

/-- **C121** for a text file: the same records. -/
theorem C121_file [UnicodeDB] (undesirable : Str → Str) (lib : Lib) (hlib : PlainLibs lib) (kbs : Kbs) (hk : py! "key" ∉ kbs.tag.journalKeys) (o : Outside)
    (body : List Str) (heading : Str) (entries : List Entry) (after : List Str) (h : PlainDocument body heading 0 entries after)
    (hc : CitedList undesirable kbs entries)
    (hs : ∀ l ∈ listLines entries, l.length < 4300) (hn : ∀ p ∈ numbered 1 entries, Airy (entryLines p))
    (hl : ∀ l ∈ documentLines body heading 0 entries after, OneLine l)
    (file : Bytes) (hf : file ≠ []) (hp : Absent "%PDF-".toUTF8.toList file) (hm : o.mime file = .ok (py! "text/plain"))
    (nl : Str) (hnl : nl ∈ lineEnds) (hd : o.decode file = .ok (fileText nl (documentLines body heading 0 entries after))) :
    ∃ refs, fromDocument undesirable lib kbs defaultFormat none o file = .ok refs ∧ Listed kbs entries refs := by
  have hsrc : LinesOf (join ['\n'] (documentLines body heading 0 entries after)) (documentLines body heading 0 entries after) :=
    ⟨by simp [documentLines], fun l hx => (hl l hx).1, rfl⟩
  obtain ⟨refs, h1, h2⟩ := C121 undesirable lib hlib kbs hk body heading 0 entries after h hc _ hsrc
  exact ⟨refs, by rw [C97_partial undesirable lib kbs defaultFormat none o body heading entries after h hs hn hl file hf hp hm nl hnl hd _ (.inl hsrc), h1], h2⟩

/-- **C121** for a PDF file whose TeX keys do not fit the references: the same records. -/
theorem C121_pdf [UnicodeDB] (undesirable : Str → Str) (lib : Lib) (hlib : PlainLibs lib) (kbs : Kbs) (hk : py! "key" ∉ kbs.tag.journalKeys) (o : Outside)
    (file mid : Bytes) (hf : PdfPart file mid) (hm : o.mime mid = .ok (py! "application/pdf"))
    (p : List Str) (ps : List (List Str)) (hp : ∀ l ∈ p, OneLine l ∧ '\u000c' ∉ l) (hps : ∀ q ∈ ps, TextPage q) (hne : ps ≠ [])
    (ho : o.pdftotext mid false = .ok (utf8 (pagesText (p :: ps))))
    (nh nf : Nat) (h1 : Count (HeadLine (belowBreaks ps)) nh) (h2 : Count (FootLine (p.map fun l => l ++ ['\n']) (belowBreaks ps)) nf)
    (h3 : ∀ q ∈ ps, nh + nf < q.length)
    (body : List Str) (heading : Str) (entries : List Entry) (after : List Str) (h : PlainDocument body heading 0 entries after)
    (hd : p ++ ps.flatMap (trimPage nh nf) = documentLines body heading 0 entries after) (hc : CitedList undesirable kbs entries)
    (hs : ∀ l ∈ listLines entries, l.length < 4300) (hn : ∀ p ∈ numbered 1 entries, Airy (entryLines p))
    (hl : ∀ l ∈ documentLines body heading 0 entries after, '\n' ∉ l)
    (keys : List (Str × List Str)) (hkeys : o.keys mid = .ok keys) :
    ∃ refs, Listed kbs entries refs ∧ (keys.length ≠ refs.length → fromDocument undesirable lib kbs defaultFormat none o file = .ok refs) := by
  have hsrc : LinesOf (join ['\n'] (documentLines body heading 0 entries after)) (documentLines body heading 0 entries after) :=
    ⟨by simp [documentLines], hl, rfl⟩
  obtain ⟨refs, g1, g2⟩ := C121 undesirable lib hlib kbs hk body heading 0 entries after h hc _ hsrc
  have key := C117_partial undesirable lib kbs defaultFormat none o file mid hf hm p ps hp hps hne ho nh nf h1 h2 h3 body heading entries after h hd hs hn _ hsrc keys hkeys
  rw [g1] at key
  obtain ⟨out, k1, k2, -⟩ := key
  exact ⟨refs, g2, fun hlen => by rw [k1, k2 hlen]⟩

/-! ### An instance -/

/-- Three references: an article, broken into two lines, an article with its DOI, and one with its arXiv identifier. -/
def threeArticles : List Entry :=
  [⟨py! " see also the review of early work, Phys. Lett.", [py! "B432 (1998) 17, and a note."]⟩,
   ⟨py! " see also a note, Nature 432 (2004) 27, doi: 10.1000/xyz, with a table.", []⟩,
   ⟨py! " see also a note, Nature 432 (2004) 27, ArXiv: 1501.00123v2 [hep-th], with a table.", []⟩]

attribute [local instance] asciiDB in
theorem three_cited : CitedList id knownKbs threeArticles := by
  intro p hp
  have hp : p = (1, threeArticles[0]) ∨ p = (2, threeArticles[1]) ∨ p = (3, threeArticles[2]) := by
    simpa [threeArticles, numbered] using hp
  have ref : ∀ {ps : List Str} {l : Str}, ps ≠ [] → prepareRef ps = l → RefOf ps l := fun h e => e ▸ refOf_prepare h
  rcases hp with rfl | rfl | rfl
  · refine ⟨_, _, ref (by decide +kernel) ?_, rfl, .article (t := knownTold) (tail := py! ", and a note.")
      { known_line with calm := calm_of (by decide +kernel) } (by decide +kernel) known_journal known_only⟩
    decide +kernel
  · refine ⟨_, _, ref (by decide +kernel) ?_, rfl, .articleDoi (t := natureTold)
      { nature_line with tidy := notIn (by decide +kernel) } (by decide +kernel) nature_journal nature_only nature_collaborations⟩
    decide +kernel
  · refine ⟨_, _, ref (by decide +kernel) ?_, rfl, .articleArxiv (t := natureTold)
      { article_arxiv_line with
        marker := calm_of (by decide +kernel)
        tidy := by
          have : untidy.all (fun x => !contains (bracketed 3 ++ ' ' :: articleArxivText (py! "see also a note, ") (py! "Nature") [] (py! " ") (py! "432 (2004) 27") (py! ", ")
            (py! "ArXiv: 1501.00123v2 [hep-th]") (py! ", with a table.")) x) = true := by decide +kernel
          intro x hx
          exact notIn (by simpa using List.all_eq_true.1 this x hx) }
      (by decide +kernel) nature_journal article_arxiv_only article_arxiv_collaborations⟩
    decide +kernel

theorem three_document : @PlainDocument asciiDB shortBody (py! "References") 0 threeArticles [] := by
  letI := asciiDB
  refine ⟨by unfold Heading; decide +kernel, by decide, by simp [threeArticles], by decide +kernel, ?_, by decide +kernel, ?_, by decide +kernel, ?_, ?_, by simp⟩
  · intro b hb l hl
    apply bareBrackets_free
    revert b l
    decide +kernel
  · intro l hl
    have key : ∀ l ∈ shortBody ++ listLines threeArticles ++ [], ∃ c ∈ l, isSpace c = false := by decide +kernel
    obtain ⟨c, hc, hn⟩ := key l hl
    rintro ⟨h1, -⟩
    rw [h1 c hc] at hn
    cases hn
  · intro b hb l hl
    have key : ∀ b ∈ threeArticles, ∀ l ∈ b.more, ∃ c ∈ l, isSpace c = false ∧ isDigitC c = false ∧ c ∉ ['.', '-', '+', '×', '−'] := by
      decide +kernel
    obtain ⟨c, hc, hn⟩ := key b hb l hl
    exact axis_not hc hn
  · intro b hb
    have : b = threeArticles[2] := by simpa [threeArticles] using hb.symm
    subst this
    decide +kernel

example : ∃ refs, @fromString asciiDB id yearsLib knownKbs defaultFormat none false
      (py! "Introduction\nAs is known [1], and from the references [2],\nthis holds.\nReferences\n[1] see also the review of early work, Phys. Lett.\nB432 (1998) 17, and a note.\n[2] see also a note, Nature 432 (2004) 27, doi: 10.1000/xyz, with a table.\n[3] see also a note, Nature 432 (2004) 27, ArXiv: 1501.00123v2 [hep-th], with a table.") = .ok refs ∧
    @Listed asciiDB knownKbs threeArticles refs := by
  letI := asciiDB
  refine C121 id yearsLib ⟨fun _ _ => rfl, fun _ _ => rfl, ⟨someYears, rfl, by unfold DigitsOf; decide⟩, ⟨someYears, rfl, by unfold DigitsOf; decide⟩⟩ knownKbs (by decide +kernel)
    shortBody (py! "References") 0 threeArticles [] three_document three_cited _ ⟨by decide, by decide +kernel, by decide +kernel⟩

end Props
