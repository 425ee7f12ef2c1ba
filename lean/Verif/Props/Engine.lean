import Verif.Lemmas.Complete
import Verif.Lemmas.Parse3
import Verif.Lemmas.Record2
import Verif.Model.Kbs
import Verif.Props.Record
import Verif.Props.Post
import Verif.Py.Sample

/-!
# Whole lists of reference lines: C01, C30, C58, C59, C70
-/

namespace Props
open Py Spec

/-- Knowledge bases without entries. -/
def emptyKbs : Kbs := ⟨⟨[], [], [], [], [], [], [], [], []⟩, [], []⟩

/-- The libraries for texts of ASCII letters. -/
def plainLib : Lib := ⟨id, id, .fail, .fail⟩

theorem vals_raw {els : List El} {marker raw : Str} {fmt : List FmtPart} {f : Field} (h : buildReferenceFields els marker raw fmt = .ok f) :
    vals f (py! "raw_ref") = [raw] := by
  obtain ⟨h1, _⟩ := build_emits h
  have hk : (els.flatMap (elEmits fmt)).filter (·.1 = py! "raw_ref") = [] := by
    rw [List.filter_eq_nil_iff]
    intro p hp
    obtain ⟨e, _, he⟩ := List.mem_flatMap.1 hp
    simpa using (emits_keys fmt e p he).2.1
  rw [vals_eq, h1, values_addAll, hk, Field.values, Field.get_set]
  simp

/-- **C01.** The references returned for a list of lines are made of one block for each line, in the
order of the lines; no block is empty and every reference in it has exactly the line, as it was given,
as its raw text. -/
theorem C01_raw_lines [UnicodeDB] (undesirable : Str → Str) (lib : Lib) (kbs : Kbs) (fmt : List FmtPart) (link : Option Linker)
    (lines : List Str) (refs : List Field) (stats : List Nat)
    (h : parseReferences undesirable lib kbs fmt link lines = .ok (refs, stats)) :
    ∃ blocks : List (List Field), refs = blocks.flatten ∧
      All2 (fun line block => block ≠ [] ∧ ∀ r ∈ block, vals r (py! "raw_ref") = [line]) lines blocks := by
  obtain ⟨ps, blocks, h1, h2, h3, -⟩ := parseReferences_ok h
  refine ⟨blocks, h2, all2_imp ?_ (all2_trans h1 h3)⟩
  rintro line block ⟨p, ⟨hr, bad, bad', hp⟩, hb⟩
  refine ⟨all2_ne hb (parseReferenceLine_ok hp).1, fun r hr' => ?_⟩
  obtain ⟨els, -, he⟩ := all2_mem hb hr'
  rw [vals_raw he, hr]

set_option synthInstance.maxSize 1000 in
example : @parseReferences asciiDB id plainLib emptyKbs defaultFormat none [py! "[1] One. ", py! "[2] Two; Three"] = .ok (
    [[(py! "linemarker", [py! "1"]), (py! "raw_ref", [py! "[1] One. "]), (py! "misc", [py! "One"])],
     [(py! "linemarker", [py! "2"]), (py! "raw_ref", [py! "[2] Two; Three"]), (py! "misc", [py! "Two"])],
     [(py! "linemarker", [py! "2"]), (py! "raw_ref", [py! "[2] Two; Three"]), (py! "misc", [py! "Three"])]],
    [0, 0, 0, 0, 0, 0, 1]) := by
  decide +kernel

/-- **C70.** All references made from one line have the same line marker, or none of them has one. -/
theorem C70_same_marker [UnicodeDB] (undesirable : Str → Str) (lib : Lib) (kbs : Kbs) (fmt : List FmtPart) (link : Option Linker)
    (lines : List Str) (refs : List Field) (stats : List Nat)
    (h : parseReferences undesirable lib kbs fmt link lines = .ok (refs, stats)) :
    ∃ blocks : List (List Field), refs = blocks.flatten ∧
      All2 (fun line block => ∃ ms : List Str, ms.length ≤ 1 ∧
        ∀ r ∈ block, vals r (py! "raw_ref") = [line] ∧ vals r (py! "linemarker") = ms) lines blocks := by
  obtain ⟨ps, blocks, h1, h2, h3, -⟩ := parseReferences_ok h
  refine ⟨blocks, h2, all2_imp ?_ (all2_trans h1 h3)⟩
  rintro line block ⟨p, ⟨hr, bad, bad', hp⟩, hb⟩
  have hm : ∀ r ∈ block, vals r (py! "linemarker") = ((createReferenceField p.1.marker).set (py! "raw_ref") [line]).values (py! "linemarker") := by
    intro r hr'
    obtain ⟨els, -, he⟩ := all2_mem hb hr'
    obtain ⟨e1, -⟩ := build_emits he
    have hk : (els.flatMap (elEmits fmt)).filter (·.1 = py! "linemarker") = [] := by
      rw [List.filter_eq_nil_iff]
      intro q hq
      obtain ⟨e, _, he⟩ := List.mem_flatMap.1 hq
      simpa using (emits_keys fmt e q he).2.2
    rw [vals_eq, e1, values_addAll, hk, hr]
    simp
  refine ⟨_, ?_, fun r hr' => ⟨?_, hm r hr'⟩⟩
  · rw [Field.values, Field.get_set, create_eq]
    rw [if_neg (by decide)]
    split <;> simp [Field.get]
  · obtain ⟨els, -, he⟩ := all2_mem hb hr'
    rw [vals_raw he, hr]

/-! ### C30: counters -/

/-- **C30**, what holds: the counters of a line are the numbers of elements read off it. -/
theorem C30_line [UnicodeDB] (line : Str) (dois : List Str) (urls : List (Str × Str)) (els : List El) (n : Counts)
    (h : parseTagged line dois urls = .ok (els, n)) :
    [n.reportnum, n.title, n.auth, n.url, n.doi, n.misc] = tally els :=
  (parseTagged_counted h).symm

/-- **C30**, what holds for a list of lines. Full statement: the counters returned for a list of lines
are the sums of the counters of its lines. This is refuted by `C30_not_summed`: the counters returned are
those of the last line alone, and zero when there is no line. -/
theorem C30_partial [UnicodeDB] (undesirable : Str → Str) (lib : Lib) (kbs : Kbs) (fmt : List FmtPart) (link : Option Linker)
    (lines : List Str) (refs : List Field) (stats : List Nat)
    (h : parseReferences undesirable lib kbs fmt link lines = .ok (refs, stats)) :
    (lines = [] → stats = [0, 0, 0, 0, 0, 0, 0]) ∧
    ∀ ls l, lines = ls ++ [l] → ∀ refs' stats', parseReferences undesirable lib kbs fmt link [l] = .ok (refs', stats') → stats = stats' := by
  obtain ⟨ps, blocks, h1, h2, h3, h4⟩ := parseReferences_ok h
  constructor
  · rintro rfl
    cases h1
    cases h4
    rfl
  · rintro ls l rfl refs' stats' h'
    obtain ⟨ps', blocks', h1', -, -, h4'⟩ := parseReferences_ok h'
    obtain ⟨qs, q, rfl, hq⟩ := all2_unsnoc h1
    cases h1' with
    | cons r t =>
      cases t
      rename_i q'
      simp only [List.map_append, List.map_cons, List.map_nil, List.getLast?_append, List.getLast?_singleton, Option.some_or, Option.getD_some] at h4
      simp only [List.map_cons, List.map_nil, List.getLast?_singleton, Option.getD_some] at h4'
      have : q.2 = q'.2 := line_counts hq r
      rw [this, h4'] at h4
      cases h4
      rfl

set_option synthInstance.maxSize 1000 in
/-- The counters of two lines are not the sums of the counters of the lines. -/
theorem C30_not_summed : ∃ r1 r2 r12,
    @parseReferences asciiDB id plainLib emptyKbs defaultFormat none [py! "[1] One."] = .ok (r1, [0, 0, 0, 0, 0, 0, 1]) ∧
    @parseReferences asciiDB id plainLib emptyKbs defaultFormat none [py! "[2] See http://a.b/c"] = .ok (r2, [0, 0, 0, 0, 1, 0, 0]) ∧
    @parseReferences asciiDB id plainLib emptyKbs defaultFormat none [py! "[1] One.", py! "[2] See http://a.b/c"] =
      .ok (r12, [0, 0, 0, 0, 1, 0, 0]) :=
  ⟨[[(py! "linemarker", [py! "1"]), (py! "raw_ref", [py! "[1] One."]), (py! "misc", [py! "One"])]],
   [[(py! "linemarker", [py! "2"]), (py! "raw_ref", [py! "[2] See http://a.b/c"]), (py! "misc", [py! "See"]), (py! "url", [py! "http://a.b/c"])]],
   [[(py! "linemarker", [py! "1"]), (py! "raw_ref", [py! "[1] One."]), (py! "misc", [py! "One"])],
    [(py! "linemarker", [py! "2"]), (py! "raw_ref", [py! "[2] See http://a.b/c"]), (py! "misc", [py! "See"]), (py! "url", [py! "http://a.b/c"])]],
   by decide +kernel, by decide +kernel, by decide +kernel⟩

/-! ### C58: no missing entry -/

/-- **C58.** What is done with the elements read off a tagged line never fails because an entry is missing
in an element or in the table of books. It can fail only with a `ValueError` for a page of digits that are
no number when there are special journals, with an `IndexError` or a `TypeError` when there are books, and
with an error of the linker. -/
theorem C58_errors [UnicodeDB] (line : Str) (dois : List Str) (urls : List (Str × Str)) (els : List El) (n : Counts)
    (h : parseTagged line dois urls = .ok (els, n)) (special : List Str) (books : Books) (hb : BooksOk books) (link : Option Linker)
    (e : PyErr) (he : postProcess special books link els = .error e) :
    e ≠ .keyError ∧ ((e = .valueError ∧ special ≠ [] ∧ ∃ x ∈ els, ∃ p, x.page = some (some p) ∧ UnreadableDigits p) ∨
      (books ≠ [] ∧ (e = .indexError ∨ e = .typeError)) ∨ ∃ l x, link = some l ∧ l x = .error e) := by
  have hs := safe_post (E := fun e => e ≠ .keyError ∧
      ((e = .valueError ∧ special ≠ [] ∧ ∃ x ∈ els, ∃ p, x.page = some (some p) ∧ UnreadableDigits p) ∨
      (books ≠ [] ∧ (e = .indexError ∨ e = .typeError)) ∨ ∃ l x, link = some l ∧ l x = .error e))
    (special := special) (link := link) (.inl hb)
    ⟨fun h1 h2 => ⟨by simp, .inl ⟨rfl, h1, ?_⟩⟩, fun h => ⟨by simp, .inr (.inl ⟨h, .inl rfl⟩)⟩, fun h => ⟨by simp, .inr (.inl ⟨h, .inr rfl⟩)⟩,
      fun l x e hl hx h1 h2 => ⟨h1, .inr (.inr ⟨l, x, hl, hx⟩)⟩⟩ (fun x hx => (parseTagged_parsed h x hx).1)
  · rw [he] at hs
    exact hs
  · obtain ⟨x, hx, p, y, h1, h2, h3⟩ := h2
    exact ⟨x, hx, p, h1, unreadable h3 h2⟩

/-- **C58.** With any format that does not ask for the last page, making the reference never fails. -/
theorem C58_record [UnicodeDB] (line : Str) (dois : List Str) (urls : List (Str × Str)) (els : List El) (n : Counts)
    (h : parseTagged line dois urls = .ok (els, n)) (special : List Str) (books : Books) (link : Option Linker) (cs : List (List El))
    (hp : postProcess special books link els = .ok cs) (c : List El) (hc : c ∈ cs) (marker raw : Str) (fmt : List FmtPart)
    (hf : FmtPart.key .pageEnd ∉ fmt) : ∃ f, buildReferenceFields c marker raw fmt = .ok f :=
  build_complete (hf := hf) (post_complete (fun x hx => (parseTagged_parsed h x hx).1) hp c hc)

/-- The table of books that is read from a file can be looked up by the title in upper case. Putting a
text in upper case a second time does not change it. -/
theorem C58_books [UnicodeDB] (hup : ∀ s, upper (upper s) = upper s) (rows : List (List Str)) (books : Books)
    (h : buildBooks rows = .ok books) : BooksOk books :=
  books_ok hup h

example : @parseTagged asciiDB (py! "A <cds.JOURNAL>J</cds.JOURNAL> <cds.VOL>1</cds.VOL> <cds.PG>2</cds.PG> <cds.ISBN>3</cds.ISBN>") [] [] = .ok
      ([{ ty := .journal, misc := py! "A ", title := some (py! "J"), volume := some (some (py! "1")), year := some (some []),
          page := some (some (py! "2")), isIbid := some false, extraIbids := some [] },
        { ty := .isbn, misc := py! " ", isbn := some (py! "3") }], { title := 1 }) := by
  decide +kernel

example : @BooksOk asciiDB [(py! "PHYSICS", [py! "A", py! "Physics", py! "1990"])] := by
  intro p hp
  simp only [List.mem_singleton] at hp
  subst hp
  exact ⟨_, List.mem_singleton.2 rfl, by decide⟩

/-! ### C59: journals are complete -/

/-- A journal that is known as `Phys Lett`. -/
def journalKbs : Kbs :=
  ⟨⟨[(py! "PHYS LETT", .str (py! "PHYS LETT"))], [(py! "PHYS LETT", py! "Phys.Lett.")], [py! "PHYS LETT"], [], [], [], [], [], []⟩, [], []⟩

/-- **C59.** With the default format, the journal references of a returned reference are made of the
title, the volume, the year and the page of its journals, all of which are there. -/
theorem C59_journals [UnicodeDB] (undesirable : Str → Str) (lib : Lib) (kbs : Kbs) (link : Option Linker)
    (lines : List Str) (refs : List Field) (stats : List Nat)
    (h : parseReferences undesirable lib kbs defaultFormat link lines = .ok (refs, stats)) (r : Field) (hr : r ∈ refs) :
    ∃ js : List (Str × Str × Str × Str),
      vals r (py! "journal_title") = nonEmpty (js.map fun j => j.1) ∧
      vals r (py! "journal_volume") = nonEmpty (js.map fun j => j.2.1) ∧
      vals r (py! "journal_year") = nonEmpty (js.map fun j => j.2.2.1) ∧
      vals r (py! "journal_page") = nonEmpty (js.map fun j => j.2.2.2) ∧
      vals r (py! "journal_reference") = js.map fun j => j.1 ++ py! " " ++ j.2.1 ++ py! " (" ++ j.2.2.1 ++ py! ") " ++ j.2.2.2 := by
  obtain ⟨ps, blocks, h1, rfl, h3, -⟩ := parseReferences_ok h
  obtain ⟨b, hb, hr⟩ := List.mem_flatten.1 hr
  obtain ⟨p, hp, hpb⟩ := all2_mem h3 hb
  obtain ⟨line, -, -, bad, bad', hl⟩ := all2_mem h1 hp
  obtain ⟨els, he, hbuild⟩ := all2_mem hpb hr
  obtain ⟨-, -, tagged, dois, urls, els0, ht, hpost⟩ := parseReferenceLine_ok hl
  have hc := post_complete (fun x hx => (parseTagged_parsed ht x hx).1) hpost els he
  obtain ⟨v1, v2, v3, v4, ⟨filled, v5, v6⟩, -⟩ := C05_values els _ _ _ r hbuild
  obtain ⟨js, j1, j2, j3, j4, j5⟩ := journals_list hc
  refine ⟨js, by rw [v1, j1], by rw [v2, j2], by rw [v3, j3], by rw [v4, j4], ?_⟩
  rw [v6, j5 filled v5]

set_option synthInstance.maxSize 1000 in
example : @parseReferences asciiDB id plainLib journalKbs defaultFormat none [py! "[1] A. Smith, Phys Lett B 12 3"] = .ok (
    [[(py! "linemarker", [py! "1"]), (py! "raw_ref", [py! "[1] A. Smith, Phys Lett B 12 3"]), (py! "author", [py! "A. Smith"]),
      (py! "journal_title", [py! "Phys.Lett."]), (py! "journal_volume", [py! "B12"]), (py! "journal_page", [py! "3"]),
      (py! "journal_reference", [py! "Phys.Lett. B12 () 3"])]], [0, 0, 1, 1, 0, 0, 0]) := by
  decide +kernel

/-! ### C10 for whole lines -/

/-- **C10** for whole lines: a returned reference has at most one author entry, at most one DOI, at most
one record identifier, and no collaboration twice. -/
theorem C10_references [UnicodeDB] (undesirable : Str → Str) (lib : Lib) (kbs : Kbs) (fmt : List FmtPart) (link : Option Linker)
    (lines : List Str) (refs : List Field) (stats : List Nat)
    (h : parseReferences undesirable lib kbs fmt link lines = .ok (refs, stats)) (r : Field) (hr : r ∈ refs) :
    (vals r (py! "author")).length ≤ 1 ∧ (vals r (py! "doi")).length ≤ 1 ∧ (vals r (py! "recid")).length ≤ 1 ∧
      (vals r (py! "collaboration")).Nodup := by
  obtain ⟨ps, blocks, h1, rfl, h3, -⟩ := parseReferences_ok h
  obtain ⟨b, hb, hr⟩ := List.mem_flatten.1 hr
  obtain ⟨p, hp, hpb⟩ := all2_mem h3 hb
  obtain ⟨line, -, -, bad, bad', hl⟩ := all2_mem h1 hp
  obtain ⟨els, he, hbuild⟩ := all2_mem hpb hr
  obtain ⟨-, -, tagged, dois, urls, els0, ht, hpost⟩ := parseReferenceLine_ok hl
  have hn : ∀ e ∈ els0, e.ty ≠ .recid := by
    intro e he hk
    have := (parseTagged_parsed ht e he).2.1
    rw [hk] at this
    simp [parsedKinds] at this
  obtain ⟨c1, c2, c3, c4⟩ := C10_line _ _ _ _ hn _ hpost els he
  obtain ⟨-, -, -, -, -, -, -, -, v9, -, v11, -, -, -, -, v16, v17⟩ := C05_values els _ _ _ r hbuild
  have le : ∀ (k : Kind) (f : El → Option Str), (kindEls k els).length ≤ 1 → (nonEmpty ((ofKind k els).filterMap f)).length ≤ 1 := by
    intro k f hk
    exact Nat.le_trans (List.length_filter_le _ _) (Nat.le_trans (List.length_filterMap_le _ _) hk)
  refine ⟨by rw [v11]; exact le _ _ c1, by rw [v9]; exact Nat.le_trans (List.length_filterMap_le _ _) c2, by rw [v17]; exact le _ _ c3, ?_⟩
  rw [v16]
  exact List.Pairwise.filter _ c4

set_option synthInstance.maxSize 1000 in
example : @parseReferences asciiDB id plainLib emptyKbs defaultFormat none [py! "A. Cox, doi:10.1000/xyz doi:10.1000/xyz"] = .ok (
    [[(py! "raw_ref", [py! "A. Cox, doi:10.1000/xyz doi:10.1000/xyz"]), (py! "author", [py! "A. Cox"]), (py! "doi", [py! "doi:10.1000/xyz"])],
     [(py! "raw_ref", [py! "A. Cox, doi:10.1000/xyz doi:10.1000/xyz"]), (py! "author", [py! "A. Cox"]), (py! "doi", [py! "doi:10.1000/xyz"])]],
    [0, 0, 0, 1, 0, 2, 0]) := by
  decide +kernel

end Props
