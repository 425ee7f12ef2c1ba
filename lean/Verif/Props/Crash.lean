import Verif.Lemmas.Whole
import Verif.Props.Strings

/-!
# Text without `<` is extracted without failure: C94
-/

namespace Props
open Py Spec
open scoped List

theorem string_lines_body [UnicodeDB] (only : Bool) (source : Str) (hl : ∀ l ∈ splitOn '\n' source, l.length ≤ 4300) (lines : List Str)
    (h1 : stringLines only source = .ok lines) : body lines.flatten <+ body source := by
  have hs : body source = body (splitOn '\n' source).flatten := by
    conv => lhs; rw [← splitOn_join '\n' source]
    exact body_join _
  rw [hs]
  unfold stringLines at h1
  cases only with
  | true => exact rebuild_body_sub h1
  | false =>
    simp only [Bool.false_eq_true, if_false] at h1
    obtain ⟨⟨ls, st⟩, h3, h1⟩ := bind_ok h1
    have e : lines = ls := by simpa [Pure.pure, Except.pure] using h1.symm
    subst e
    obtain ⟨doc, refs', st', -, k1, k2, k3⟩ := C36_extract _ hl
    rw [h3] at k2
    cases k2
    rcases k3 with ⟨rfl, -⟩ | ⟨start, e, title, same, ls, pss, groups, -, -, -, -, m1, m2, m3, m4⟩
    · exact List.nil_sublist _
    · have := body_refs m4
      rw [m3, cut_flatten m2] at this
      exact this.trans (body_sublist ((section_sublist m1).trans (flatten_sublist k1)))

/-- **C94.** Reference lines without `<`, and without characters that are transliterated with `<`, are parsed without
failure. Only a page of a special journal, the cutting of a book and the linker can still raise an error. -/
theorem C94_lines_partial [UnicodeDB] (undesirable : Str → Str) (lib : Lib) (spell : Char → Str) (kbs : Kbs) (fmt : List FmtPart) (link : Option Linker)
    (hs : Spelled lib.unidecode spell) (hu : ∀ s, NoAngle spell s → NoAngle spell (undesirable s)) (hy : PlainLib lib)
    (hk : PlainKbs spell kbs.tag) (hb : BooksOk kbs.books) (hf : FmtPart.key .pageEnd ∉ fmt) (lines : List Str) (hl : ∀ l ∈ lines, NoAngle spell l) :
    (∃ r, parseReferences undesirable lib kbs fmt link lines = .ok r) ∨
    ∃ e, parseReferences undesirable lib kbs fmt link lines = .error e ∧ e ≠ .keyError ∧
      ((e = .valueError ∧ kbs.special ≠ []) ∨ (kbs.books ≠ [] ∧ (e = .indexError ∨ e = .typeError)) ∨ ∃ l x, link = some l ∧ l x = .error e) := by
  have h := references_make hu hs hy hk hb link hf hl
  cases hx : parseReferences undesirable lib kbs fmt link lines with
  | ok r => exact .inl ⟨r, rfl⟩
  | error e => rw [hx] at h; exact .inr ⟨e, rfl, h⟩

/-- **C94.** The references of a string without `<` are extracted without failure when there are neither
special journals nor books to look for and no linker. -/
theorem C94_partial [UnicodeDB] (undesirable : Str → Str) (lib : Lib) (spell : Char → Str) (kbs : Kbs) (fmt : List FmtPart)
    (hs : Spelled lib.unidecode spell) (hu : ∀ s, NoAngle spell s → NoAngle spell (undesirable s)) (hy : PlainLib lib)
    (hk : PlainKbs spell kbs.tag) (hf : FmtPart.key .pageEnd ∉ fmt) (hsp : kbs.special = []) (hb : kbs.books = []) (only : Bool) (source : Str)
    (hn : NoAngle spell source) (hl : ∀ l ∈ splitOn '\n' source, l.length ≤ 4300) :
    ∃ refs, fromString undesirable lib kbs fmt none only source = .ok refs := by
  obtain ⟨lines, h1⟩ := C91_lines only source hl
  have hbody := string_lines_body only source hl lines h1
  have hlines : ∀ l ∈ lines, NoAngle spell l := by
    intro l hl c hc
    by_cases hsp : isSpace c = true
    · intro hx
      have := hs.space c hsp _ hx
      revert this; decide
    · by_cases hd : c = '-'
      · subst hd; rw [hs.ascii _ (by decide)]; decide
      · have : c ∈ body lines.flatten := by
          refine List.mem_filter.2 ⟨List.mem_flatten.2 ⟨l, hl, hc⟩, ?_⟩
          simp [hsp, hd]
        exact hn c (List.mem_filter.1 (hbody.subset this)).1
  have hbk : BooksOk kbs.books := by rw [hb]; intro p hp; cases hp
  unfold fromString
  rw [h1]
  rcases C94_lines_partial undesirable lib spell kbs fmt none hs hu hy hk hbk hf lines hlines with ⟨r, hr⟩ | ⟨e, he, -, h⟩
  · exact ⟨r.1, by rw [okBind, hr]; rfl⟩
  · rcases h with ⟨-, h⟩ | ⟨h, -⟩ | ⟨l, x, h, -⟩
    · exact absurd hsp h
    · exact absurd hb h
    · cases h

/-! ### Examples -/

/-- A transliteration. -/
def plainSpell (c : Char) : Str :=
  if isAscii c then [c] else if isSpace c then [' '] else if c = 'ó' then ['o'] else if c = '＜' then ['<'] else []

/-- The libraries with this transliteration. -/
def spellLib : Lib := ⟨fun s => s.flatMap plainSpell, id, .fail, .fail⟩

theorem spellLib_plain : PlainLib spellLib := ⟨⟨[], rfl, by simp⟩, ⟨[], rfl, by simp⟩⟩

theorem spelled_plain : @Spelled asciiDB spellLib.unidecode plainSpell := by
  letI := asciiDB
  refine ⟨fun _ => rfl, fun c h => ?_, fun c d hd => ?_, fun c h d hd => ?_, fun c h d hd => ?_⟩
  · rw [plainSpell, if_pos h]
  · unfold plainSpell at hd
    split at hd
    · rw [List.mem_singleton.1 hd]; assumption
    · split at hd
      · rw [List.mem_singleton.1 hd]; decide
      · split at hd
        · rw [List.mem_singleton.1 hd]; decide
        · split at hd
          · rw [List.mem_singleton.1 hd]; decide
          · cases hd
  · unfold plainSpell at hd
    rw [h] at hd
    split at hd
    · rw [List.mem_singleton.1 hd]; exact h
    · rw [if_pos rfl] at hd; rw [List.mem_singleton.1 hd]; decide
  · by_cases ha : isAscii c = true
    · have hc : ∀ n < 128, ∀ d ∈ @upperC asciiDB (Char.ofNat n), '<' ∉ plainSpell (Char.ofNat n) → '<' ∉ plainSpell d := by decide +kernel
      have hn : c.toNat < 128 := by simpa [isAscii] using ha
      have := hc c.toNat hn
      rw [Char.ofNat_toNat] at this
      exact this d hd h
    · have : @upperC asciiDB c = [c] := by simp [upperC, ha]; rfl
      rw [this] at hd
      rw [List.mem_singleton.1 hd]; exact h

/-- A report number pattern finds a text and a number. -/
theorem report_pattern [UnicodeDB] {r : Re} (h1 : r.must [1] = true) (h2 : r.must [G.numn] = true) (h3 : r.groupsNoLt [G.numn] = true) :
    ∀ s, ∀ m ∈ finditer r s, ∃ g k n, m.group 1 = some g ∧ m.gstart 1 = some k ∧ m.group G.numn = some n ∧ '<' ∉ n := by
  intro s m hm
  obtain ⟨g, hg⟩ := finditer_must1 h1 hm
  obtain ⟨n, hn⟩ := finditer_must1 h2 hm
  obtain ⟨p, q, -, hok⟩ := finditer_ok hm
  have : ∃ k, m.gstart 1 = some k := by
    unfold Match.group at hg
    unfold Match.gstart
    cases hf : m.caps.find? (·.g == 1) with
    | none => rw [hf] at hg; cases hg
    | some c => exact ⟨_, rfl⟩
  obtain ⟨k, hk⟩ := this
  exact ⟨g, k, n, hg, hk, hn, group_noLt h3 hok (by simp) hn⟩

/-- The pattern of a collaboration finds a name. -/
theorem collab_pattern [UnicodeDB] {r : Re} (h1 : r.must [1] = true) (h3 : r.groupsNoLt [1] = true) :
    ∀ s, ∀ m ∈ finditer r s, ∃ g, m.group 1 = some g ∧ '<' ∉ g := by
  intro s m hm
  obtain ⟨g, hg⟩ := finditer_must1 h1 hm
  obtain ⟨p, q, -, hok⟩ := finditer_ok hm
  exact ⟨g, hg, group_noLt h3 hok (by simp) hg⟩

/-- Knowledge bases with a journal, a report number, an author and a collaboration. -/
def smallKbs : TagKbs :=
  { journalPats := (@buildJournals asciiDB [(py! "Phys Lett", py! "Phys.Lett.")]).pats
    journalStd := (@buildJournals asciiDB [(py! "Phys Lett", py! "Phys.Lett.")]).std
    journalKeys := (@buildJournals asciiDB [(py! "Phys Lett", py! "Phys.Lett.")]).keys
    journalsRe := [(py! "DAN", .str (py! "DAN"), py! "Dokl.Akad.Nauk Ser.Fiz.")]
    reportPats := sampleReports.reportPats, reportStd := sampleReports.reportStd
    publishers := [], authors := [(py! "Du ̈hrssen", py! "Dührssen")], collaborations := [(py! "CMS Collaboration", collabRe (py! "CMS") true)] }

instance (spell : Char → Str) (s : Str) : Decidable (NoAngle spell s) := inferInstanceAs (Decidable (∀ c ∈ s, _))

theorem smallKbs_plain : @PlainKbs asciiDB plainSpell smallKbs := by
  letI := asciiDB
  have k1 : smallKbs.journalKeys = [py! "PHYS LETT"] := by decide +kernel
  have k3 : smallKbs.journalPats = (@buildJournals asciiDB [(py! "Phys Lett", py! "Phys.Lett.")]).pats := by unfold smallKbs; rfl
  have k2 : smallKbs.journalStd = [(py! "PHYS LETT", py! "Phys.Lett.")] := by decide +kernel
  refine ⟨⟨[(py! "Phys Lett", py! "Phys.Lett.")], k3, by decide +kernel, by rw [k1]; decide⟩, by rw [k1]; decide,
    by rw [k1, k2]; decide, ?_, ?_, ?_, ?_, by rw [k2]; decide +kernel, ?_, ?_, by simp [smallKbs], ?_, ?_⟩
  · intro p hp; rw [List.mem_singleton.1 hp]
  · intro p hp; rw [List.mem_singleton.1 hp]; decide +kernel
  · intro p hp; rw [List.mem_singleton.1 hp]; decide +kernel
  · intro p hp
    rw [List.mem_singleton.1 hp]
    exact report_pattern (by decide +kernel) (by decide +kernel) (by decide +kernel)
  · intro p hp; rw [List.mem_singleton.1 hp]; decide +kernel
  · intro p hp; rw [List.mem_singleton.1 hp]; decide +kernel
  · intro p hp
    rw [List.mem_singleton.1 hp]
    refine ⟨by decide +kernel, fun w hw => firm_of ?_⟩
    have key : ∀ w ∈ [py! "cds.DOI", py! "cds.URL"], firmB w (ink ((py! "Dührssen").flatMap plainSpell)) = true := by decide +kernel
    exact key w hw
  · intro p hp
    rw [List.mem_singleton.1 hp]
    exact collab_pattern (by decide +kernel) (by decide +kernel)

example (source : Str) (hn : NoAngle plainSpell source) (hl : ∀ l ∈ splitOn '\n' source, l.length ≤ 4300) :
    ∃ refs, @fromString asciiDB id spellLib ⟨smallKbs, [], []⟩ defaultFormat none true source = .ok refs := by
  letI := asciiDB
  exact C94_partial id spellLib plainSpell ⟨smallKbs, [], []⟩ defaultFormat spelled_plain (fun _ h => h) spellLib_plain smallKbs_plain (by decide) rfl rfl
    true source hn hl

example : NoAngle plainSpell (py! "[1] A. Kówal, Phys. Lett. 1 (1990) 2; CERN-TH-1234, doi:10.1000/xyz") := by decide +kernel

/-- **C94 fails** for text with `<`, even for one that only becomes `<` when it is transliterated: the whole extraction fails. -/
theorem C94_refuted :
    @fromString asciiDB id spellLib emptyKbs defaultFormat none true (py! "[1] A. Kówal, ＜cds.DOI />\n[2] B. Smith, Nature") = .error .indexError := by
  decide +kernel

/-- A special journal. -/
def jhepKbs : Kbs :=
  ⟨⟨[(py! "JHEP", .str (py! "JHEP"))], [(py! "JHEP", py! "JHEP")], [py! "JHEP"], [], [], [], [], [], []⟩, [py! "JHEP"], []⟩

/-- **C94 fails** for a page of a special journal that begins with a digit which is not decimal. -/
theorem C94_refuted_page :
    @fromString sampleDB id plainLib jhepKbs defaultFormat none true (py! "[1] A. Smith, JHEP 05 (2001) ²34") = .error .valueError := by
  decide +kernel

end Props
