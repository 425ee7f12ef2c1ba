import Verif.Lemmas.Places
import Verif.Props.Journal

/-!
# The places of recognised texts in the line: C26, C72–C75
-/

namespace Props
open Py Spec

/-- **C72.** A recognised title or `ibid` is replaced where it stands. With `line = a ++ b ++ c`, where `b` reads
as the recognised text, replacing it keeps the text up to the end of `a`, and what follows the title is looked
for in `c`. -/
theorem C72_place [UnicodeDB] (line : Str) (kbs : TagKbs) (f : Found) (n : List (Str × Nat)) (hN : NoNesting line) (hE : EvenUpper line)
    (hj : TitleKb kbs) (hp : ReportKbOk kbs) (hre : kbs.journalsRe = []) (h : recognise line kbs = .ok (f, n))
    (i : Nat) (info : Str) (hi : dget f.journals i = some info) :
    (info ∈ kbs.journalKeys ∨ ReadsIbid info) ∧
    ∃ a b c, line = a ++ b ++ c ∧ ReadsAs b info ∧ ∀ start prev out,
      replaceStep line f kbs.publishers (start, prev, out) (i, .journal) =
        (addJournal line info prev start a.length (b.length - info.length) f.std).map (fun r => (r.2.1, r.2.2, out ++ r.1)) ∧
      line.drop (a.length + info.length + (b.length - info.length)) = c := by
  have hr := recognise_ok hj hp h
  have hr' := hr.journals _ (dget_mem _ _ _ hi)
  rw [hre] at hr'
  rcases hr' with hr' | ⟨j1, j2, j3, w, j4, j5⟩
  · cases hr'
  obtain ⟨a, b, c, e1, e2, -, e4, e5⟩ := place hN hE j4 j5 j2 j1
  dsimp only at e2 e4 e5 j3
  refine ⟨j3, a, b, c, e1, e5, fun start prev out => ⟨?_, ?_⟩⟩
  · simp only [replaceStep, getKey, hi, okBind, hr.spaces, e2]
    cases addJournal line info prev start a.length (b.length - info.length) f.std with
    | error e => rfl
    | ok r => rfl
  · have : a.length + info.length + (b.length - info.length) = (a ++ b).length := by simp; omega
    rw [this, e1, List.drop_left]

example : @recognise asciiDB (py! "See, Phys.  Lett. 1 (1990) 3") journalKbs.tag =
      .ok (⟨[(4, py! "PHYS LETT")], [], [], [], [(3, 1), (9, 2), (16, 1), (19, 1), (25, 1)], [(py! "PHYS LETT", py! "Phys.Lett.")]⟩, [(py! "PHYS LETT", 1)]) ∧
    @rebuildTagged asciiDB (py! "See, Phys.  Lett. 1 (1990) 3") ⟨[(4, py! "PHYS LETT")], [], [], [], [(3, 1), (9, 2), (16, 1), (19, 1), (25, 1)], [(py! "PHYS LETT", py! "Phys.Lett.")]⟩ [] =
      .ok (py! "See, <cds.JOURNAL>Phys.Lett.</cds.JOURNAL> <cds.VOL>1</cds.VOL> <cds.YR>(1990)</cds.YR> <cds.PG>3</cds.PG>") := by decide +kernel

/-- **C26.** Replacing a recognised publisher keeps the text up to it and writes its standard name. With
`line = a ++ b ++ c`, where `b` reads as a text `t` that the pattern of the publisher matches, as many characters
of `b` are removed as the name has: exactly `b` when no blanks were squeezed in it. -/
theorem C26_partial [UnicodeDB] (line : Str) (kbs : TagKbs) (f : Found) (n : List (Str × Nat)) (hN : NoNesting line) (hE : EvenUpper line)
    (hj : TitleKb kbs) (hp : ReportKbOk kbs) (hpub : PublisherKb kbs.publishers) (h : recognise line kbs = .ok (f, n))
    (i : Nat) (name : Str) (hi : dget f.publishers i = some name) :
    ∃ a b c q t, line = a ++ b ++ c ∧ q ∈ kbs.publishers ∧ q.1 = name ∧ ReadsAs b t ∧ (∃ pre post, Sem q.2.1 pre t post) ∧
      t.length = name.length ∧ name.length ≤ b.length ∧ ∀ start prev out,
      replaceStep line f kbs.publishers (start, prev, out) (i, .publisher) =
        .ok (a.length + name.length, prev, out ++ slice line start a.length ++ py! "<cds.PUBLISHER>" ++ q.2.2 ++ py! "</cds.PUBLISHER>") ∧
      line.drop (a.length + name.length) = b.drop name.length ++ c ∧ (b.length = name.length → line.drop (a.length + name.length) = c) := by
  have hr := recognise_ok hj hp h
  obtain ⟨w, m1, m2⟩ := hr.publishers
  have hmem := dget_mem _ _ _ hi
  rw [m2] at hmem
  obtain ⟨q, q1, q2, m, q3, q4⟩ := publishers_mem hmem
  dsimp only at q2 q4
  obtain ⟨ps, qs, hs⟩ := mem_finditer q3
  obtain ⟨adv, hb⟩ := scan_hit hs
  obtain ⟨rest, r1, r2⟩ := matchHere_sem hb
  obtain ⟨s1, s2⟩ := hpub.2 q q1
  obtain ⟨s3, s4⟩ := s2 _ _ _ r2
  have hstart : m.start = (ps.flatMap Piece.orig).length := by
    have := (matchHere_ok hb).1.start
    simpa using this
  have hat : AtPos w i m.txt := by
    have : w = ps.flatMap Piece.orig ++ (m.txt ++ qs.flatMap Piece.orig) := by
      conv => lhs; rw [← scan_orig q.2.1 w, hs]
      simp [Piece.orig]
    rw [this]
    have e : i = (ps.flatMap Piece.orig).length := by rw [← hstart]; exact q4.symm
    rw [e]
    exact atPos_append _ _ _
  have hne : m.txt ≠ [] := by
    intro e
    have := lang_minLen _ _ (sem_lang _ _ _ _ r2)
    rw [e] at this
    simp at this
    omega
  obtain ⟨a, b, c, e1, e2, e3, e4, e5⟩ := place hN hE m1 hat s4 hne
  rw [s3, q2] at e4
  have hlen : m.txt.length = name.length := by rw [s3, q2]
  have hd : line.drop (a.length + name.length) = b.drop name.length ++ c := by
    rw [e1, List.append_assoc, ← List.drop_drop, List.drop_left, List.drop_append_of_le_length e4]
  refine ⟨a, b, c, q, m.txt, e1, q1, q2, e5, ⟨_, _, r2⟩, hlen, e4, fun start prev out => ⟨?_, hd, fun hl => ?_⟩⟩
  · have hq : dget kbs.publishers name = some q.2 := by
      apply dget_of_mem _ _ _ hpub.1
      rw [← q2]; exact q1
    simp only [replaceStep, getKey, hi, okBind, hr.spaces, e3, addPublisher, hq]
    simp only [pure, Except.pure, okBind, Nat.add_zero, List.append_assoc]
  · rw [hd, ← hl, List.drop_length, List.nil_append]

/-- A known publisher. -/
def univPr : TagKbs :=
  ⟨[], [], [], [], [], [], [(py! "UNIV PR", literalName (py! "UNIV PR"), py! "Univ. Pr.")], [], []⟩

/-- The knowledge base of the examples is as the theorem asks. -/
theorem C26_literal [UnicodeDB] (kb : List (Str × Re × Str)) (hn : (kb.map (·.1)).Nodup)
    (h : ∀ p ∈ kb, p.1 ≠ [] ∧ '_' ∉ p.1 ∧ p.2.1 = literalName p.1) : PublisherKb kb := by
  refine ⟨hn, fun p hp => ?_⟩
  obtain ⟨h1, h2, h3⟩ := h p hp
  rw [h3]
  refine ⟨literalName_minLen h1, fun pre w post hs => literalName_sem h2 hs⟩

example : @recognise asciiDB (py! "Foo, Univ Pr, 1990") univPr = .ok (⟨[], [], [], [(4, py! "UNIV PR")], [(3, 1), (12, 1)], []⟩, []) ∧
    @rebuildTagged asciiDB (py! "Foo, Univ Pr, 1990") ⟨[], [], [], [(4, py! "UNIV PR")], [(3, 1), (12, 1)], []⟩ univPr.publishers =
      .ok (py! "Foo, <cds.PUBLISHER>Univ. Pr.</cds.PUBLISHER>, 1990") := by decide +kernel

set_option synthInstance.maxSize 1000 in
/-- **C26 fails** when blanks or punctuation in the name were squeezed: the end of the publisher's text stays
behind as a text of its own. -/
theorem C26_leftover :
    @parseReferences asciiDB id plainLib ⟨univPr, [], []⟩ defaultFormat none [py! "Foo, Univ. Pr."] = .ok (
      [[(py! "raw_ref", [py! "Foo, Univ. Pr."]), (py! "misc", [py! "Foo", py! "r"]), (py! "publisher", [py! "Univ. Pr."])]],
      [0, 0, 0, 0, 0, 0, 1]) := by decide +kernel

/-! ### C73: journals found by their own patterns -/

/-- **C73.** A journal found by one of the patterns for special titles stands in the line as it was found. It is
replaced there when no blanks were squeezed in front of its end. -/
theorem C73_partial [UnicodeDB] (line : Str) (kbs : TagKbs) (f : Found) (n : List (Str × Nat)) (hj : TitleKb kbs) (hp : ReportKbOk kbs)
    (h : recognise line kbs = .ok (f, n)) (i : Nat) (info : Str) (hsp : ∀ s ∈ (compressSpaces (cleanedLine line)).1, i + info.length ≤ s.1)
    (hi : (i, info) ∈ identifyJournalsRe line kbs.journalsRe) (hf : dget f.journals i = some info) :
    ∃ a c, line = a ++ info ++ c ∧ (∃ q ∈ kbs.journalsRe, ∃ pre post, Sem q.2.1 pre info post) ∧ ∀ start prev out,
      replaceStep line f kbs.publishers (start, prev, out) (i, .journal) =
        (addJournal line info prev start a.length 0 f.std).map (fun r => (r.2.1, r.2.2, out ++ r.1)) ∧
      line.drop (a.length + info.length + 0) = c := by
  have hr := recognise_ok hj hp h
  obtain ⟨q, q1, m, q2, q3⟩ := byRe_mem hi
  cases q3
  obtain ⟨ps, qs, hs⟩ := mem_finditer (search_mem q2)
  obtain ⟨adv, hb⟩ := scan_hit hs
  obtain ⟨rest, r1, r2⟩ := matchHere_sem hb
  have hstart : m.start = (ps.flatMap Piece.orig).length := by
    have := (matchHere_ok hb).1.start
    simpa using this
  have hl : line = ps.flatMap Piece.orig ++ m.txt ++ qs.flatMap Piece.orig := by
    conv => lhs; rw [← scan_orig q.2.1 line, hs]
    simp [Piece.orig]
  refine ⟨ps.flatMap Piece.orig, qs.flatMap Piece.orig, hl, ⟨q, q1, _, _, r2⟩, fun start prev out => ⟨?_, ?_⟩⟩
  · have hsp' : accountSpaces f.spaces (some m.txt.length) m.start = (m.start, 0) := by
      refine accountSpaces_after fun s hs => ?_
      rw [hr.spaces] at hs
      exact hsp s ((sortBy_perm _).mem_iff.1 hs)
    simp only [replaceStep, getKey, hf, okBind, hsp', ← hstart]
    cases addJournal line m.txt prev start m.start 0 f.std with
    | error e => rfl
    | ok r => rfl
  · conv => lhs; rw [hl]
    rw [Nat.add_zero, ← List.length_append, List.drop_left]

/-- The entry of the special titles that comes with the program. -/
def danKb : TagKbs := ⟨[], [], [], [(py! "DAN", .str (py! "DAN"), py! "Dokl.Akad.Nauk Ser.Fiz.")], [], [], [], [], []⟩

example : @recognise asciiDB (py! "See DAN 12 (1990) 3") danKb =
    .ok (⟨[(4, py! "DAN")], [], [], [], [(10, 1), (16, 1)], [(py! "DAN", py! "Dokl.Akad.Nauk Ser.Fiz.")]⟩, []) ∧
    (@compressSpaces asciiDB (@cleanedLine asciiDB (py! "See DAN 12 (1990) 3"))).1 = [(10, 1), (16, 1)] := by decide +kernel

set_option synthInstance.maxSize 1000 in
/-- **C73 fails** when blanks or punctuation were squeezed in front of the title: its position, which is that in
the line, is moved on as if it were that in the squeezed line. So a part of the title stays in the text and the
beginning of the volume is lost: 2 for 12. -/
theorem C73_displaced :
    @parseReferences asciiDB id plainLib ⟨danKb, [], []⟩ defaultFormat none [py! "A, b, DAN 12 (1990) 3"] = .ok (
      [[(py! "raw_ref", [py! "A, b, DAN 12 (1990) 3"]), (py! "misc", [py! "A, b, DA"]), (py! "journal_title", [py! "Dokl.Akad.Nauk Ser.Fiz."]),
        (py! "journal_volume", [py! "2"]), (py! "journal_year", [py! "1990"]), (py! "journal_page", [py! "3"]),
        (py! "journal_reference", [py! "Dokl.Akad.Nauk Ser.Fiz. 2 (1990) 3"]), (py! "year", [py! "1990"])]], [0, 0, 1, 0, 0, 0, 0]) := by
  decide +kernel

/-! ### C74: rebuilding the line never fails -/

/-- Every title to be looked for in the knowledge base has a standard title. -/
theorem C74_titles [UnicodeDB] (pairs : List (Str × Str)) : ∀ t ∈ (buildJournals pairs).keys, (dget (buildJournals pairs).std t).isSome = true := by
  have step1 : ∀ (l : List (Str × Str)) (kb : JournalKb), (∀ t ∈ kb.keys, (dget kb.std t).isSome = true) →
      ∀ t ∈ (l.foldl seekStep kb).keys, (dget (l.foldl seekStep kb).std t).isSome = true := by
    intro l
    induction l with
    | nil => intro kb h; exact h
    | cons p l ih =>
      intro kb h
      refine ih _ fun t ht => ?_
      simp only [seekStep, List.mem_append, List.mem_singleton] at ht ⊢
      rw [dget_dset]
      split
      · rfl
      · next e =>
        rcases ht with ht | ht
        · exact h t ht
        · exact absurd ht.symm e
  have step2 : ∀ (l : List Str) (kb : JournalKb), (∀ t ∈ kb.keys, (dget kb.std t).isSome = true) →
      ∀ t ∈ (l.foldl replStep kb).keys, (dget (l.foldl replStep kb).std t).isSome = true := by
    intro l
    induction l with
    | nil => intro kb h; exact h
    | cons p l ih =>
      intro kb h
      refine ih _ ?_
      unfold replStep
      split
      · exact h
      · intro t ht
        simp only [List.mem_append, List.mem_singleton] at ht ⊢
        rw [dget_dset]
        split
        · rfl
        · next e =>
          rcases ht with ht | ht
          · exact h t ht
          · exact absurd ht.symm e
  intro t ht
  exact step2 _ _ (step1 pairs ⟨[], [], []⟩ (by simp)) t ((sortBy_perm _).mem_iff.1 ht)

/-- **C74.** Writing the recognised journals, report numbers and publishers into the line never fails, when the
special titles are plain texts and the other titles have standard titles. -/
theorem C74_partial [UnicodeDB] (line : Str) (kbs : TagKbs) (f : Found) (n : List (Str × Nat)) (hj : TitleKb kbs) (hp : ReportKbOk kbs)
    (hs : ∀ t ∈ kbs.journalKeys, (dget kbs.journalStd t).isSome = true) (hlit : ∀ p ∈ kbs.journalsRe, p.2.1 = .str p.1)
    (h : recognise line kbs = .ok (f, n)) : ∃ t, rebuildTagged line f kbs.publishers = .ok t := by
  have hr := recognise_ok hj hp h
  unfold rebuildTagged
  split
  · exact ⟨_, rfl⟩
  have key : ∀ loc ∈ locations f, ∀ st, ∃ st', replaceStep line f kbs.publishers st loc = .ok st' := by
    rintro ⟨i, ty⟩ hl ⟨start, prev, out⟩
    have hm := types_mem ((sortBy_perm _).mem_iff.1 hl)
    rcases hm with ⟨rfl, hm⟩ | ⟨rfl, hm⟩ | ⟨rfl, hm⟩
    · have := (dget_isSome f.journals i).2 hm
      cases hd : dget f.journals i with
      | none => rw [hd] at this; cases this
      | some info =>
        have hok : (find (py! "IBID") (upper info)).isSome = true ∨ (dget f.std info).isSome = true := by
          rw [hr.std]
          rcases hr.journals _ (dget_mem _ _ _ hd) with h | ⟨-, -, h | h, -⟩
          · obtain ⟨q, q1, m, q2, q3⟩ := byRe_mem h
            rw [hlit q q1] at q2
            have := search_str q2
            simp only [Prod.mk.injEq] at q3
            right
            apply dupdate_isSome
            right
            rw [q3.2, this]
            simp only [List.map_map, List.mem_map]
            exact ⟨q, q1, rfl⟩
          · right
            exact dupdate_isSome _ _ _ (.inl (hs _ h))
          · exact .inl (readsIbid_find h)
        simp only [replaceStep, getKey, hd, okBind]
        obtain ⟨r, hr'⟩ := addJournal_total (line := line) (prev := prev) (start := start)
          (idx := (accountSpaces f.spaces (some info.length) i).1) (extras := (accountSpaces f.spaces (some info.length) i).2) hok
        rw [hr', okBind]
        exact ⟨_, rfl⟩
    · have h1 := (dget_isSome f.repTexts i).2 hm
      rw [← hr.reports] at hm
      have h2 := (dget_isSome f.repLens i).2 hm
      obtain ⟨x, hx⟩ := Option.isSome_iff_exists.1 h1
      obtain ⟨y, hy⟩ := Option.isSome_iff_exists.1 h2
      simp only [replaceStep, getKey, hx, hy, okBind]
      exact ⟨_, rfl⟩
    · have h1 := (dget_isSome f.publishers i).2 hm
      obtain ⟨x, hx⟩ := Option.isSome_iff_exists.1 h1
      obtain ⟨w, -, m2⟩ := hr.publishers
      have hmem := dget_mem _ _ _ hx
      rw [m2] at hmem
      obtain ⟨q, q1, q2, -⟩ := publishers_mem hmem
      have h3 : (dget kbs.publishers x).isSome = true := (dget_isSome _ _).2 (List.mem_map.2 ⟨q, q1, q2⟩)
      obtain ⟨y, hy⟩ := Option.isSome_iff_exists.1 h3
      simp only [replaceStep, getKey, hx, okBind, addPublisher, hy]
      exact ⟨_, rfl⟩
  obtain ⟨st, hst⟩ := foldlM_ok key (0, none, [])
  rw [hst, okBind]
  exact ⟨_, rfl⟩

example : @recognise asciiDB (py! "DAN 1 (1990) 3") danKb =
      .ok (⟨[(0, py! "DAN")], [], [], [], [(5, 1), (11, 1)], [(py! "DAN", py! "Dokl.Akad.Nauk Ser.Fiz.")]⟩, []) ∧
    @rebuildTagged asciiDB (py! "DAN 1 (1990) 3") ⟨[(0, py! "DAN")], [], [], [], [(5, 1), (11, 1)], [(py! "DAN", py! "Dokl.Akad.Nauk Ser.Fiz.")]⟩ [] =
      .ok (py! "<cds.JOURNAL>Dokl.Akad.Nauk Ser.Fiz.</cds.JOURNAL> <cds.VOL>1</cds.VOL> <cds.YR>(1990)</cds.YR> <cds.PG>3</cds.PG>") := by decide +kernel

/-- A special title given by a pattern: `D.N`. -/
def patternKb : TagKbs := ⟨[], [], [], [(py! "D.N", Re.ch 'D' ⬝ Re.any ⬝ Re.ch 'N', py! "Dokl.Akad.Nauk Ser.Fiz.")], [], [], [], [], []⟩

set_option synthInstance.maxSize 1000 in
/-- **C74 fails** for a special title that is a real pattern: the text it matches is looked up as if it were the
pattern, and the whole extraction stops with an error. -/
theorem C74_crash : @parseReferences asciiDB id plainLib ⟨patternKb, [], []⟩ defaultFormat none [py! "DAN 12 (1990) 3"] = .error .keyError := by
  decide +kernel

/-! ### C75: the text around a report number -/

/-- **C75.** A report number standing between `a` and `c` is replaced by its standard form. The text from the
position `start` up to the last character of `a` is kept; that character is always dropped, unless `a` ends at
`start`. So is a closing bracket that begins `c`. -/
theorem C75_partial (a b c text : Str) (start len extras : Nat) (hl : b.length = len + extras) :
    (start < a.length → ∀ a' x, a = a' ++ [x] →
      (addReportNumber (a ++ b ++ c) len text start a.length extras).1 = a'.drop start ++ py! "<cds.REPORTNUMBER>" ++ text ++ py! "</cds.REPORTNUMBER>") ∧
    (a.length ≤ start → (addReportNumber (a ++ b ++ c) len text start a.length extras).1 = py! "<cds.REPORTNUMBER>" ++ text ++ py! "</cds.REPORTNUMBER>") ∧
    (a ++ b ++ c).drop (addReportNumber (a ++ b ++ c) len text start a.length extras).2 =
      match c with
      | ']' :: c' => c'
      | ')' :: c' => c'
      | c => c := by
  refine ⟨?_, ?_, ?_⟩
  · rintro h a' x rfl
    simp only [addReportNumber, slice]
    rw [if_pos (by omega)]
    have : (a' ++ [x]).length - 1 = a'.length := by simp
    rw [this, List.append_assoc (a' ++ [x]), List.append_assoc a', List.take_left]
  · intro h
    simp only [addReportNumber, slice]
    rw [if_neg (by omega)]
    have : (List.take a.length (a ++ b ++ c)).drop start = [] := by
      rw [List.append_assoc, List.take_left]
      exact List.drop_eq_nil_of_le h
    rw [this, List.nil_append]
  · have hpos : a.length + len + extras = (a ++ b).length := by simp; omega
    simp only [addReportNumber, hpos]
    have hget : (a ++ b ++ c)[(a ++ b).length]? = c.head? := by
      rw [List.getElem?_append_right (Nat.le_refl _), Nat.sub_self]
      cases c <;> rfl
    rw [hget]
    have hdrop1 : ∀ x c', (a ++ b ++ x :: c').drop ((a ++ b).length + 1) = c' := by
      intro x c'
      rw [← List.drop_drop, List.drop_left]; rfl
    cases c with
    | nil => simp
    | cons x c' =>
      simp only [List.head?_cons]
      by_cases h1 : x = ']'
      · subst h1; exact hdrop1 _ _
      · by_cases h2 : x = ')'
        · subst h2; exact hdrop1 _ _
        · rw [if_neg (by simp [h1, h2]), List.drop_left]
          split
          · next h => simp at h; exact absurd h.1 h1
          · next h => simp at h; exact absurd h.1 h2
          · rfl

example : addReportNumber (py! "see [CERN TH 12] and") 10 (py! "CERN-TH-12") 0 5 0 =
    (py! "see <cds.REPORTNUMBER>CERN-TH-12</cds.REPORTNUMBER>", 16) := by decide +kernel

set_option synthInstance.maxSize 1000 in
/-- **C75 fails**: the character dropped in front of a report number may be the semicolon between two citations,
which then become one. With a blank behind the semicolon they stay two. -/
theorem C75_merged :
    (∃ r s, @parseReferences asciiDB id plainLib ⟨sampleReports, [], []⟩ defaultFormat none [py! "Foo;CERN-TH-1234"] = .ok ([r], s)) ∧
    ∃ r r' s, @parseReferences asciiDB id plainLib ⟨sampleReports, [], []⟩ defaultFormat none [py! "Foo; CERN-TH-1234"] = .ok ([r, r'], s) := by
  constructor
  · exact ⟨[(py! "raw_ref", [py! "Foo;CERN-TH-1234"]), (py! "misc", [py! "Foo"]), (py! "reportnumber", [py! "CERN-TH--1234"])],
      [0, 1, 0, 0, 0, 0, 0], by decide +kernel⟩
  · exact ⟨[(py! "raw_ref", [py! "Foo; CERN-TH-1234"]), (py! "misc", [py! "Foo"])],
      [(py! "raw_ref", [py! "Foo; CERN-TH-1234"]), (py! "reportnumber", [py! "CERN-TH--1234"])], [0, 1, 0, 0, 0, 0, 0], by decide +kernel⟩

end Props
