import Verif.Lemmas.Written
import Verif.Lemmas.Recognise
import Verif.Py.Sample

/-!
# Journal numeration: C57, C61
-/

namespace Props
open Py Spec

/-- **C57.** Recognising a numeration at the start of a text never fails, and what is
recognised has a volume number, a page and a year, all of them parts of the text; the text
consumed is not empty and lies within the text. -/
theorem C57_numeration [UnicodeDB] (line : Str) :
    findNumeration line = .ok none ∨
    ∃ n y v p, findNumeration line = .ok (some n) ∧
      n.year = some y ∧ YearText y ∧ PartOf y line ∧
      n.volume = some v ∧ VolumeText v ∧ PartOf v line ∧
      n.page = some p ∧ PageText p ∧ PartOf p line ∧
      0 < n.len ∧ n.len ≤ line.length := by
  unfold findNumeration
  cases h : firstMatch numerationPatterns line with
  | none => exact .inl rfl
  | some m =>
    right
    obtain ⟨r, hr, hm⟩ := List.exists_of_findSome?_eq_some h
    have hok := List.all_eq_true.1 patterns_ok r hr
    have f := numFacts hok hm
    obtain ⟨vol, hvol⟩ := f.vol
    obtain ⟨v, hv, hv1, hv2⟩ := f.volume
    obtain ⟨p, hp, hp1, hp2⟩ := f.page
    obtain ⟨y, hy⟩ := f.yearSome rfl
    obtain ⟨hy1, hy2⟩ := f.yearOk y hy
    have hmo := reMatch_ok hm
    have hl := lang_minLen _ _ hmo.lang
    obtain ⟨rest, hs⟩ := hmo.split
    have hst : m.start = 0 := hmo.start
    have hlen : m.txt.length ≤ line.length := by rw [hs]; simp
    simp only [numOk, Bool.and_eq_true, decide_eq_true_eq] at hok
    have hpos := hok.1.2
    have key : ∃ n, numerationOf m = .ok n ∧ n.year = m.group G.year ∧ n.volume = volumeGroup m ∧
        n.page = orElse (m.group G.page) (m.group G.jinst_page) ∧ n.len = m.stop := by
      unfold numerationOf
      rw [hvol]
      simp only
      split <;> exact ⟨_, rfl, rfl, rfl, rfl, rfl⟩
    obtain ⟨n, hn, h1, h2, h3, h4⟩ := key
    refine ⟨n, y, v, p, ?_, by rw [h1, hy], hy1, hy2, by rw [h2, hv], hv1, hv2, by rw [h3, hp], hp1, hp2, ?_, ?_⟩
    · simp only [hn]; rfl
    · rw [h4]; simp only [Match.stop, hst]; omega
    · rw [h4]; simp only [Match.stop, hst]; omega

example : @findNumeration asciiDB (py! " B 12 (1995) 345, see") =
    .ok (some { year := some (py! "1995"), series := some (py! "B"), volume := some (py! "12"),
                page := some (py! "345"), pageEnd := none, len := 16 }) := by decide +kernel

/-- **C57, second search.** The search behind a tagged title never fails either; the volume
and the page are present. -/
theorem C57_more [UnicodeDB] (line : Str) :
    findNumerationMore line = .ok none ∨
    ∃ n v p, findNumerationMore line = .ok (some n) ∧
      n.volume = some v ∧ VolumeText v ∧ PartOf v line ∧
      n.page = some p ∧ PageText p ∧ PartOf p line ∧
      ∀ y, n.year = some y → YearText y ∧ PartOf y line := by
  unfold findNumerationMore
  cases h : numerationPatterns2.findSome? (search · line) with
  | none => exact .inl rfl
  | some m =>
    right
    obtain ⟨r, hr, hm⟩ := List.exists_of_findSome?_eq_some h
    have hmem := search_mem hm
    obtain ⟨ps, qs, hs⟩ := mem_finditer hmem
    obtain ⟨b, hb⟩ := scan_hit hs
    have f := numFacts (List.all_eq_true.1 patterns2_ok r hr) hb
    obtain ⟨a, ha⟩ := finditer_must1 (List.all_eq_true.1 patterns2_after r hr) hmem
    obtain ⟨vol, hvol⟩ := f.vol
    obtain ⟨v, hv, hv1, hv2⟩ := f.volume
    obtain ⟨p, hp, hp1, hp2⟩ := f.page
    have htext : (ps.flatMap Piece.orig).reverse.reverse ++ (Piece.hit m :: qs).flatMap Piece.orig = line := by
      rw [List.reverse_reverse, ← List.flatMap_append, ← hs, scan_orig]
    simp only [List.flatMap_cons, Piece.orig] at htext
    rw [htext] at hv2 hp2
    refine ⟨{ year := m.group G.year, series := extractSeries vol, volume := volumeGroup m,
              page := orElse (m.group G.page) (m.group G.jinst_page), pageEnd := m.group G.page_end,
              len := a.length }, v, p, ?_, hv, hv1, hv2, hp, hp1, hp2, ?_⟩
    · simp only [numerationMoreOf, hvol, ha]; rfl
    · intro y hy
      have := f.yearOk y hy
      rw [htext] at this
      exact this

example : @findNumerationMore asciiDB (py! "<cds.JOURNAL>Phys. Rev.</cds.JOURNAL>, B 12, 345 see") =
    .ok (some { year := none, series := some (py! "B"), volume := some (py! "12"),
                page := some (py! "345"), pageEnd := none, len := 11 }) := by decide +kernel

/-- **C57, tags.** The tags written for a recognised numeration are made of its series, volume,
year and page: nothing fails and no value is missing. -/
theorem C57_tag [UnicodeDB] (line : Str) (n : Numeration)
    (h : findNumeration line = .ok (some n) ∨ findNumerationMore line = .ok (some n)) :
    ∃ v p yr en, n.volume = some v ∧ n.page = some p ∧
      numerationTag n = .ok (py! " <cds.VOL>" ++ n.series.getD [] ++ v ++ py! "</cds.VOL>" ++ yr ++
        py! " <cds.PG>" ++ p ++ en ++ py! "</cds.PG>") ∧
      (yr = [] ∧ n.year = none ∨ ∃ y, n.year = some y ∧ yr = py! " <cds.YR>(" ++ y ++ py! ")</cds.YR>") ∧
      (en = [] ∨ ∃ e, n.pageEnd = some e ∧ en = '-' :: e) := by
  have key : ∃ v p, n.volume = some v ∧ n.page = some p ∧ ∀ y, n.year = some y → YearText y := by
    rcases h with h | h
    · rcases C57_numeration line with h' | ⟨n', y, v, p, h', hy, hy1, -, hv, -, -, hp, -⟩
      · rw [h] at h'; simp at h'
      · rw [h] at h'
        simp at h'; subst h'
        exact ⟨v, p, hv, hp, fun y' h => by rw [hy] at h; cases h; exact hy1⟩
    · rcases C57_more line with h' | ⟨n', v, p, h', hv, -, -, hp, -, -, hy⟩
      · rw [h] at h'; simp at h'
      · rw [h] at h'
        simp at h'; subst h'
        exact ⟨v, p, hv, hp, fun y' h => (hy y' h).1⟩
  obtain ⟨v, p, hv, hp, hy⟩ := key
  obtain ⟨ny, ns, nv, np, ne, nl⟩ := n
  simp only at hv hp hy
  subst hv hp
  have hyr : ny = none ∨ ∃ c y, ny = some (c :: y) := by
    cases ny with
    | none => exact .inl rfl
    | some y =>
      cases y with
      | nil =>
        obtain ⟨l, c, a, b, h, -⟩ := hy _ rfl
        have := congrArg List.length h
        simp at this
      | cons c y => exact .inr ⟨c, y, rfl⟩
  refine ⟨v, p, (match ny with
    | some y => py! " <cds.YR>(" ++ y ++ py! ")</cds.YR>"
    | none => []), (match ne with
    | some (c :: e) => '-' :: c :: e
    | _ => []), rfl, rfl, ?_, ?_, ?_⟩
  · simp only [numerationTag]
    rcases hyr with rfl | ⟨c, y, rfl⟩ <;> rcases ns with _ | _ | _ <;> rcases ne with _ | _ | _ <;>
      simp [bind, Except.bind, pure, Except.pure, showVal]
  · rcases hyr with rfl | ⟨c, y, rfl⟩
    · exact .inl ⟨rfl, rfl⟩
    · exact .inr ⟨_, rfl, rfl⟩
  · rcases ne with _ | _ | ⟨c, e⟩
    · exact .inl rfl
    · exact .inl rfl
    · exact .inr ⟨_, rfl, rfl⟩

example : (do
    let n ← @findNumeration asciiDB (py! " B 12 (1995) 345, see")
    match n with
    | some n => numerationTag n
    | none => .ok []) =
    .ok (py! " <cds.VOL>B12</cds.VOL> <cds.YR>(1995)</cds.YR> <cds.PG>345</cds.PG>") := by decide +kernel

/-- **C61.** A text that begins, white space apart, with a volume, a year and a page written in
one of the common ways is recognised as a numeration, whatever follows. -/
theorem C61_recognised [UnicodeDB] (s v y p w rest : Str) (hs : Spaces s) (hv : Decimals v) (hy : IsYear y)
    (hp : Decimals p) (hw : PlainNumeration v y p w) : ∃ n, findNumeration (s ++ w ++ rest) = .ok (some n) := by
  have key : ∃ m, firstMatch numerationPatterns (s ++ w ++ rest) = some m := by
    cases hw with
    | volYearPage =>
      have := recognised (by simp [numerationPatterns]) (form_vol_yr_page s v y p rest hs hv hy hp)
      simpa using this
    | volPageYear =>
      have := recognised (by simp [numerationPatterns]) (form_vol_page_yr s v y p rest hs hv hy hp)
      simpa using this
    | yearVolPage =>
      have := recognised (by simp [numerationPatterns]) (form_yr_vol_page s v y p rest hs hv hy hp)
      simpa using this
  obtain ⟨m, hm⟩ := key
  rcases C57_numeration (s ++ w ++ rest) with h | ⟨n, y, v, p, h, -⟩
  · unfold findNumeration at h
    rw [hm] at h
    cases hn : numerationOf m with
    | error e => simp only [hn] at h; cases h
    | ok n => simp only [hn] at h; cases h
  · exact ⟨n, h⟩

example : @findNumeration asciiDB (py! " 1998 12 345, see") =
    .ok (some { year := some (py! "1998"), series := none, volume := some (py! "12"),
                page := some (py! "345"), pageEnd := none, len := 12 }) := by decide +kernel

/-- **C61.** A numeration written in one of the ways of `Written`, at the end of the text or in
front of punctuation, gives the series, volume, year, page and last page that it tells, and the
text consumed ends with it. -/
theorem C61_values [UnicodeDB] (lead w rest : Str) (t : Told) (hl : lead = [] ∨ lead = py! " " ∨ lead = py! ", ") (hw : Written w t) (hr : Stops rest) :
    findNumeration (lead ++ w ++ rest) = .ok (some ⟨some t.year, t.series, some t.volume, some t.page, t.last, lead.length + w.length⟩) := by
  obtain ⟨e, he, hc, f, hf, rfl, rfl⟩ := written_form hw
  exact form_values (by simpa [leads] using hl) he hc hf hr

example : Written (py! "B432 (1998) 17") ⟨some (py! "B"), py! "432", py! "1998", py! "17", none⟩ :=
  .seriesYearPage 'B' (py! "432") (py! "1998") (py! "17") (by decide) (by decide) ⟨py! "19", '9', '8', rfl, .inl rfl, by decide⟩ (by decide)

example : @findNumeration asciiDB (py! ", B432 (1998) 17; see also") =
    .ok (some ⟨some (py! "1998"), some (py! "B"), some (py! "432"), some (py! "17"), none, 16⟩) := by decide +kernel

/-- The ways with the year in front are not among them: with a page that reads as a year, the
first number is taken for the volume, the second for the page, and the page for the year. -/
theorem C61_year_first_violated : ¬ ∀ v y p : Str, AsciiDigits v → AsciiYear y → AsciiDigits p →
    ∃ n, @findNumeration asciiDB (y ++ py! " " ++ v ++ py! " " ++ p) = .ok (some n) ∧ n.year = some y ∧ n.volume = some v ∧ n.page = some p := by
  intro h
  obtain ⟨n, h1, h2, -⟩ := h (py! "12") (py! "1998") (py! "1999") (by decide) ⟨py! "19", '9', '8', rfl, .inl rfl, by decide⟩ (by decide)
  have h3 : @findNumeration asciiDB (py! "1998 12 1999") = .ok (some ⟨some (py! "1999"), none, some (py! "1998"), some (py! "12"), none, 12⟩) := by decide +kernel
  have h4 := h1.symm.trans h3
  injection h4 with h4
  injection h4 with h4
  rw [h4] at h2
  exact absurd h2 (by decide)


end Props
