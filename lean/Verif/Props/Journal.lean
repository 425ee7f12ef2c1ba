import Verif.Lemmas.Journal
import Verif.Lemmas.Books
import Verif.Props.Engine

/-!
# Journals and their numeration in the line: C56
-/

namespace Props
open Py Spec

/-- **C56.** Replacing a recognised title is all or nothing. Either nothing happens: no text is added, the
position in the line stays and so does the title that an `ibid` stands for. Or the text up to the title,
the tag of the title and the tags of a numeration are added. The title is the standard one, that of the journal
before for an `ibid`. The numeration is found in the text `c` behind the title and its punctuation `q`, or,
failing that, around the title. -/
theorem C56_all_or_nothing [UnicodeDB] (line info : Str) (prev prev' : Option Prev) (start idx extras pos : Nat) (std : List (Str × Str)) (chunk : Str)
    (h : addJournal line info prev start idx extras std = .ok (chunk, pos, prev')) :
    (chunk = [] ∧ pos = start ∧ prev' = prev) ∨
    ∃ tag q c n v p, line.drop (idx + info.length + extras) = q ++ c ∧ (∀ x ∈ q, x ∈ py! ".:-)") ∧
      (∀ x, c.head? = some x → x ∉ py! ".:-)") ∧
      ((find (py! "IBID") (upper info) = none ∧ ∃ t title, dget std info = some t ∧ (';' ∉ t ∧ t = title ∨ ∃ s, ';' ∉ s ∧ t = title ++ ';' :: s) ∧
          tag = py! "<cds.JOURNAL>" ++ title ++ py! "</cds.JOURNAL>") ∨
        find (py! "IBID") (upper info) ≠ none ∧ ∃ pr, prev = some pr ∧ tag = py! " <cds.JOURNALibid>" ++ pr.title ++ py! "</cds.JOURNALibid>") ∧
      (findNumeration c = .ok (some n) ∨
        findNumeration c = .ok none ∧ findNumerationMore (slice line start idx ++ tag ++ ' ' :: c) = .ok (some n)) ∧
      n.volume = some v ∧ n.page = some p ∧
      (∃ s yr en, chunk = slice line start idx ++ tag ++ (py! " <cds.VOL>" ++ s ++ v ++ py! "</cds.VOL>" ++ yr ++
        py! " <cds.PG>" ++ p ++ en ++ py! "</cds.PG>")) ∧
      pos = idx + info.length + extras + q.length + n.len := by
  unfold addJournal at h
  obtain ⟨o, h1, h⟩ := bind_ok h
  cases o with
  | none =>
    have := pure_ok h
    simp only [Prod.mk.injEq] at this
    exact .inl ⟨this.1.symm, this.2.1.symm, this.2.2.symm⟩
  | some x =>
    obtain ⟨rebuilt, pos1, pv, series⟩ := x
    dsimp only at h
    obtain ⟨o, h2, h⟩ := bind_ok h
    obtain ⟨rfl, tag, rfl, htag⟩ := journalHead_form h1
    cases o with
    | none =>
      have := pure_ok h
      simp only [Prod.mk.injEq] at this
      exact .inl ⟨this.1.symm, this.2.1.symm, this.2.2.symm⟩
    | some n =>
      right
      obtain ⟨q, s1, s2, s3, s4⟩ := skip_split line (idx + info.length + extras)
      generalize hc : line.drop (skipPunctuation line (idx + info.length + extras)) = c at s1 s3
      have hnum : findNumeration c = .ok (some n) ∨ findNumeration c = .ok none ∧
          findNumerationMore (slice line start idx ++ tag ++ ' ' :: c) = .ok (some n) := by
        unfold journalNumeration at h2
        rw [hc] at h2
        obtain ⟨o, h3, h2⟩ := bind_ok h2
        cases o with
        | some n' =>
          have := pure_ok h2
          cases this
          exact .inl h3
        | none => exact .inr ⟨h3, h2⟩
      obtain ⟨v, p, -, -, n1, n2, -⟩ := C57_tag (if findNumeration c = .ok (some n) then c else slice line start idx ++ tag ++ ' ' :: c) n (by
        split
        · exact .inl (by assumption)
        · rcases hnum with h | ⟨-, h⟩
          · exact absurd h (by assumption)
          · exact .inr h)
      obtain ⟨tags, h3, h⟩ := bind_ok h
      have hchunk := pure_ok h
      simp only [Prod.mk.injEq] at hchunk
      obtain ⟨rfl, rfl, -⟩ := hchunk
      refine ⟨tag, q, c, n, v, p, s1, s2, s3, htag, hnum, n1, n2, ?_, ?_⟩
      · obtain ⟨yr, en, e⟩ := numerationTag_form (n := withSeries series n) n1 n2
        rw [h3] at e
        cases e
        exact ⟨_, yr, en, rfl⟩
      · show skipPunctuation _ _ + n.len = _
        rw [s4]

example : @addJournal asciiDB (py! "see Phys Lett: B 12 (1995) 345, and") (py! "PHYS LETT") none 0 4 0 [(py! "PHYS LETT", py! "Phys. Lett.")] =
    .ok (py! "see <cds.JOURNAL>Phys. Lett.</cds.JOURNAL> <cds.VOL>B12</cds.VOL> <cds.YR>(1995)</cds.YR> <cds.PG>345</cds.PG>", 30,
      some ⟨py! "Phys. Lett.", some (py! "B")⟩) := by decide +kernel

example : @addJournal asciiDB (py! "see Phys Lett, and") (py! "PHYS LETT") none 0 4 0 [(py! "PHYS LETT", py! "Phys. Lett.")] =
    .ok ([], 0, none) := by decide +kernel

/-- **C56.** Text lost: what the search right behind the title finds. A numeration found right behind the
title is consumed exactly: the text `w` that holds its volume, year and page. What is behind it is read on. -/
theorem C56_partial [UnicodeDB] (line info : Str) (prev prev' : Option Prev) (start idx extras pos : Nat) (std : List (Str × Str)) (chunk : Str)
    (h : addJournal line info prev start idx extras std = .ok (chunk, pos, prev')) (n : Numeration)
    (hn : findNumeration (line.drop (skipPunctuation line (idx + info.length + extras))) = .ok (some n)) :
    (chunk = [] ∧ pos = start ∧ prev' = prev) ∨
    ∃ q w rest v y p, line.drop (idx + info.length + extras) = q ++ w ++ rest ∧ (∀ x ∈ q, x ∈ py! ".:-)") ∧ w ≠ [] ∧
      n.volume = some v ∧ PartOf v w ∧ n.year = some y ∧ PartOf y w ∧ n.page = some p ∧ PartOf p w ∧
      line.drop pos = rest := by
  rcases C56_all_or_nothing line info prev prev' start idx extras pos std chunk h with h | ⟨tag, q, c, n', v, p, h1, h2, h3, -, h5, -, -, -, h9⟩
  · exact .inl h
  right
  have hc : line.drop (skipPunctuation line (idx + info.length + extras)) = c := by
    obtain ⟨q', s1, s2, s3, -⟩ := skip_split line (idx + info.length + extras)
    exact prefix_unique s2 s3 h2 h3 (s1.symm.trans h1)
  rw [hc] at hn
  have : n' = n := by
    rcases h5 with h5 | ⟨h5, -⟩
    · rw [hn] at h5; cases h5; rfl
    · rw [hn] at h5; cases h5
  subst this
  obtain ⟨w, rest, y, v', p', e1, e2, e3, e4, e5, e6, e7, e8, e9⟩ := first_consumed hn
  refine ⟨q, w, rest, v', y, p', by rw [h1, e1]; simp, h2, e3, e6, e7, e4, e5, e8, e9, ?_⟩
  rw [h9, e2, Nat.add_assoc _ q.length, ← List.drop_drop, h1, e1, ← List.append_assoc, ← List.length_append, List.drop_left]

example : @findNumeration asciiDB ((py! "see Phys Lett: B 12 (1995) 345, and").drop (@skipPunctuation (py! "see Phys Lett: B 12 (1995) 345, and") 13)) =
    .ok (some ⟨some (py! "1995"), some (py! "B"), some (py! "12"), some (py! "345"), none, 16⟩) ∧
    (py! "see Phys Lett: B 12 (1995) 345, and").drop 30 = py! ", and" := by decide +kernel

/-- **C56 fails: one character too many.** A numeration that only the second search finds, one without a year,
is counted together with the blank put in front of it. So the character `r.head?` behind the numeration `y` is
always dropped: reading goes on with `r.drop 1`. -/
theorem C56_swallowed [UnicodeDB] (line info : Str) (prev prev' : Option Prev) (start idx extras pos : Nat) (std : List (Str × Str)) (chunk : Str)
    (h : addJournal line info prev start idx extras std = .ok (chunk, pos, prev')) (hne : chunk ≠ [])
    (hn : findNumeration (line.drop (skipPunctuation line (idx + info.length + extras))) = .ok none)
    (hi : find (py! "IBID") (upper info) = none) (hl : '<' ∉ line) (ht : ∀ t, dget std info = some t → '<' ∉ t) :
    ∃ q y r, line.drop (idx + info.length + extras) = q ++ y ++ r ∧ (∀ x ∈ q, x ∈ py! ".:-)") ∧ line.drop pos = r.drop 1 ∧
      pos = idx + info.length + extras + q.length + y.length + 1 := by
  rcases C56_all_or_nothing line info prev prev' start idx extras pos std chunk h with h | ⟨tag, q, c, n, v, p, h1, h2, h3, h4, h5, -, -, -, h9⟩
  · exact absurd h.1 hne
  have hc : line.drop (skipPunctuation line (idx + info.length + extras)) = c := by
    obtain ⟨q', s1, s2, s3, -⟩ := skip_split line (idx + info.length + extras)
    exact prefix_unique s2 s3 h2 h3 (s1.symm.trans h1)
  rw [hc] at hn
  have h6 : findNumerationMore (slice line start idx ++ tag ++ ' ' :: c) = .ok (some n) := by
    rcases h5 with h5 | ⟨-, h5⟩
    · rw [hn] at h5; cases h5
    · exact h5
  rcases h4 with ⟨-, t, title, t1, t2, rfl⟩ | ⟨hi', -⟩
  · have ht' := ht t t1
    have ht2 : '<' ∉ title := by
      rcases t2 with ⟨-, rfl⟩ | ⟨s, -, rfl⟩
      · exact ht'
      · exact fun hx => ht' (by simp [hx])
    have hb : '<' ∉ slice line start idx := fun hx => hl (by
      unfold slice at hx
      exact List.mem_of_mem_take (List.mem_of_mem_drop hx))
    have hcl : '<' ∉ c := fun hx => hl (by rw [← hc] at hx; exact List.mem_of_mem_drop hx)
    rw [show slice line start idx ++ (py! "<cds.JOURNAL>" ++ title ++ py! "</cds.JOURNAL>") ++ ' ' :: c =
      slice line start idx ++ py! "<cds.JOURNAL>" ++ title ++ py! "</cds.JOURNAL>" ++ ' ' :: c by simp only [List.append_assoc]] at h6
    obtain ⟨y, r, e1, e2⟩ := more_after ht2 (fun p q e => tag_once hb ht2 hcl e) h6
    refine ⟨q, y, r, by rw [h1, e1]; simp, h2, ?_, by rw [h9, e2]; rfl⟩
    rw [h9, e2, show idx + info.length + extras + q.length + (y.length + 1) = idx + info.length + extras + ((q ++ y).length + 1) by simp; omega,
      ← List.drop_drop, h1, e1, ← List.append_assoc, ← List.drop_drop, List.drop_left]
  · exact absurd hi hi'

example : @addJournal asciiDB (py! "Phys Lett 12 3X and") (py! "PHYS LETT") none 0 0 0 [(py! "PHYS LETT", py! "Phys. Lett.")] =
    .ok (py! "<cds.JOURNAL>Phys. Lett.</cds.JOURNAL> <cds.VOL>12</cds.VOL> <cds.PG>3</cds.PG>", 15, some ⟨py! "Phys. Lett.", none⟩) ∧
    (py! "Phys Lett 12 3X and").drop 15 = py! " and" := by decide +kernel

set_option synthInstance.maxSize 1000 in
/-- **C56 fails** for whole lines: the semicolon behind a numeration without a year is lost, so two citations
become one. With a year they stay two. -/
theorem C56_merged :
    (∃ r s, @parseReferences asciiDB id plainLib journalKbs defaultFormat none [py! "Phys Lett 12 3; one two"] = .ok ([r], s)) ∧
    ∃ r r' s, @parseReferences asciiDB id plainLib journalKbs defaultFormat none [py! "Phys Lett 12 (1990) 3; one two"] = .ok ([r, r'], s) := by
  constructor
  · exact ⟨[(py! "raw_ref", [py! "Phys Lett 12 3; one two"]), (py! "journal_title", [py! "Phys.Lett."]), (py! "journal_volume", [py! "12"]),
      (py! "journal_page", [py! "3"]), (py! "journal_reference", [py! "Phys.Lett. 12 () 3"]), (py! "misc", [py! "one two"])],
      [0, 0, 1, 0, 0, 0, 1], by decide +kernel⟩
  · exact ⟨[(py! "raw_ref", [py! "Phys Lett 12 (1990) 3; one two"]), (py! "journal_title", [py! "Phys.Lett."]),
        (py! "journal_volume", [py! "12"]), (py! "journal_year", [py! "1990"]), (py! "journal_page", [py! "3"]),
        (py! "journal_reference", [py! "Phys.Lett. 12 (1990) 3"]), (py! "year", [py! "1990"])],
      [(py! "raw_ref", [py! "Phys Lett 12 (1990) 3; one two"]), (py! "misc", [py! "one two"])], [0, 0, 1, 0, 0, 0, 1], by decide +kernel⟩

/-! ### C71: the title and the series of a journal -/

/-- **C71.** When a journal is replaced, its title is the standard one without what follows the last semicolon;
that is the series. For an `ibid` both are those of the journal before. A series found in the numeration takes
the place of the title's; the one used stands in front of the volume and is what a following `ibid` stands for. -/
theorem C71_series [UnicodeDB] (line info : Str) (prev prev' : Option Prev) (start idx extras pos : Nat) (std : List (Str × Str)) (chunk : Str)
    (h : addJournal line info prev start idx extras std = .ok (chunk, pos, prev')) (hne : chunk ≠ []) :
    ∃ base ser, ((find (py! "IBID") (upper info) = none ∧ ∃ t, dget std info = some t ∧
          (';' ∉ t ∧ base = ⟨t, none⟩ ∨ ∃ title s, t = title ++ ';' :: s ∧ ';' ∉ s ∧ base = ⟨title, some (strip s)⟩)) ∨
        find (py! "IBID") (upper info) ≠ none ∧ prev = some base) ∧
      prev' = some ⟨base.title, ser⟩ ∧
      ∃ n v rest, (findNumeration (line.drop (skipPunctuation line (idx + info.length + extras))) = .ok (some n) ∨ ∃ x, findNumerationMore x = .ok (some n)) ∧
        n.volume = some v ∧
        (n.series.getD [] ≠ [] ∧ ser = n.series ∨ n.series.getD [] = [] ∧ ser.getD [] = base.series.getD []) ∧
        ∃ tag, chunk = slice line start idx ++ tag ++ base.title ++ rest ∧
          (tag = py! "<cds.JOURNAL>" ∧ (∃ r, rest = py! "</cds.JOURNAL> <cds.VOL>" ++ ser.getD [] ++ v ++ r) ∨
            tag = py! " <cds.JOURNALibid>" ∧ ∃ r, rest = py! "</cds.JOURNALibid> <cds.VOL>" ++ ser.getD [] ++ v ++ r) := by
  unfold addJournal at h
  obtain ⟨o, h1, h⟩ := bind_ok h
  cases o with
  | none => exact absurd (Prod.mk.inj (pure_ok h)).1.symm hne
  | some x =>
    obtain ⟨rebuilt, pos1, pv, series⟩ := x
    dsimp only at h
    obtain ⟨o, h2, h⟩ := bind_ok h
    obtain ⟨rfl, -⟩ := journalHead_form h1
    obtain ⟨rfl, hpv⟩ := journalHead_prev h1
    cases o with
    | none => exact absurd (Prod.mk.inj (pure_ok h)).1.symm hne
    | some n =>
      have hnum : findNumeration (line.drop (skipPunctuation line (idx + info.length + extras))) = .ok (some n) ∨
          ∃ x, findNumerationMore x = .ok (some n) := by
        unfold journalNumeration at h2
        obtain ⟨o, h3, h2⟩ := bind_ok h2
        cases o with
        | some n' => cases pure_ok h2; exact .inl h3
        | none => exact .inr ⟨_, h2⟩
      obtain ⟨v, p, n1, n2⟩ : ∃ v p, n.volume = some v ∧ n.page = some p := by
        rcases hnum with h | ⟨x, h⟩
        · obtain ⟨v, p, -, -, n1, n2, -⟩ := C57_tag _ n (.inl h)
          exact ⟨v, p, n1, n2⟩
        · obtain ⟨v, p, -, -, n1, n2, -⟩ := C57_tag _ n (.inr h)
          exact ⟨v, p, n1, n2⟩
      obtain ⟨tags, h3, h⟩ := bind_ok h
      have hchunk := pure_ok h
      simp only [Prod.mk.injEq] at hchunk
      obtain ⟨rfl, rfl, rfl⟩ := hchunk
      obtain ⟨yr, en, e⟩ := numerationTag_form (n := withSeries pv.series n) n1 n2
      rw [h3] at e
      cases e
      have hser : n.series.getD [] ≠ [] ∧ (withSeries pv.series n).series = n.series ∨
          n.series.getD [] = [] ∧ (withSeries pv.series n).series.getD [] = pv.series.getD [] := by
        show _ ∧ orElse n.series (orElse pv.series n.series) = _ ∨ _ ∧ (orElse n.series (orElse pv.series n.series)).getD [] = _
        rcases orElse_cases n.series (orElse pv.series n.series) with ⟨a, b⟩ | ⟨a, b⟩
        · exact .inl ⟨a, b⟩
        · refine .inr ⟨a, ?_⟩
          rw [b]
          rcases orElse_cases pv.series n.series with ⟨c, d⟩ | ⟨c, d⟩
          · rw [d]
          · rw [d, a, c]
      rcases hpv with ⟨p1, rfl, p2⟩ | ⟨p1, rfl, rfl⟩
      · exact ⟨pv, _, .inl ⟨p1, p2⟩, rfl, n, v, py! "</cds.JOURNAL>" ++ _, hnum, n1, hser, py! "<cds.JOURNAL>",
          by simp only [List.append_assoc]; rfl, .inl ⟨rfl, _, by simp only [List.append_assoc]; rfl⟩⟩
      · exact ⟨pv, _, .inr ⟨p1, rfl⟩, rfl, n, v, py! "</cds.JOURNALibid>" ++ _, hnum, n1, hser, py! " <cds.JOURNALibid>",
          by simp only [List.append_assoc]; rfl, .inr ⟨rfl, _, by simp only [List.append_assoc]; rfl⟩⟩

example : @addJournal asciiDB (py! "ibid B 13 (1996) 7") (py! "IBID") (some ⟨py! "Phys. Lett.", some (py! "A")⟩) 0 0 0 [] =
    .ok (py! " <cds.JOURNALibid>Phys. Lett.</cds.JOURNALibid> <cds.VOL>B13</cds.VOL> <cds.YR>(1996)</cds.YR> <cds.PG>7</cds.PG>", 18,
      some ⟨py! "Phys. Lett.", some (py! "B")⟩) ∧
    @addJournal asciiDB (py! "ibid 13 (1996) 7") (py! "IBID") (some ⟨py! "Phys. Lett.", some (py! "A")⟩) 0 0 0 [] =
    .ok (py! " <cds.JOURNALibid>Phys. Lett.</cds.JOURNALibid> <cds.VOL>A13</cds.VOL> <cds.YR>(1996)</cds.YR> <cds.PG>7</cds.PG>", 16,
      some ⟨py! "Phys. Lett.", some (py! "A")⟩) := by decide +kernel

end Props
