import Verif.Lemmas.Known5
import Verif.Props.Crash

/-!
# An article in a known journal (C103)
-/

open Py Spec
open scoped List

namespace Props

/-- **C103.** A numbered line of plain text with an article in a known journal, and with nothing else that is
known, is reported as exactly one reference. The values in it are exactly the number, the line, the text in front,
the standard title of the journal, volume with series, year and page as they are written, the article in one text,
the text behind, and the year; one title is counted, and one misc when there is text behind. -/
theorem C103 [UnicodeDB] (undesirable : Str → Str) (lib : Lib) (kbs : Kbs) (n : Nat) (pre b p lead w tail K J : Str) (t : Told)
    (hl : ArticleLine n pre b p lead w tail t) (hK : reading b = K) (hj : KnownJournal kbs K J)
    (ho : NothingElse kbs.tag K pre b (p ++ (lead ++ w ++ tail)) tail) (hu : ∀ s, (∀ c ∈ s, isAscii c = true) → lib.unidecode s = s)
    (hw : undesirable (bracketed n ++ ' ' :: articleText pre b p lead w tail) = bracketed n ++ ' ' :: articleText pre b p lead w tail) :
    ∃ r, parseReferences undesirable lib kbs defaultFormat none [bracketed n ++ ' ' :: articleText pre b p lead w tail] =
        .ok ([r], [0, 0, 1, 0, 0, 0, if LeftOver tail then 1 else 0]) ∧
      ∀ k, vals r k = under k (articleRecord n (bracketed n ++ ' ' :: articleText pre b p lead w tail) pre J tail t) :=
  references_article hl hK hj ho hu hw

/-! ### An instance -/

/-- Whether a text is calm. -/
def calmB (s : Str) : Bool :=
  s.all (fun c => calmChars.contains c) &&
  tellingWords.all (fun w => !contains (s.map smallLetter) w) && untidy.all (fun w => !contains s w) &&
  (List.range (s.length + 1)).all (fun i => ((s.drop i).take 7).length != 7 || ((s.drop i).take 7).any fun c => !(py! "0123456789").contains c) &&
  (py! "0123456789").all fun a => (py! "0123456789").all fun b => !contains s [a, '.', b]

theorem notIn {x y : Str} (hc : contains y x = false) : ¬ x <:+: y := by
  rintro ⟨a, b, rfl⟩
  rw [(contains_iff _ _).2 ⟨a, b, rfl⟩] at hc
  cases hc

theorem calm_of {s : Str} (h : calmB s = true) : Calm s := by
  simp only [calmB, Bool.and_eq_true, List.all_eq_true, Bool.not_eq_true', Bool.or_eq_true, bne_iff_ne, List.any_eq_true] at h
  obtain ⟨⟨⟨⟨h1, h2⟩, h3⟩, h4⟩, h5⟩ := h
  refine ⟨fun c hc => List.contains_iff_mem.1 (h1 c hc), fun w hw => notIn (h2 w hw), fun w hw => notIn (h3 w hw), ?_, fun a ha b hb => notIn (h5 a ha b hb)⟩
  rintro x ⟨a, b, rfl⟩ hx
  have hd : ((a ++ x ++ b).drop a.length).take 7 = x := by simp [← hx]
  rcases h4 a.length (by simp; omega) with h | ⟨c, hc, hn⟩
  · exact absurd (by rw [hd]; exact hx) h
  · rw [hd] at hc
    exact ⟨c, hc, fun hm => by rw [List.contains_iff_mem.2 hm] at hn; cases hn⟩

/-- A journal known by a title of which a part is the title of another journal, a report number, a publisher,
an author and a collaboration. -/
def knownKbs : Kbs :=
  let journals := @buildJournals asciiDB [(py! "Phys Lett", py! "Phys.Lett."), (py! "Lett", py! "Letters"), (py! "Nature", py! "Nature")]
  ⟨{ smallKbs with
      journalPats := journals.pats, journalStd := journals.std, journalKeys := journals.keys
      publishers := [(py! "Springer", literalName (py! "springer"), py! "Springer")] }, [py! "JHEP"], []⟩

/-- The volume `B432`, the year and the page. -/
def knownTold : Told := ⟨some (py! "B"), py! "432", py! "1998", py! "17", none⟩

theorem known_line : ArticleLine 7 (py! "see also the review of early work, ") (py! "Phys. Lett") (py! ".") (py! " ") (py! "B432 (1998) 17") (py! ", and a note.")
    knownTold where
  calm := calm_of (by decide +kernel)
  quiet := by decide
  blank := by decide
  first := ⟨'P', by decide, rfl⟩
  last := ⟨'t', by decide, rfl⟩
  skip := by decide
  gap := by decide
  lead := by decide
  num := .seriesYearPage 'B' (py! "432") (py! "1998") (py! "17") (by decide) (by decide) ⟨_, '9', '8', rfl, Or.inl rfl, by decide⟩ (by decide)
  stops := by rintro c hc; cases hc; decide
  year := ⟨notIn (by decide), notIn (by decide)⟩

attribute [local instance] asciiDB in
theorem known_journal : KnownJournal knownKbs (py! "PHYS LETT") (py! "Phys.Lett.") where
  titles := ⟨_, rfl, rfl, by decide +kernel⟩
  known := by decide +kernel
  std := by decide +kernel
  byRe := by decide +kernel
  ascii := by decide
  plain := by decide
  special := by decide

attribute [local instance] asciiDB in
theorem known_only : NothingElse knownKbs.tag (py! "PHYS LETT") (py! "see also the review of early work, ") (py! "Phys. Lett")
    (py! ". B432 (1998) 17, and a note.") (py! ", and a note.") where
  titles := by decide +kernel
  reports := by
    intro p hp
    rw [List.mem_singleton.1 hp]
    exact ⟨_, rfl, by decide +kernel⟩
  ibid := notIn (by decide +kernel)
  publishers := by decide +kernel
  byRe := by decide +kernel
  authors := by decide +kernel
  collaborations := by
    intro p hp g hg
    rw [List.mem_singleton.1 hp]
    refine @barren_finditer asciiDB (py! "_seaolthrviwfyk,nd. ") (by decide) _ (by decide +kernel) _ ?_
    intro c hc
    simp only [List.mem_append] at hc
    rcases hc with (hc | hc) | hc
    · revert hc; revert c; decide
    · rcases hg c hc with rfl | rfl <;> decide
    · revert hc; revert c; decide

example : ∃ r, @parseReferences asciiDB id plainLib knownKbs defaultFormat none
        [py! "[7] see also the review of early work, Phys. Lett. B432 (1998) 17, and a note."] = .ok ([r], [0, 0, 1, 0, 0, 0, 1]) ∧
    ∀ k, vals r k = under k [(py! "linemarker", py! "7"),
      (py! "raw_ref", py! "[7] see also the review of early work, Phys. Lett. B432 (1998) 17, and a note."),
      (py! "misc", py! "see also the review of early work"), (py! "journal_title", py! "Phys.Lett."), (py! "journal_volume", py! "B432"),
      (py! "journal_year", py! "1998"), (py! "journal_page", py! "17"), (py! "journal_reference", py! "Phys.Lett. B432 (1998) 17"),
      (py! "misc", py! "and a note"), (py! "year", py! "1998")] := by
  obtain ⟨r, h1, h2⟩ := @C103 asciiDB id plainLib knownKbs 7 _ _ _ _ _ _ _ _ _ known_line (by decide +kernel) known_journal known_only (fun _ _ => rfl) rfl
  refine ⟨r, ?_, ?_⟩
  · have : LeftOver (py! ", and a note.") := by decide
    rw [if_pos this] at h1
    exact h1
  · intro k
    rw [h2 k]
    exact congrArg (under k) (by decide +kernel)

end Props
