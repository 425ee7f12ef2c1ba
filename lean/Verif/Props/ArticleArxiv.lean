import Verif.Lemmas.ArticleArxiv
import Verif.Props.ArticleDoi
import Verif.Props.Arxiv

/-!
# An article with its arXiv identifier (C120)
-/

open Py Spec
open scoped List

namespace Props

/-- **C120.** A numbered line of plain text with an article in a known journal and, behind it, an arXiv identifier since 2007 with the word in front of it, and with
nothing else that is known, is reported as exactly one reference. The values in it are exactly the number, the line, the text in front, the standard title of the journal,
volume with series, year and page as they are written, the article in one text, the text between the article and the identifier, the identifier in its standard form,
the text behind, and the year of the article; one title and one report number are counted. -/
theorem C120 [UnicodeDB] (undesirable : Str → Str) (lib : Lib) (kbs : Kbs) (years years5 : List Str) (hy : lib.years = Re.alts (years.map Re.str))
    (hy5 : lib.years5 = Re.alts (years5.map Re.str)) (hys : ∀ y ∈ years, DigitsOf 2 y) (hys5 : ∀ y ∈ years5, DigitsOf 2 y)
    (n : Nat) (pre b p lead w mid a tail i K J : Str) (t : Told)
    (hl : ArticleArxivLine n pre b p lead w mid a tail i t) (hK : reading b = K) (hj : KnownJournal kbs K J)
    (ho : NothingFurther kbs.tag K pre b [(p ++ (lead ++ w ++ mid), tagged (py! "ARXIV") i)] tail)
    (hc : NoCollaborations kbs.tag pre [(mid, tagged (py! "ARXIV") i)] tail) (hu : ∀ s, (∀ c ∈ s, isAscii c = true) → lib.unidecode s = s)
    (hw : undesirable (bracketed n ++ ' ' :: articleArxivText pre b p lead w mid a tail) = bracketed n ++ ' ' :: articleArxivText pre b p lead w mid a tail) :
    ∃ r, parseReferences undesirable lib kbs defaultFormat none [bracketed n ++ ' ' :: articleArxivText pre b p lead w mid a tail] =
        .ok ([r], [0, 1, 1, 0, 0, 0, if LeftOver tail then 1 else 0]) ∧
      ∀ k, vals r k = under k (articleWithRecord n (bracketed n ++ ' ' :: articleArxivText pre b p lead w mid a tail) pre J mid (py! "reportnumber", i) tail t) :=
  references_with_arxiv hy hy5 hys hys5 hl hK hj ho hc hu hw

/-! ### An instance -/

attribute [local instance] asciiDB in
theorem article_arxiv_line : ArticleArxivLine 4 (py! "see also a note, ") (py! "Nature") [] (py! " ") (py! "432 (2004) 27") (py! ", ") (py! "ArXiv: 1501.00123v2 [hep-th]")
    (py! ", with a table.") (py! "arXiv:1501.00123 [hep-th]") natureTold where
  article := nature_front
  marker := calm_of (by decide +kernel)
  back := calm_of (by decide +kernel)
  quiet := by decide
  year := ⟨notIn (by decide), notIn (by decide), notIn (by decide)⟩
  cited := arxiv_line.cited
  chars := by decide
  words := fun x hx => notIn ((by decide +kernel : ∀ x ∈ otherWords, contains ((py! "see also a note, Nature 432 (2004) 27, ArXiv: 1501.00123v2 [hep-th], with a table.").map smallLetter) x = false) x hx)
  tidy := fun x hx => notIn ((by decide +kernel : ∀ x ∈ untidy, contains (py! "[4] see also a note, Nature 432 (2004) 27, ArXiv: 1501.00123v2 [hep-th], with a table.") x = false) x hx)

attribute [local instance] asciiDB in
theorem article_arxiv_only : NothingFurther knownKbs.tag (py! "NATURE") (py! "see also a note, ") (py! "Nature")
    [(py! " 432 (2004) 27, ", tagged (py! "ARXIV") (py! "arXiv:1501.00123 [hep-th]"))] (py! ", with a table.") where
  titles := by decide +kernel
  reports := by
    intro p hp
    rw [List.mem_singleton.1 hp]
    exact ⟨_, rfl, by decide +kernel⟩
  ibid := notIn (by decide +kernel)
  publishers := by decide +kernel
  byRe := by decide +kernel
  authors := by decide +kernel

attribute [local instance] asciiDB in
theorem article_arxiv_collaborations : NoCollaborations knownKbs.tag (py! "see also a note, ") [(py! ", ", tagged (py! "ARXIV") (py! "arXiv:1501.00123 [hep-th]"))]
    (py! ", with a table.") := by
  intro p hp g hg
  rw [List.mem_singleton.1 hp]
  refine @barren_finditer asciiDB (py! "_sealont, withb.") (by decide) _ (by decide +kernel) _ ?_
  intro c hc
  rw [List.mem_append, List.mem_append] at hc
  rcases hc with (hc | hc) | hc
  · revert hc; revert c; decide
  · rcases hg c hc with rfl | rfl <;> decide
  · revert hc; revert c; decide

example : ∃ r, @parseReferences asciiDB id yearsLib knownKbs defaultFormat none
        [py! "[4] see also a note, Nature 432 (2004) 27, ArXiv: 1501.00123v2 [hep-th], with a table."] = .ok ([r], [0, 1, 1, 0, 0, 0, 1]) ∧
    ∀ k, vals r k = under k [(py! "linemarker", py! "4"),
      (py! "raw_ref", py! "[4] see also a note, Nature 432 (2004) 27, ArXiv: 1501.00123v2 [hep-th], with a table."),
      (py! "misc", py! "see also a note"), (py! "journal_title", py! "Nature"), (py! "journal_volume", py! "432"),
      (py! "journal_year", py! "2004"), (py! "journal_page", py! "27"), (py! "journal_reference", py! "Nature 432 (2004) 27"),
      (py! "reportnumber", py! "arXiv:1501.00123 [hep-th]"), (py! "misc", py! "with a table"), (py! "year", py! "2004")] := by
  obtain ⟨r, h1, h2⟩ := @C120 asciiDB id yearsLib knownKbs someYears someYears rfl rfl (by unfold DigitsOf; decide) (by unfold DigitsOf; decide)
    4 _ _ _ _ _ _ _ _ _ _ _ _ article_arxiv_line (by decide +kernel) nature_journal article_arxiv_only article_arxiv_collaborations (fun _ _ => rfl) rfl
  refine ⟨r, ?_, ?_⟩
  · have : LeftOver (py! ", with a table.") := by decide
    rw [if_pos this] at h1
    exact h1
  · intro k
    rw [h2 k]
    exact congrArg (under k) (by decide +kernel)

end Props
