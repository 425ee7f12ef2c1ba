import Verif.Lemmas.Arxiv4
import Verif.Props.Ident
import Verif.Props.Doi

/-!
# A line with an arXiv identifier (C111)
-/

open Py Spec
open scoped List

namespace Props

/-- **C111.** A numbered line of plain text with one arXiv identifier since 2007 with the word in front of it, and with nothing else that is known, is
reported as exactly one reference. The values in it are exactly the number, the line, the text in front of the identifier, the identifier in its
standard form (`arXiv:`, year, month, a full stop, the number, the category if there is one), the text behind it, and the year when there is one in the texts,
which is taken out of them. The version is not reported. -/
theorem C111 [UnicodeDB] (undesirable : Str → Str) (lib : Lib) (kbs : Kbs) (fmt : List FmtPart) (years years5 : List Str) (hy : lib.years = Re.alts (years.map Re.str))
    (hy5 : lib.years5 = Re.alts (years5.map Re.str)) (hys : ∀ y ∈ years, DigitsOf 2 y) (hys5 : ∀ y ∈ years5, DigitsOf 2 y)
    (n : Nat) (pre w tail i : Str) (hl : ArxivLine n pre w tail i)
    (ho : NothingAround kbs.tag pre (tagged (py! "ARXIV") i) tail)
    (hb : ∀ q ∈ kbs.books, ∀ u v y, YearOfTwo pre tail u v y → ¬ alnums (upper q.1) <:+: alnums (upper u) ∧ ¬ alnums (upper q.1) <:+: alnums (upper v))
    (hu : ∀ s, (∀ c ∈ s, isAscii c = true) → lib.unidecode s = s)
    (hw : undesirable (bracketed n ++ ' ' :: (pre ++ w ++ tail)) = bracketed n ++ ' ' :: (pre ++ w ++ tail)) :
    ∃ r u v y, parseReferences undesirable lib kbs fmt none [bracketed n ++ ' ' :: (pre ++ w ++ tail)] =
        .ok ([r], [0, 1, 0, 0, 0, 0, if LeftOver tail then 1 else 0]) ∧ YearOfTwo pre tail u v y ∧
      ∀ k, vals r k = under k (loneRecord n (bracketed n ++ ' ' :: (pre ++ w ++ tail)) u [(py! "reportnumber", i)] v y) :=
  references_arxiv hy hy5 hys hys5 hl ho hb hu hw

/-! ### An instance -/

attribute [local instance] asciiDB in
theorem arxiv_line : ArxivLine 4 (py! "see also a note, ") (py! "ArXiv: 1501.00123v2 [hep-th]") (py! ", with a table.") (py! "arXiv:1501.00123 [hep-th]") where
  front := calm_of (by decide +kernel)
  back := calm_of (by decide +kernel)
  quiet := by decide
  cited := .inl ⟨py! "ArXiv", py! ": ", py! "15", [], py! "01", ['.'], py! "00123", py! "v2", [' '], py! "[hep-th]", rfl,
    .cons (by decide) (.cons (by decide) (.cons (by decide) (.cons (by decide) (.cons (by decide) .nil)))), by decide, ⟨'1', '5', rfl, .inl (by decide)⟩, .inl rfl,
    ⟨'0', '1', rfl, .inl (by decide)⟩, by decide, ⟨rfl, by decide⟩, fun c hc => by cases hc; decide,
    .inl ⟨[], 'v', '2', rfl, by decide, .cons (by decide) .nil, by decide⟩, (by unfold Spaces; decide), fun c hc => by cases hc; decide,
    .inl ⟨py! "hep-th", rfl, by decide, by decide +kernel⟩, rfl⟩
  chars := by decide
  words := fun x hx => notIn ((by decide +kernel : ∀ x ∈ otherWords, contains ((py! "see also a note, " ++ py! "ArXiv: 1501.00123v2 [hep-th]" ++ py! ", with a table.").map smallLetter) x = false) x hx)
  tidy := fun x hx => notIn ((by decide +kernel : ∀ x ∈ untidy, contains (bracketed 4 ++ ' ' :: (py! "see also a note, " ++ py! "ArXiv: 1501.00123v2 [hep-th]" ++ py! ", with a table.")) x = false) x hx)

attribute [local instance] asciiDB in
theorem arxiv_only : NothingAround reportKbs.tag (py! "see also a note, ") (tagged (py! "ARXIV") (py! "arXiv:1501.00123 [hep-th]")) (py! ", with a table.") where
  kb := doi_only.kb
  titles := doi_only.titles
  ibid := doi_only.ibid
  reports := by
    intro p hp
    rcases List.mem_cons.1 hp with rfl | hp
    · exact ⟨_, rfl, by decide +kernel⟩
    · rw [List.mem_singleton.1 hp]
      exact ⟨_, rfl, by decide +kernel⟩
  publishers := by decide +kernel
  byRe := by decide +kernel
  authors := by decide +kernel
  collaborations := by decide +kernel

attribute [local instance] asciiDB in
example : ∃ r, @parseReferences asciiDB id yearsLib reportKbs defaultFormat none [py! "[4] see also a note, ArXiv: 1501.00123v2 [hep-th], with a table."] = .ok ([r], [0, 1, 0, 0, 0, 0, 1]) ∧
    ∀ k, vals r k = under k [(py! "linemarker", py! "4"), (py! "raw_ref", py! "[4] see also a note, ArXiv: 1501.00123v2 [hep-th], with a table."),
      (py! "misc", py! "see also a note"), (py! "reportnumber", py! "arXiv:1501.00123 [hep-th]"), (py! "misc", py! "with a table")] := by
  have none : ∀ {u v y}, YearOfTwo (py! "see also a note, ") (py! ", with a table.") u v y → _ := fun h => two_noYear (by decide) (by decide) h
  obtain ⟨r, u, v, y, h1, h3, h4⟩ := @C111 asciiDB id yearsLib reportKbs defaultFormat someYears someYears rfl rfl
    (by unfold DigitsOf; decide) (by unfold DigitsOf; decide) 4 _ _ _ _ arxiv_line arxiv_only
    (by
      intro q hq u v y h
      obtain ⟨rfl, rfl, rfl⟩ := none h
      have : ∀ q ∈ reportKbs.books, contains (alnums (upper (py! "see also a note, "))) (alnums (upper q.1)) = false ∧ contains (alnums (upper (py! ", with a table."))) (alnums (upper q.1)) = false := by decide +kernel
      exact ⟨notIn (this q hq).1, notIn (this q hq).2⟩) (fun _ _ => rfl) rfl
  obtain ⟨rfl, rfl, rfl⟩ := none h3
  exact ⟨r, h1, fun k => by rw [h4 k]; exact congrArg (under k) (by decide +kernel)⟩

end Props
