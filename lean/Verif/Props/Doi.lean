import Verif.Lemmas.Doi3
import Verif.Props.Reports

/-!
# A line with a DOI (C110)
-/

open Py Spec
open scoped List

namespace Props

/-- **C110.** A numbered line of plain text with one DOI, and with nothing else that is known, is reported as exactly one
reference. The values in it are exactly the number, the line, the text in front of the DOI, the DOI behind `doi:`, the text behind it, and the year
when there is one in the texts, which is taken out of them. What announces the DOI (`doi`, `doi:`, `(doi)`, …) is not reported. The DOI goes as far as it can: a full
stop at its end is not part of it. -/
theorem C110 [UnicodeDB] (undesirable : Str → Str) (lib : Lib) (kbs : Kbs) (fmt : List FmtPart) (n : Nat) (pre lead d tail : Str) (hl : DoiLine n pre lead d tail)
    (ho : NothingAround kbs.tag pre doiMark tail) (hd : ∀ s, '%' ∉ s → lib.unquote s = s)
    (hu : ∀ s, (∀ c ∈ s, isAscii c = true) → lib.unidecode s = s)
    (hw : undesirable (bracketed n ++ ' ' :: (pre ++ (lead ++ d) ++ tail)) = bracketed n ++ ' ' :: (pre ++ (lead ++ d) ++ tail)) :
    ∃ r u v y, parseReferences undesirable lib kbs fmt none [bracketed n ++ ' ' :: (pre ++ (lead ++ d) ++ tail)] =
        .ok ([r], [0, 0, 0, 0, 0, 1, if LeftOver tail then 1 else 0]) ∧ YearOfTwo pre tail u v y ∧
      ∀ k, vals r k = under k (loneRecord n (bracketed n ++ ' ' :: (pre ++ (lead ++ d) ++ tail)) u [(py! "doi", py! "doi:" ++ d)] v y) :=
  references_doi hl ho hd hu hw

/-- **C23**, exactly: what is replaced goes as far as it can. Behind a replaced text there are no more characters of a DOI, except full stops
at the end of them. -/
theorem C23_longest [UnicodeDB] (lib : Lib) (hu : Decodes lib.unquote) (line : Str) :
    ∃ gaps ws, gaps.length = ws.length + 1 ∧ line = interleave gaps ws ∧
      (tagDois lib line).1 = interleave gaps (ws.map fun _ => py! "<cds.DOI />") ∧ All2 CitesDoi ws (tagDois lib line).2 ∧ NoneGoesOn gaps ws := by
  rw [tagDois_eq]
  exact longest_dois hu (scan_scanned' doi_minLen line)

example : @tagDois asciiDB lib0 (py! "10.1103/a..b-(c)... and 10.1103/ab,b") =
    (py! "<cds.DOI />... and <cds.DOI />,b", [py! "10.1103/a..b-(c)", py! "10.1103/ab"]) := by decide +kernel

/-! ### An instance -/

attribute [local instance] asciiDB in
/-- With what a text that cites a DOI does not begin. -/
theorem cites_head {w d : Str} (h : CitesDoi w d) : ∀ c ∈ py! "sealont, ", w.head? ≠ some c := by
  have no : ∀ c ∈ py! "sealont, ", ∀ x ∈ py! "dDh", x ∉ caseVariants c := by decide +kernel
  obtain ⟨lead, raw, rfl, hl, ds, parts, sl, t, rfl, -⟩ := h
  intro c hc he
  rcases hl with rfl | ⟨o, x, s1, k, q, s2, rfl, ho, ⟨x1, y1, z1, hf, hx, -, -⟩, -⟩ | ⟨y, hy, hf⟩
  · rw [← Option.some.inj he] at hc; exact absurd hc (by decide)
  · rcases ho with rfl | rfl
    · cases hf with
      | cons f1 hf =>
        rw [Option.some.inj he] at f1
        exact no c hc x1 (by simp only [List.mem_cons, List.not_mem_nil, or_false] at hx ⊢; rcases hx with h | h <;> simp [h]) f1
    · rw [← Option.some.inj he] at hc; exact absurd hc (by decide)
  · have : ∃ y', y = 'h' :: y' := by
      simp only [List.mem_cons, List.not_mem_nil, or_false] at hy
      rcases hy with rfl | rfl | rfl | rfl <;> exact ⟨_, rfl⟩
    obtain ⟨y', rfl⟩ := this
    cases hf with
    | cons f1 hf =>
      rw [Option.some.inj he] at f1
      exact no c hc 'h' (by simp) f1

attribute [local instance] asciiDB in
theorem doi_line : DoiLine 4 (py! "see also a note, ") (py! "doi: ") (py! "10.1000/xyz") (py! ", with a table.") where
  front := calm_of (by decide +kernel)
  back := calm_of (by decide +kernel)
  quiet := by decide
  word := .inr ⟨[], py! "doi", [], [], [':'], [' '], rfl, .inl rfl, ⟨'d', 'o', 'i', .cons (by decide) (.cons (by decide) (.cons (by decide) .nil)), by decide, by decide, by decide⟩,
    (by unfold Spaces; decide), .inl rfl, .inr rfl, (by unfold Spaces; decide)⟩
  doi := ⟨py! "1000", [], ['/'], py! "xyz", rfl, by decide, by decide, by decide, by simp, .inl rfl, by decide, by decide, by decide, rfl⟩
  chars := by decide
  slash := rfl
  tidy := notIn (by decide +kernel)
  first := by
    intro a b w r d' e hb e2 hc
    cases b with
    | nil => exact hb rfl
    | cons c b =>
      have hc' : c ∈ py! "sealont, " := (by decide : ∀ c ∈ py! "see also a note, ", c ∈ py! "sealont, ") c (by rw [e]; simp)
      cases w with
      | nil =>
        obtain ⟨lead, raw, e3, -, ds, parts, sl, t, e4, -⟩ := hc
        rw [e4] at e3
        simp at e3
      | cons x w =>
        have : c = x := (List.cons.inj e2).1
        exact cites_head hc c hc' (by rw [this]; rfl)
  last := by
    intro y r e hy hc
    cases y with
    | nil => exact absurd rfl hy
    | cons x y =>
      have hx : ',' = x := (List.cons.inj e).1
      have := hc x (by simp)
      rw [← hx] at this
      rcases this with h | h
      · exact absurd h (by decide)
      · exact absurd h (by decide)

attribute [local instance] asciiDB in
theorem doi_only : NothingAround reportKbs.tag (py! "see also a note, ") doiMark (py! ", with a table.") where
  kb := ⟨_, rfl, rfl, by decide +kernel⟩
  titles := by
    have : reportKbs.tag.journalKeys.all (fun k => !contains (reading (py! "see also a note, ")) k && !contains (reading (py! ", with a table.")) k) = true := by decide +kernel
    intro k hk
    have := List.all_eq_true.1 this k hk
    simp only [Bool.and_eq_true, Bool.not_eq_true'] at this
    exact ⟨notIn this.1, notIn this.2⟩
  ibid := ⟨notIn (by decide +kernel), notIn (by decide +kernel)⟩
  reports := by
    intro p hp
    rcases List.mem_cons.1 hp with rfl | hp
    · exact ⟨_, rfl, by decide +kernel⟩
    · rw [List.mem_singleton.1 hp]
      exact ⟨_, rfl, by decide +kernel⟩
  publishers := by decide +kernel
  byRe := by decide +kernel
  authors := by decide +kernel
  collaborations := by decide +kernel

attribute [local instance] asciiDB in
example : ∃ r, @parseReferences asciiDB id plainLib reportKbs defaultFormat none [py! "[4] see also a note, doi: 10.1000/xyz, with a table."] = .ok ([r], [0, 0, 0, 0, 0, 1, 1]) ∧
    ∀ k, vals r k = under k [(py! "linemarker", py! "4"), (py! "raw_ref", py! "[4] see also a note, doi: 10.1000/xyz, with a table."),
      (py! "misc", py! "see also a note"), (py! "doi", py! "doi:10.1000/xyz"), (py! "misc", py! "with a table")] := by
  obtain ⟨r, u, v, y, h1, h3, h4⟩ := @C110 asciiDB id plainLib reportKbs defaultFormat 4 _ _ _ _ doi_line doi_only (fun _ _ => rfl) (fun _ _ => rfl) rfl
  obtain ⟨rfl, rfl, rfl⟩ := two_noYear (by decide) (by decide) h3
  exact ⟨r, h1, fun k => by rw [h4 k]; exact congrArg (under k) (by decide +kernel)⟩

end Props
