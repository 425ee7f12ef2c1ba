import Verif.Lemmas.DoiList2
import Verif.Props.Doi

/-!
# A line with several DOIs (C115)
-/

open Py Spec
open scoped List

namespace Props

/-- **C115**, for DOIs that no semicolon follows at once. A numbered line of plain text without years, with any number of DOIs, and with nothing else that is known, is
reported as one reference for every DOI, in the order of the line. The values in each are exactly the number, the line, the text in front of this DOI, and the DOI behind `doi:`;
the text behind the last DOI is in the last reference.

The property is the same for every list of DOIs; it fails when a semicolon is behind a DOI, see `C115_refuted`. -/
theorem C115_partial [UnicodeDB] (undesirable : Str → Str) (lib : Lib) (kbs : Kbs) (fmt : List FmtPart) (n : Nat) (toks : List DoiItem) (tail : Str) (hl : DoiList n toks tail)
    (hne : toks ≠ []) (ho : NothingAmong kbs.tag (toks.map fun t => (t.pre, doiMark)) tail) (hd : ∀ s, '%' ∉ s → lib.unquote s = s)
    (hu : ∀ s, (∀ c ∈ s, isAscii c = true) → lib.unidecode s = s)
    (hw : undesirable (bracketed n ++ ' ' :: inLine (toks.map DoiItem.written) tail) = bracketed n ++ ' ' :: inLine (toks.map DoiItem.written) tail) :
    ∃ rs, parseReferences undesirable lib kbs fmt none [bracketed n ++ ' ' :: inLine (toks.map DoiItem.written) tail] =
        .ok (rs, [0, 0, 0, 0, 0, toks.length, if LeftOver tail then 1 else 0]) ∧
      All2 (fun table r => ∀ k, vals r k = under k table) (doiRecords n (bracketed n ++ ' ' :: inLine (toks.map DoiItem.written) tail) toks tail) rs :=
  references_dois hl hne ho hd hu hw

set_option synthInstance.maxSize 1000 in
/-- **C115** fails when semicolons separate the DOIs: the semicolon is taken into the DOI. -/
theorem C115_refuted : (@parseReferences asciiDB id plainLib emptyKbs defaultFormat none [py! "[1] doi:10.1000/xyz; doi:10.2000/uvw"]).map
      (fun rs => rs.1.map fun r => (vals r (py! "misc"), vals r (py! "doi"))) =
    .ok [([], [py! "doi:10.1000/xyz;"]), ([], [py! "doi:10.2000/uvw"])] := by
  decide +kernel

/-! ### An instance -/

/-- Two DOIs. -/
def twoDois : List DoiItem := [⟨py! "see also a note, ", py! "doi: ", py! "10.1000/xyz"⟩, ⟨py! ", see ", [], py! "10.2000/uvw"⟩]

attribute [local instance] asciiDB in
theorem first_of {p rest : Str} (hp : ∀ c ∈ p, c ∈ py! "sealont, ") : ∀ a b w r d, p = a ++ b → b ≠ [] → b ++ rest = w ++ r → ¬ CitesDoi w d := by
  intro a b w r d' e hb e2 hc
  cases b with
  | nil => exact hb rfl
  | cons c b =>
    have hc' : c ∈ py! "sealont, " := hp c (by rw [e]; simp)
    cases w with
    | nil =>
      obtain ⟨lead, raw, e3, -, ds, parts, sl, t, e4, -⟩ := hc
      rw [e4] at e3
      simp at e3
    | cons x w =>
      have : c = x := (List.cons.inj e2).1
      exact cites_head hc c hc' (by rw [this]; rfl)

attribute [local instance] asciiDB in
theorem last_of {t : Str} : ∀ y r, ',' :: t = y ++ r → y ≠ [] → (∀ c ∈ y, DoiChar c) → y.getLast? = some '.' := by
  intro y r e hy hc
  cases y with
  | nil => exact absurd rfl hy
  | cons x y =>
    have hx : ',' = x := (List.cons.inj e).1
    have := hc x (by simp)
    rw [← hx] at this
    rcases this with h | h
    · exact absurd h (by decide)
    · exact absurd h (by decide)

attribute [local instance] asciiDB in
theorem dois_line : DoiList 4 twoDois (py! ", with a table.") where
  texts := by
    intro t ht
    rcases List.mem_cons.1 ht with rfl | ht
    · exact ⟨calm_of (by decide +kernel), by decide, noYear_of (by decide)⟩
    · rw [List.mem_singleton.1 ht]
      exact ⟨calm_of (by decide +kernel), by decide, noYear_of (by decide)⟩
  back := ⟨calm_of (by decide +kernel), by decide, noYear_of (by decide)⟩
  dois := by
    intro t ht
    rcases List.mem_cons.1 ht with rfl | ht
    · exact ⟨doi_line.word, doi_line.doi, by decide, rfl⟩
    · rw [List.mem_singleton.1 ht]
      exact ⟨.inl rfl, ⟨py! "2000", [], ['/'], py! "uvw", rfl, by decide, by decide, by decide, by simp, .inl rfl, by decide, by decide, by decide, rfl⟩, by decide, rfl⟩
  tidy := notIn (by decide +kernel)
  apart := ⟨fun a b w r d h1 h2 h3 => first_of (p := py! "see also a note, ") (by decide) a b w r d h1 h2 (by rw [← List.append_assoc]; exact h3), last_of,
    fun a b w r d h1 h2 h3 => first_of (p := py! ", see ") (by decide) a b w r d h1 h2 (by rw [← List.append_assoc]; exact h3), last_of, trivial⟩

attribute [local instance] asciiDB in
theorem dois_only : NothingAmong reportKbs.tag (twoDois.map fun t => (t.pre, doiMark)) (py! ", with a table.") where
  kb := ⟨_, rfl, rfl, by decide +kernel⟩
  titles := by
    have : reportKbs.tag.journalKeys.all (fun k => (py! ", with a table." :: (twoDois.map fun t => (t.pre, doiMark)).map (·.1)).all fun s => !contains (reading s) k) = true := by
      decide +kernel
    intro k hk s hs
    have := List.all_eq_true.1 (List.all_eq_true.1 this k hk) s hs
    simp only [Bool.not_eq_true'] at this
    exact notIn this
  ibid := by
    have : (py! ", with a table." :: (twoDois.map fun t => (t.pre, doiMark)).map (·.1)).all (fun s => !contains (reading s) (py! "IBID")) = true := by decide +kernel
    intro s hs
    have := List.all_eq_true.1 this s hs
    simp only [Bool.not_eq_true'] at this
    exact notIn this
  reports := by
    intro p hp
    rcases List.mem_cons.1 hp with rfl | hp
    · exact ⟨_, rfl, by decide +kernel⟩
    · rw [List.mem_singleton.1 hp]
      exact ⟨_, rfl, by decide +kernel⟩
  publishers := by decide +kernel
  byRe := by decide +kernel
  authors := by decide +kernel
  collaborations := by decide +kernel

attribute [local instance] asciiDB in
example : ∃ rs, @parseReferences asciiDB id plainLib reportKbs defaultFormat none [py! "[4] see also a note, doi: 10.1000/xyz, see 10.2000/uvw, with a table."] =
      .ok (rs, [0, 0, 0, 0, 0, 2, 1]) ∧
    All2 (fun table r => ∀ k, vals r k = under k table)
      [[(py! "linemarker", py! "4"), (py! "raw_ref", py! "[4] see also a note, doi: 10.1000/xyz, see 10.2000/uvw, with a table."),
        (py! "misc", py! "see also a note"), (py! "doi", py! "doi:10.1000/xyz")],
       [(py! "linemarker", py! "4"), (py! "raw_ref", py! "[4] see also a note, doi: 10.1000/xyz, see 10.2000/uvw, with a table."),
        (py! "misc", py! "see"), (py! "doi", py! "doi:10.2000/uvw"), (py! "misc", py! "with a table")]] rs := by
  obtain ⟨rs, h1, h2⟩ := @C115_partial asciiDB id plainLib reportKbs defaultFormat 4 _ _ dois_line (by simp [twoDois]) dois_only (fun _ _ => rfl) (fun _ _ => rfl) rfl
  refine ⟨rs, h1, ?_⟩
  refine Eq.mp (congrArg (fun ts => All2 (fun table r => ∀ k, vals r k = under k table) ts rs) ?_) h2
  decide +kernel

end Props
