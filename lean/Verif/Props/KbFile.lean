import Verif.Lemmas.KbFile
import Verif.Props.Known

/-!
# Knowledge base files (C112, C113)
-/

open Py Spec
open scoped List

namespace Props

variable [UnicodeDB]

/-! ### C112: rows -/

omit [UnicodeDB] in
/-- Every text of a file has lines, in one way. -/
theorem C112_lines (t : Str) : ∃ ls, FileLines t ls ∧ ∀ ls', FileLines t ls' → ls' = ls := by
  obtain ⟨ls, h⟩ := fileLines_total t
  exact ⟨ls, h, fun ls' h' => fileLines_unique h' h⟩

/-- **C112.** Full statement: each line of a file of journals, publishers or collaborations that is not a comment gives the two terms that stand on both sides
of three hyphens, without the white space around them, in the order of the file; a file with another line is refused.
Proved with the terms as they are: the search term goes up to the hyphens and the replacement up to the end of the line; refuted by `C112_refuted` for white space
in front of the hyphens. -/
theorem C112_partial (t : Str) (ls : List Str) (h : FileLines t ls) :
    (∀ ps, loadPairs (.file t) = .ok ps ↔ All2 KbRow (DataLines ls) ps) ∧
    ∀ e, loadPairs (.file t) = .error e ↔ e = .valueError ∧ ∃ l ∈ DataLines ls, ¬ ∃ p, KbRow l p :=
  kbPairs_lines (fileLines_of h).1 (fileLines_of h).2

omit [UnicodeDB] in
/-- **C112.** A line is a row in at most one way. -/
theorem C112_unique (l : Str) (p q : Str × Str) (hp : KbRow l p) (hq : KbRow l q) : p = q := kbRow_unique hp hq

/-- **C112.** A table is the same as a file with its rows, whatever the line ends, as a list of pairs, and as a dictionary. -/
theorem C112_written (nl : Str) (hl : nl ∈ lineEnds) (ps : List (Str × Str)) (h : ∀ p ∈ ps, Writable p) (compile : Str → Py Re) :
    loadJournals (.file (fileText nl (ps.map rowText))) = loadJournals (.items ps) ∧ loadJournals (.dict ps) = loadJournals (.items ps) ∧
    loadPublishers compile (.file (fileText nl (ps.map rowText))) = loadPublishers compile (.items ps) ∧
    loadPublishers compile (.dict ps) = loadPublishers compile (.items ps) ∧
    loadCollaborations compile (.file (fileText nl (ps.map rowText))) = loadCollaborations compile (.items ps) ∧
    loadCollaborations compile (.dict ps) = loadCollaborations compile (.items ps) := by
  have e := load_written hl h
  refine ⟨?_, rfl, ?_, rfl, ?_, rfl⟩
  · unfold loadJournals; rw [e]; rfl
  · unfold loadPublishers; rw [e]; rfl
  · unfold loadCollaborations; rw [e]; rfl

omit [UnicodeDB] in
example : @loadPairs asciiDB (.file (py! "# titles\n  A A---Astron.Astrophys.\r\nX---Y---  Z  \r")) =
    .ok [(py! "A A", py! "Astron.Astrophys."), (py! "X---Y", py! "Z  ")] := by decide +kernel

omit [UnicodeDB] in
example : @loadPairs asciiDB (.file (py! "A A---Astron.Astrophys.\n\n")) = .error .valueError := by decide +kernel

omit [UnicodeDB] in
example : Writable (py! "A A", py! "Astron.Astrophys.") where
  lines := by unfold OneLine; decide
  term := ⟨by decide, by unfold NoSpaceFirst; decide, by decide⟩
  repl := ⟨by decide, by unfold NoSpaceFirst; decide⟩
  hyphens := by
    intro x y e hx
    cases x with
    | nil => exact absurd rfl hx
    | cons c x =>
      exfalso
      have h2 : '-' ∈ (py! "---" ++ py! "Astron.Astrophys.").drop 3 ∨ x.length < 2 := by
        rw [e]
        rcases Nat.lt_or_ge x.length 2 with h | h
        · exact .inr h
        · refine .inl ?_
          match x, h with
          | a :: b :: x, _ => simp
      rcases h2 with h2 | h2
      · exact absurd h2 (by decide)
      · match x, h2 with
        | [], _ => simp at e
        | [a], _ => simp at e

/-- The knowledge base with one journal, as it is read from a file. -/
def journalFile (t : Str) : Kbs :=
  match @loadJournals asciiDB (.file t) with
  | .ok j => ⟨{ smallKbs with journalPats := j.pats, journalStd := j.std, journalKeys := j.keys }, [], []⟩
  | .error _ => ⟨smallKbs, [], []⟩

omit [UnicodeDB] in
/-- **C112**, refuted: the white space in front of the hyphens is part of the search term. The example in the documentation of `build_journals_kb` has such white
space: the title is not recognised, but it is without the white space. -/
theorem C112_refuted : @loadPairs asciiDB (.file (py! "ASTRONOMY AND ASTROPHYSICS              ---Astron. Astrophys.\n")) =
      .ok [(py! "ASTRONOMY AND ASTROPHYSICS              ", py! "Astron. Astrophys.")] ∧
    (@parseReferences asciiDB id plainLib (journalFile (py! "ASTRONOMY AND ASTROPHYSICS              ---Astron. Astrophys.\n")) defaultFormat none
      [py! "[1] Astronomy and Astrophysics 12 (1990) 345"]).map (fun x => x.1.map fun r => vals r (py! "journal_title")) = .ok [[]] ∧
    (@parseReferences asciiDB id plainLib (journalFile (py! "ASTRONOMY AND ASTROPHYSICS---Astron. Astrophys.\n")) defaultFormat none
      [py! "[1] Astronomy and Astrophysics 12 (1990) 345"]).map (fun x => x.1.map fun r => vals r (py! "journal_title")) = .ok [[py! "Astron. Astrophys."]] := by
  decide +kernel

/-! ### C113: other lines -/

/-- **C113.** Full statement: a line of a knowledge base file that is not a row is reported as an error of the file.
Proved for journals, publishers and collaborations (`C112_partial`: a `ValueError`), and exactly what happens with journals given as regular expressions: an `AttributeError`. -/
theorem C113_partial (t : Str) (ls : List Str) (h : FileLines t ls) :
    (∀ ps, loadJournalsRe (.file t) = .ok ps ↔ All2 KbRow (DataLines ls) ps) ∧
    ∀ e, loadJournalsRe (.file t) = .error e ↔ e = .attributeError ∧ ∃ l ∈ DataLines ls, ¬ ∃ p, KbRow l p :=
  journalsRe_lines (fileLines_of h).1 (fileLines_of h).2

/-- **C113.** Authors: lines that are not rows are passed over, all others are read in order. -/
theorem C113_authors (t : Str) (ls : List Str) (h : FileLines t ls) :
    ∃ os, All2 RowOf (DataLines ls) os ∧ loadAuthors (.file t) = os.filterMap id :=
  authors_lines (fileLines_of h).1 (fileLines_of h).2

/-- **C113.** Special journals: each line without the white space around it; empty lines are passed over. -/
theorem C113_special (t : Str) (ls : List Str) (h : FileLines t ls) :
    ∃ xs, All2 Stripped (DataLines ls) xs ∧ loadSpecial (.file t) = xs.filter fun x => !x.isEmpty :=
  special_lines (fileLines_of h).1 (fileLines_of h).2

omit [UnicodeDB] in
/-- **C113**, refuted: an empty line is refused as such only for journals given by titles. -/
theorem C113_refuted : @loadPairs asciiDB (.file (py! "A---B\n\n")) = .error .valueError ∧ @loadJournalsRe asciiDB (.file (py! "A---B\n\n")) = .error .attributeError ∧
    @loadAuthors asciiDB (.file (py! "A---B\n\nC -- D\n")) = [(py! "A", py! "B")] := by decide +kernel

omit [UnicodeDB] in
example : @loadSpecial asciiDB (.file (py! "# special\n JHEP \r\n\nJCAP")) = [py! "JHEP", py! "JCAP"] := by decide +kernel

end Props
