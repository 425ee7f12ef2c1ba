import Verif.Spec.Doi
import Verif.Spec.Reports

/-!
# Specification vocabulary for a line with several DOIs (C115)
-/

open Py
open scoped List

namespace Spec

/-- Texts, each followed by something else, and a text at the end. -/
def inLine : List (Str × Str) → Str → Str
  | [], tail => tail
  | (p, x) :: ts, tail => p ++ x ++ inLine ts tail

/-- The line with everything but the texts blanked. -/
def blankedTexts : List (Str × Str) → Str → Str
  | [], tail => tail
  | (p, x) :: ts, tail => p ++ List.replicate x.length '_' ++ blankedTexts ts tail

/-- The same as it is compared. -/
def maskedTexts [UnicodeDB] : List (Str × Str) → Str → Str
  | [], tail => reading tail
  | (p, x) :: ts, tail => reading p ++ List.replicate x.length '_' ++ maskedTexts ts tail

/-- Nothing of the knowledge bases is in the texts. -/
structure NothingAmong [UnicodeDB] (kbs : TagKbs) (toks : List (Str × Str)) (tail : Str) : Prop where
  kb : TitleKb kbs
  titles : ∀ k ∈ kbs.journalKeys, ∀ s ∈ tail :: toks.map (·.1), ¬ k <:+: reading s
  ibid : ∀ s ∈ tail :: toks.map (·.1), ¬ py! "IBID" <:+: reading s
  reports : ∀ p ∈ kbs.reportStd, ∃ r, dget kbs.reportPats p.1 = some r ∧ finditer r (maskedTexts toks tail) = []
  publishers : ∀ p ∈ kbs.publishers, finditer p.2.1 (maskedTexts toks tail) = []
  byRe : ∀ p ∈ kbs.journalsRe, search p.2.1 (inLine toks tail) = none
  authors : ∀ p ∈ kbs.authors, ∃ c ∈ p.1, isAscii c = false
  collaborations : ∀ p ∈ kbs.collaborations, finditer p.2 (blankedTexts toks tail) = []

/-- A DOI of a line: the text in front of it, what announces it, and the DOI. -/
structure DoiItem where
  pre : Str
  lead : Str
  doi : Str

/-- What is written. -/
def DoiItem.written (t : DoiItem) : Str × Str := (t.pre, t.lead ++ t.doi)

/-- The DOIs begin and end where they are said to: nothing that cites a DOI begins in a text, and no DOI goes on behind its end, except by full stops. -/
def Apart [UnicodeDB] : List DoiItem → Str → Prop
  | [], _ => True
  | t :: ts, tail =>
    (∀ a b w r d, t.pre = a ++ b → b ≠ [] → b ++ (t.lead ++ t.doi) ++ inLine (ts.map DoiItem.written) tail = w ++ r → ¬ CitesDoi w d) ∧
    (∀ y r, inLine (ts.map DoiItem.written) tail = y ++ r → y ≠ [] → (∀ c ∈ y, DoiChar c) → y.getLast? = some '.') ∧ Apart ts tail

/-- A numbered line with several DOIs. -/
structure DoiList [UnicodeDB] (n : Nat) (toks : List DoiItem) (tail : Str) : Prop where
  texts : ∀ t ∈ toks, Calm t.pre ∧ (∀ c ∈ t.pre, c ∈ quietChars) ∧ NoYear t.pre
  back : Calm tail ∧ (∀ c ∈ tail, c ∈ quietChars) ∧ NoYear tail
  dois : ∀ t ∈ toks, (t.lead = [] ∨ DoiWord t.lead) ∧ DoiText t.doi t.doi ∧ (∀ c ∈ t.lead ++ t.doi, c ∈ calmChars ++ py! "/_") ∧ t.doi.count '/' = 1
  /-- no two blanks in a row -/
  tidy : ¬ py! "  " <:+: bracketed n ++ ' ' :: inLine (toks.map DoiItem.written) tail
  apart : Apart toks tail

/-- What is expected: a record for every DOI with the text in front of it; the text at the end belongs to the last one. -/
def doiRecords (n : Nat) (raw : Str) : List DoiItem → Str → List (List (Str × Str))
  | [], _ => []
  | [t], tail => [loneRecord n raw t.pre [(py! "doi", py! "doi:" ++ t.doi)] tail none]
  | t :: ts, tail => loneRecord n raw t.pre [(py! "doi", py! "doi:" ++ t.doi)] [] none :: doiRecords n raw ts tail

end Spec
