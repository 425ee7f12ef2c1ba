import Verif.Spec.Reports
import Verif.Spec.Tag

/-!
# Specification vocabulary for a line with a DOI (C110)
-/

open Py
open scoped List

namespace Spec

/-- A character of a DOI behind the slash. -/
def DoiChar [UnicodeDB] (c : Char) : Prop := isWord c = true ∨ c ∈ py! "-_:;()/.<>"

/-- A numbered line with one DOI `d`, which may be announced by `lead`. -/
structure DoiLine [UnicodeDB] (n : Nat) (pre lead d tail : Str) : Prop where
  front : Calm (bracketed n ++ ' ' :: pre)
  back : Calm tail
  /-- the texts around it are quiet -/
  quiet : ∀ c ∈ pre ++ tail, c ∈ quietChars
  word : lead = [] ∨ DoiWord lead
  doi : DoiText d d
  chars : ∀ c ∈ lead ++ d, c ∈ calmChars ++ py! "/_"
  slash : d.count '/' = 1
  /-- no two blanks in a row -/
  tidy : ¬ py! "  " <:+: bracketed n ++ ' ' :: (pre ++ (lead ++ d) ++ tail)
  /-- nothing that cites a DOI begins before -/
  first : ∀ a b w r d', pre = a ++ b → b ≠ [] → b ++ (lead ++ d) ++ tail = w ++ r → ¬ CitesDoi w d'
  /-- the DOI does not go on: only full stops follow, or nothing that may stand in it -/
  last : ∀ y r, tail = y ++ r → y ≠ [] → (∀ c ∈ y, DoiChar c) → y.getLast? = some '.'

/-- The line as it is compared, with `k` characters blanked. -/
def maskedLine [UnicodeDB] (pre : Str) (k : Nat) (tail : Str) : Str := reading pre ++ List.replicate k '_' ++ reading tail

/-- Nothing of the knowledge bases is in the texts in front of `mark` and behind it. -/
structure NothingAround [UnicodeDB] (kbs : TagKbs) (pre mark tail : Str) : Prop where
  kb : TitleKb kbs
  titles : ∀ k ∈ kbs.journalKeys, ¬ k <:+: reading pre ∧ ¬ k <:+: reading tail
  ibid : ¬ py! "IBID" <:+: reading pre ∧ ¬ py! "IBID" <:+: reading tail
  reports : ∀ p ∈ kbs.reportStd, ∃ r, dget kbs.reportPats p.1 = some r ∧ finditer r (maskedLine pre mark.length tail) = []
  publishers : ∀ p ∈ kbs.publishers, finditer p.2.1 (maskedLine pre mark.length tail) = []
  byRe : ∀ p ∈ kbs.journalsRe, search p.2.1 (pre ++ mark ++ tail) = none
  authors : ∀ p ∈ kbs.authors, ∃ c ∈ p.1, isAscii c = false
  collaborations : ∀ p ∈ kbs.collaborations, finditer p.2 (pre ++ List.replicate mark.length '_' ++ tail) = []

/-- None of the texts `ws`, which stand between the texts `gaps`, goes on behind its end, except by full stops. -/
def NoneGoesOn [UnicodeDB] : List Str → List Str → Prop
  | _ :: gaps, _ :: ws => (∀ y r, interleave gaps ws = y ++ r → y ≠ [] → (∀ c ∈ y, DoiChar c) → y.getLast? = some '.') ∧ NoneGoesOn gaps ws
  | _, _ => True

/-- What stands for a DOI while the rest of the line is looked at. -/
abbrev doiMark : Str := py! "<cds.DOI />"

end Spec
