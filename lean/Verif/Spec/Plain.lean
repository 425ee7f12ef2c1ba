import Verif.Model.Tag
import Verif.Spec.Parse
import Verif.Spec.Places
import Verif.Spec.Rebuild

/-!
# Plain text

Text in which nothing looks like a tag, not even after transliteration.
-/

open Py
open scoped List

namespace Spec

variable [UnicodeDB]

/-- `unidecode` spells every character with ASCII characters: ASCII characters as themselves, white space as
white space. The capital of a character that is not spelled with `<` is not spelled with `<` either. -/
structure Spelled (unidecode : Str → Str) (spell : Char → Str) : Prop where
  all : ∀ s, unidecode s = s.flatMap spell
  ascii : ∀ c, isAscii c = true → spell c = [c]
  out : ∀ c, ∀ d ∈ spell c, isAscii d = true
  space : ∀ c, isSpace c = true → ∀ d ∈ spell c, isSpace d = true
  upper : ∀ c, '<' ∉ spell c → ∀ d ∈ upperC c, '<' ∉ spell d

omit [UnicodeDB] in
/-- No character of the text is spelled with `<`. For ASCII text: the text does not contain `<`. -/
def NoAngle (spell : Char → Str) (s : Str) : Prop := ∀ c ∈ s, '<' ∉ spell c

omit [UnicodeDB] in
/-- Spelled without white space, the text and what follows cannot complete a beginning of `cds.DOI` or
`cds.URL`. -/
def Unfinished (spell : Char → Str) (t : Str) : Prop :=
  ∀ w ∈ [py! "cds.DOI", py! "cds.URL"], ∀ z, z ≠ [] → z <:+ w → ¬ z <+: ink (t.flatMap spell) ∧ ¬ ink (t.flatMap spell) <+: z

/-- Knowledge bases without `<` that are complete: titles have standard titles and patterns, the special
titles are plain texts, report numbers have patterns which find a text and a number, the patterns of
collaborations find a name. -/
structure PlainKbs (spell : Char → Str) (kbs : TagKbs) : Prop where
  titles : TitleKb kbs
  notKey : py! "key" ∉ kbs.journalKeys
  standard : ∀ t ∈ kbs.journalKeys, (dget kbs.journalStd t).isSome = true
  special : ∀ p ∈ kbs.journalsRe, p.2.1 = .str p.1
  reports : ReportKbOk kbs
  reportPats : ∀ p ∈ kbs.reportStd, (dget kbs.reportPats p.1).isSome = true
  reportNumbers : ∀ p ∈ kbs.reportPats, ∀ s, ∀ m ∈ finditer p.2 s,
    ∃ g k n, m.group 1 = some g ∧ m.gstart 1 = some k ∧ m.group G.numn = some n ∧ '<' ∉ n
  journalStd : ∀ p ∈ kbs.journalStd, NoAngle spell p.2
  journalsRe : ∀ p ∈ kbs.journalsRe, NoAngle spell p.2.2
  reportStd : ∀ p ∈ kbs.reportStd, NoAngle spell p.2
  publishers : ∀ p ∈ kbs.publishers, NoAngle spell p.2.2
  authors : ∀ p ∈ kbs.authors, NoAngle spell p.2 ∧ Unfinished spell p.2
  collaborations : ∀ p ∈ kbs.collaborations, ∀ s, ∀ m ∈ finditer p.2 s, ∃ g, m.group 1 = some g ∧ '<' ∉ g

/-- The libraries: the years are plain numbers. -/
structure PlainLib (lib : Lib) : Prop where
  years : ∃ ys : List Str, lib.years = Re.alts (ys.map Re.str) ∧ ∀ y ∈ ys, ∀ c ∈ y, c.isDigit = true
  years5 : ∃ ys : List Str, lib.years5 = Re.alts (ys.map Re.str) ∧ ∀ y ∈ ys, ∀ c ∈ y, c.isDigit = true

end Spec
