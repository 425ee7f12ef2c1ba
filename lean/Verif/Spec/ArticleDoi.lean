import Verif.Spec.DoiList

/-!
# Specification vocabulary for an article with its DOI (C119)
-/

open Py
open scoped List

namespace Spec

/-- The text of a line with an article and a DOI: a text, the title as written, punctuation, the numeration, a text, what announces the DOI, the DOI and a text. -/
def articleDoiText (pre b p lead w mid word d tail : Str) : Str := articleText pre b p lead w mid ++ (word ++ d) ++ tail

/-- An article in front of something else: the texts in front of it and behind it, the title, punctuation and the numeration. -/
structure ArticleFront (pre b p ld w mid : Str) (t : Told) : Prop where
  front : Calm (articleText pre b p ld w mid)
  /-- the text in front is quiet, and ends with a blank -/
  quiet : ∀ c ∈ pre, c ∈ quietChars
  blank : pre = [] ∨ pre.getLast? = some ' '
  /-- the title begins and ends with a letter or digit -/
  first : ∃ x ∈ solidChars, b.head? = some x
  last : ∃ x ∈ solidChars, b.getLast? = some x
  /-- punctuation between the title and the numeration -/
  skip : ∀ c ∈ p, c ∈ ['.', ':', '-', ')']
  gap : p ≠ [] ∨ ld ≠ []
  lead : ld = [] ∨ ld = py! " " ∨ ld = py! ", "
  num : Written w t
  /-- punctuation behind the numeration -/
  stops : mid ≠ [] ∧ Stops mid

/-- A numbered line with one article and, behind it, one DOI. -/
structure ArticleDoiLine [UnicodeDB] (n : Nat) (pre b p ld w mid dw d tail : Str) (t : Told) : Prop where
  article : ArticleFront pre b p ld w mid t
  back : Calm tail
  /-- the texts behind the article are quiet -/
  quiet : ∀ c ∈ mid ++ tail, c ∈ quietChars
  /-- the year is not also in the texts -/
  year : ¬ t.year <:+: pre ∧ ¬ t.year <:+: mid ∧ ¬ t.year <:+: tail
  word : dw = [] ∨ DoiWord dw
  doi : DoiText d d
  chars : ∀ c ∈ dw ++ d, c ∈ calmChars ++ py! "/_"
  slash : d.count '/' = 1
  /-- no two blanks in a row -/
  tidy : ¬ py! "  " <:+: bracketed n ++ ' ' :: articleDoiText pre b p ld w mid dw d tail
  /-- nothing that cites a DOI begins before -/
  only : ∀ a b' w' r d', articleText pre b p ld w mid = a ++ b' → b' ≠ [] → b' ++ (dw ++ d) ++ tail = w' ++ r → ¬ CitesDoi w' d'
  /-- the DOI does not go on: only full stops follow, or nothing that may stand in it -/
  ends : ∀ y r, tail = y ++ r → y ≠ [] → (∀ c ∈ y, DoiChar c) → y.getLast? = some '.'

/-- Nothing else of the knowledge bases is in the line, whose title is read as `K` and followed by the texts and marks `toks` and the text `tail`: no other title except
inside of the one given, no report number, no publisher, no "ibid"; the names of authors that are rewritten are not in ASCII. -/
structure NothingFurther [UnicodeDB] (kbs : TagKbs) (K pre b : Str) (toks : List (Str × Str)) (tail : Str) : Prop where
  titles : ∀ k ∈ kbs.journalKeys, ∀ i ≤ (reading pre ++ K ++ maskedTexts toks tail).length, k.isPrefixOf ((reading pre ++ K ++ maskedTexts toks tail).drop i) = true →
    (reading pre).length ≤ i ∧ i + k.length ≤ (reading pre).length + K.length
  reports : ∀ p ∈ kbs.reportStd, ∃ r, dget kbs.reportPats p.1 = some r ∧ finditer r (reading pre ++ K ++ maskedTexts toks tail) = []
  ibid : ¬ py! "IBID" <:+: reading pre ++ K ++ maskedTexts toks tail
  publishers : ∀ p ∈ kbs.publishers, finditer p.2.1 (reading pre ++ List.replicate K.length '_' ++ maskedTexts toks tail) = []
  byRe : ∀ p ∈ kbs.journalsRe, search p.2.1 (pre ++ b ++ inLine toks tail) = none
  authors : ∀ p ∈ kbs.authors, ∃ c ∈ p.1, isAscii c = false

/-- No collaboration is in the line, whose article is blanked. -/
def NoCollaborations [UnicodeDB] (kbs : TagKbs) (pre : Str) (toks : List (Str × Str)) (tail : Str) : Prop :=
  ∀ p ∈ kbs.collaborations, ∀ g, (∀ c ∈ g, c = '_' ∨ c = ' ') → finditer p.2 (pre ++ g ++ blankedTexts toks tail) = []

/-- Everything that is reported of an article with something else, `item`, behind it. -/
def articleWithRecord (n : Nat) (raw pre J mid : Str) (item : Str × Str) (tail : Str) (t : Told) : List (Str × Str) :=
  [(py! "linemarker", decimal n), (py! "raw_ref", raw)] ++ reported pre ++
  [(py! "journal_title", J), (py! "journal_volume", t.vol), (py! "journal_year", t.year), (py! "journal_page", t.pages),
   (py! "journal_reference", J ++ py! " " ++ t.vol ++ py! " (" ++ t.year ++ py! ") " ++ t.pages)] ++
  reported mid ++ [item] ++ reported tail ++ [(py! "year", t.year)]

end Spec
