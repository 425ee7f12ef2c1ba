import Verif.Spec.Known
import Verif.Spec.Post
import Verif.Spec.Books

/-!
# Specification vocabulary for a line of which nothing is known (C107)
-/

open Py
open scoped List

namespace Spec

/-- A numbered line of quiet text. -/
structure PlainLine (n : Nat) (s : Str) : Prop where
  calm : Calm (bracketed n ++ ' ' :: s)
  quiet : ∀ c ∈ s, c ∈ quietChars
  text : LeftOver s

/-- What is left of a text in the reference: all of it, or all but the first year. -/
def Remains [UnicodeDB] (s u : Str) : Prop := (NoYear s ∧ u = s) ∨ ∃ y, FirstYear s y ∧ YearErased y s u

/-- Nothing of the knowledge bases is in the text: no title, no report number, no publisher, no collaboration, no book,
no "ibid"; the names of authors that are rewritten are not in ASCII. -/
structure NothingKnown [UnicodeDB] (kbs : Kbs) (s : Str) : Prop where
  kb : TitleKb kbs.tag
  titles : ∀ k ∈ kbs.tag.journalKeys, ¬ k <:+: reading s
  reports : ∀ p ∈ kbs.tag.reportStd, ∃ r, dget kbs.tag.reportPats p.1 = some r ∧ finditer r (reading s) = []
  ibid : ¬ py! "IBID" <:+: reading s
  publishers : ∀ p ∈ kbs.tag.publishers, finditer p.2.1 (reading s) = []
  byRe : ∀ p ∈ kbs.tag.journalsRe, search p.2.1 s = none
  authors : ∀ p ∈ kbs.tag.authors, ∃ c ∈ p.1, isAscii c = false
  collaborations : ∀ p ∈ kbs.tag.collaborations, finditer p.2 s = []
  books : ∀ q ∈ kbs.books, ∀ u, Remains s u → ¬ alnums (upper q.1) <:+: alnums (upper u)

/-- Everything that is reported of such a line. -/
inductive PlainRecord [UnicodeDB] (n : Nat) (raw s : Str) : List (Str × Str) → Prop
  | undated : NoYear s → PlainRecord n raw s ([(py! "linemarker", decimal n), (py! "raw_ref", raw)] ++ reported s)
  | dated {y u : Str} : FirstYear s y → YearErased y s u →
      PlainRecord n raw s ([(py! "linemarker", decimal n), (py! "raw_ref", raw)] ++ reported u ++ [(py! "year", y)])

end Spec
