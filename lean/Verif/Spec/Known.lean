import Verif.Spec.Calm
import Verif.Spec.Places
import Verif.Spec.Parse
import Verif.Spec.Written
import Verif.Spec.Numbered
import Verif.Spec.Record
import Verif.Model.Parse

/-!
# Specification vocabulary for an article in a known journal (C103)
-/

open Py
open scoped List

namespace Spec

/-- Small letters, digits, blanks and some punctuation. -/
abbrev quietChars : List Char := py! "abcdefghijklmnopqrstuvwxyz0123456789 .,:()-"

/-- Every run of blanks is made one blank. -/
def squeezed : Str → Str
  | [] => []
  | c :: s => if c = ' ' ∧ s.head? = some ' ' then squeezed s else c :: squeezed s

/-- A text as it is compared with titles: in capital letters, with punctuation as blanks and every run of blanks as one. -/
def reading [UnicodeDB] (s : Str) : Str := squeezed ((upper s).map unpunct)

/-- Letters and digits. -/
abbrev solidChars : List Char := py! "abcdefghijklmnopqrstuvwxyzABCDEFGHIJKLMNOPQRSTUVWXYZ0123456789"

/-- The text of a line with an article: a text, the title as written, punctuation, the numeration and a text. -/
def articleText (pre b p lead w tail : Str) : Str := pre ++ b ++ (p ++ (lead ++ w ++ tail))

/-- A numbered line with one article. -/
structure ArticleLine (n : Nat) (pre b p lead w tail : Str) (t : Told) : Prop where
  calm : Calm (bracketed n ++ ' ' :: articleText pre b p lead w tail)
  /-- the text in front is quiet and ends with a blank -/
  quiet : ∀ c ∈ pre ++ tail, c ∈ quietChars
  blank : pre = [] ∨ pre.getLast? = some ' '
  /-- the title begins and ends with a letter or digit -/
  first : ∃ x ∈ solidChars, b.head? = some x
  last : ∃ x ∈ solidChars, b.getLast? = some x
  /-- punctuation between the title and the numeration -/
  skip : ∀ c ∈ p, c ∈ ['.', ':', '-', ')']
  gap : p ≠ [] ∨ lead ≠ []
  lead : lead = [] ∨ lead = py! " " ∨ lead = py! ", "
  num : Written w t
  stops : Stops tail
  /-- the year is not also in the text -/
  year : ¬ t.year <:+: pre ∧ ¬ t.year <:+: tail

/-- A journal known by the title `K` and reported as `J`, without special treatment. -/
structure KnownJournal [UnicodeDB] (kbs : Kbs) (K J : Str) : Prop where
  titles : TitleKb kbs.tag
  known : K ∈ kbs.tag.journalKeys
  std : dget kbs.tag.journalStd K = some J
  byRe : K ∉ kbs.tag.journalsRe.map (·.1)
  ascii : ∀ c ∈ J, isAscii c = true
  plain : J ≠ [] ∧ ';' ∉ J ∧ '<' ∉ J ∧ '\n' ∉ J
  special : J ∉ kbs.special ∧ J ≠ py! "Nucl.Phys.Proc.Suppl."

/-- Nothing else of the knowledge bases is in the line: no other title except inside of the one given, no
report number, no publisher, no collaboration, no "ibid"; the names of authors that are rewritten are not in ASCII. -/
structure NothingElse [UnicodeDB] (kbs : TagKbs) (K pre b rest tail : Str) : Prop where
  titles : ∀ k ∈ kbs.journalKeys, ∀ i ≤ (reading (pre ++ b ++ rest)).length, k.isPrefixOf ((reading (pre ++ b ++ rest)).drop i) = true →
    (reading pre).length ≤ i ∧ i + k.length ≤ (reading pre).length + K.length
  reports : ∀ p ∈ kbs.reportStd, ∃ r, dget kbs.reportPats p.1 = some r ∧ finditer r (reading (pre ++ b ++ rest)) = []
  ibid : ¬ py! "IBID" <:+: reading (pre ++ b ++ rest)
  publishers : ∀ p ∈ kbs.publishers, finditer p.2.1 (reading pre ++ List.replicate K.length '_' ++ reading rest) = []
  byRe : ∀ p ∈ kbs.journalsRe, search p.2.1 (pre ++ b ++ rest) = none
  authors : ∀ p ∈ kbs.authors, ∃ c ∈ p.1, isAscii c = false
  collaborations : ∀ p ∈ kbs.collaborations, ∀ g, (∀ c ∈ g, c = '_' ∨ c = ' ') → finditer p.2 (pre ++ g ++ tail) = []

/-- Volume with series. -/
def Told.vol (t : Told) : Str := t.series.getD [] ++ t.volume

/-- Page or pages. -/
def Told.pages (t : Told) : Str := t.page ++ (match t.last with | some q => '-' :: q | none => [])

/-- A text with the characters `l` removed at its beginning and `r` at its end. -/
def trim (l r s : Str) : Str := ((s.dropWhile fun c => l.contains c).reverse.dropWhile fun c => r.contains c).reverse

/-- What is reported of a text: nothing when it is only punctuation. -/
def reported (s : Str) : List (Str × Str) := if HasContent s then [(py! "misc", trim (py! "])} ,.") (py! "[({ ,.") s)] else []

/-- Everything that is reported of an article. -/
def articleRecord (n : Nat) (raw pre J tail : Str) (t : Told) : List (Str × Str) :=
  [(py! "linemarker", decimal n), (py! "raw_ref", raw)] ++ reported pre ++
  [(py! "journal_title", J), (py! "journal_volume", t.vol), (py! "journal_year", t.year), (py! "journal_page", t.pages),
   (py! "journal_reference", J ++ py! " " ++ t.vol ++ py! " (" ++ t.year ++ py! ") " ++ t.pages)] ++
  reported tail ++ [(py! "year", t.year)]

/-- The values under a key. -/
def under (k : Str) (table : List (Str × Str)) : List Str := (table.filter (·.1 = k)).map (·.2)

end Spec
