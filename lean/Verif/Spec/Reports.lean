import Verif.Spec.Unknown
import Verif.Spec.Transform

/-!
# Specification vocabulary for a report number of a known category (C109)
-/

open Py
open scoped List

namespace Spec

/-- A report number cut in two: capital letters and hyphens, then digits and hyphens, the first part as long as possible. -/
structure ReportCut [UnicodeDB] (r a b : Str) : Prop where
  whole : r = a ++ b
  some : a ≠ [] ∧ b ≠ []
  name : ∀ c ∈ a, ('A' ≤ c ∧ c ≤ 'Z') ∨ c = '-'
  nums : ∀ c ∈ b, isDec c = true ∨ c = '-'
  long : ∀ c b', b = c :: b' → b' ≠ [] → ¬ (('A' ≤ c ∧ c ≤ 'Z') ∨ c = '-')

/-- How a report number is written in the end: a hyphen is put between capital letters and the digits behind them,
and the hyphen behind the name of an archive becomes a slash. -/
inductive ReportForm [UnicodeDB] : Str → Str → Prop
  | hyphen {r a b : Str} : ReportCut r a b → a.getLast? ≠ some '-' → ReportForm r (a ++ '-' :: b)
  | slash {r r' : Str} : SlashForHyphen r r' → ReportForm r r'
  | same {r : Str} : (∀ a b, ReportCut r a b → a.getLast? = some '-') → (¬ ∃ r', SlashForHyphen r r') → ReportForm r r

/-- A numbered line with one report number. -/
structure NumberLine (n : Nat) (pre b tail : Str) : Prop where
  calm : Calm (bracketed n ++ ' ' :: (pre ++ b ++ tail))
  /-- the texts around it are quiet -/
  quiet : ∀ c ∈ pre ++ tail, c ∈ quietChars
  /-- the report number begins and ends with a letter or digit -/
  first : ∃ x ∈ solidChars, b.head? = some x
  last : ∃ x ∈ solidChars, b.getLast? = some x

/-- The line as it is compared, with the report number blanked. -/
def blankedLine [UnicodeDB] (pre b tail : Str) : Str := reading pre ++ List.replicate (reading b).length '_' ++ reading tail

/-- The report number is of a category reported as `S`, and `w` is its numeration. Categories that are at least as long find
nothing in the line, and those that are not longer find nothing beside the report number. -/
structure KnownReport [UnicodeDB] (kbs : TagKbs) (pre b tail S w : Str) : Prop where
  keys : (kbs.reportStd.map (·.1)).Nodup
  known : ∃ c r m, dget kbs.reportStd c = some S ∧ dget kbs.reportPats c = some r ∧ finditer r (reading (pre ++ b ++ tail)) = [m] ∧
    m.gstart 1 = some (reading pre).length ∧ m.group 1 = some (reading b) ∧ m.group G.numn = some w ∧
    ∀ p ∈ kbs.reportStd, p.1 ≠ c → ∃ q, dget kbs.reportPats p.1 = some q ∧
      (c.2.length ≤ p.1.2.length → finditer q (reading (pre ++ b ++ tail)) = []) ∧
      (p.1.2.length ≤ c.2.length → finditer q (blankedLine pre b tail) = [])
  part : w <:+: reading b
  ascii : ∀ c ∈ S, isAscii c = true
  plain : '<' ∉ S ∧ '\n' ∉ S

/-- The numeration of a report number, with hyphens for blanks. -/
def hyphenated (w : Str) : Str := w.map fun c => if c = ' ' then '-' else c

/-- A text without a closing bracket at its beginning. -/
def unclosed : Str → Str
  | c :: s => if c = ')' ∨ c = ']' then s else c :: s
  | [] => []

/-- The text without the year, when it is in it. -/
def YearTaken (y s u : Str) : Prop := (y <:+: s → YearErased y s u) ∧ (¬ y <:+: s → u = s)

/-- The year of two texts, which is the first one of the second text that has one, and what is left of the texts. -/
def YearOfTwo [UnicodeDB] (s t u v : Str) : Option Str → Prop
  | none => NoYear s ∧ NoYear t ∧ u = s ∧ v = t
  | some y => (FirstYear t y ∨ (NoYear t ∧ FirstYear s y)) ∧ YearTaken y s u ∧ YearTaken y t v

/-- Nothing else of the knowledge bases is in the line. -/
structure NothingBeside [UnicodeDB] (kbs : Kbs) (pre b tail : Str) : Prop where
  kb : TitleKb kbs.tag
  titles : ∀ k ∈ kbs.tag.journalKeys, ¬ k <:+: reading pre ∧ ¬ k <:+: reading tail
  ibid : ¬ py! "IBID" <:+: reading pre ∧ ¬ py! "IBID" <:+: reading tail
  publishers : ∀ p ∈ kbs.tag.publishers, finditer p.2.1 (blankedLine pre b tail) = []
  byRe : ∀ p ∈ kbs.tag.journalsRe, search p.2.1 (pre ++ b ++ tail) = none
  authors : ∀ p ∈ kbs.tag.authors, ∃ c ∈ p.1, isAscii c = false
  collaborations : ∀ p ∈ kbs.tag.collaborations, ∀ g, (∀ c ∈ g, c = '_') → finditer p.2 (pre.dropLast ++ g ++ unclosed tail) = []
  books : ∀ q ∈ kbs.books, ∀ u v y, YearOfTwo pre.dropLast (unclosed tail) u v y →
    ¬ alnums (upper q.1) <:+: alnums (upper u) ∧ ¬ alnums (upper q.1) <:+: alnums (upper v)

/-- Everything that is reported of a line with one item in it. -/
def loneRecord (n : Nat) (raw u : Str) (item : List (Str × Str)) (v : Str) (y : Option Str) : List (Str × Str) :=
  [(py! "linemarker", decimal n), (py! "raw_ref", raw)] ++ reported u ++ item ++ reported v ++
    (match y with | some y => [(py! "year", y)] | none => [])

end Spec
