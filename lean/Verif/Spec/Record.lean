import Verif.Spec.Basic
import Verif.Model.Element
import Verif.Model.Record

/-!
# Specification of output records

Independent vocabulary for the properties C02 to C05.
-/

namespace Spec
open Py

/-- Keys documented for a reference (`/repo/refextract/references/record.py`). -/
def recordKeys : List Str :=
  [py! "linemarker", py! "raw_ref", py! "misc", py! "journal_title", py! "journal_volume",
   py! "journal_year", py! "journal_page", py! "journal_reference", py! "reportnumber", py! "url",
   py! "urldesc", py! "doi", py! "hdl", py! "author", py! "title", py! "isbn", py! "publisher",
   py! "year", py! "collaboration", py! "recid"]

/-- The values a reference dictionary holds under a key (none if the key is absent). -/
def vals (f : Field) (k : Str) : List Str :=
  match f.find? (·.1 = k) with
  | some p => p.2
  | none => []

/-- Dots, commas, blanks and brackets. -/
def isEdge (c : Char) : Prop := c ∈ py! "., [](){}"

/-- A text with a character other than dots, commas, blanks and brackets. -/
def HasContent (s : Str) : Prop := ∃ c ∈ s, ¬ isEdge c

instance (s : Str) : Decidable (HasContent s) := by unfold HasContent isEdge; infer_instance

/-- `v` is `s` with the longest prefix of characters in `l` and the longest suffix of
characters in `r` removed. -/
structure Trimmed (l r : Str) (s v : Str) : Prop where
  cut : ∃ a b, s = a ++ v ++ b ∧ (∀ c ∈ a, c ∈ l) ∧ ∀ c ∈ b, c ∈ r
  first : ∀ c, v.head? = some c → c ∉ l
  last : ∀ c, v.getLast? = some c → c ∉ r

/-- `s` is the template filled with the fields of a journal element. -/
inductive Filled (e : El) : List FmtPart → Str → Prop
  | nil : Filled e [] []
  | lit {r t} (s : Str) : Filled e r t → Filled e (.lit s :: r) (s ++ t)
  | title {r t} (s : Str) : e.title = some s → Filled e r t → Filled e (.key .title :: r) (s ++ t)
  | volume {r t} (s : Str) : e.volume = some (some s) → Filled e r t → Filled e (.key .volume :: r) (s ++ t)
  | year {r t} (s : Str) : e.year = some (some s) → Filled e r t → Filled e (.key .year :: r) (s ++ t)
  | page {r t} (s : Str) : e.page = some (some s) → Filled e r t → Filled e (.key .page :: r) (s ++ t)
  | pageEnd {r t} (s : Str) : e.pageEnd = some (some s) → Filled e r t → Filled e (.key .pageEnd :: r) (s ++ t)
  | misc {r t} : Filled e r t → Filled e (.key .miscTxt :: r) (e.misc ++ t)
  | type {r t} : Filled e r t → Filled e (.key .type :: r) (e.ty.name ++ t)
  /-- A field whose value is Python's `None` is shown as the word `None`. -/
  | none {r t} (k : FmtKey) : (k = .volume ∧ e.volume = some none ∨ k = .year ∧ e.year = some none ∨
      k = .page ∧ e.page = some none ∨ k = .pageEnd ∧ e.pageEnd = some none) →
      Filled e r t → Filled e (.key k :: r) (py! "None" ++ t)

/-- Keep the non-empty texts. -/
def nonEmpty (l : List Str) : List Str := l.filter (· ≠ [])

/-- Elements of a kind, in order. -/
def ofKind (k : Kind) (els : List El) : List El := els.filter (·.ty = k)

end Spec
