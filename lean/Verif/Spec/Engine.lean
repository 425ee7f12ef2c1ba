import Verif.Model.Element
import Verif.Spec.Basic
import Verif.Spec.Record

/-!
# Vocabulary for whole reference lines
-/

open Py

namespace Spec

/-- The entry is there and is a text, not `None`. -/
def HasText (o : Option Val) : Prop := ∃ s, o = some (some s)

/-- The element has every entry that its kind calls for. -/
def Complete (e : El) : Prop :=
  match e.ty with
  | .journal => (∃ t, e.title = some t) ∧ HasText e.volume ∧ HasText e.year ∧ HasText e.page
  | .reportnumber => ∃ t, e.reportNum = some t
  | .url => (∃ u, e.urlString = some u) ∧ ∃ d, e.urlDesc = some d
  | .doi => ∃ d, e.doiString = some d
  | .hdl => ∃ d, e.hdlId = some d
  | .auth => (∃ a, e.authTxt = some a) ∧ ∃ t, e.authType = some t
  | .quoted => ∃ t, e.title = some t
  | .book => (∃ t, e.title = some t) ∧ HasText e.year
  | .isbn => ∃ t, e.isbn = some t
  | .publisher => ∃ t, e.publisher = some t
  | .collaboration => ∃ t, e.collaboration = some t
  | .year => HasText e.year
  | .recid => ∃ r, e.recid = some r
  | .misc => True

/-- The kinds of elements that are read off a tagged line. -/
def parsedKinds : List Kind :=
  [.journal, .reportnumber, .url, .doi, .auth, .quoted, .isbn, .publisher, .collaboration, .misc]

/-- Digits, some of which are not decimal (as `²`) or too many of which are given, so that they are no
number. -/
def UnreadableDigits [UnicodeDB] (p : Str) : Prop :=
  isdigit p = true ∧ ((∃ c ∈ p, isDec c = false) ∨ 4300 < p.length)

/-- The rows of the table of books can be looked up by the title in upper case. -/
def BooksOk [UnicodeDB] (books : List (Str × List Str)) : Prop :=
  ∀ p ∈ books, ∃ q ∈ books, q.1 = upper p.1

/-- The numbers of report numbers, journal references, groups of authors, URLs, DOIs and texts of
nothing in particular among elements. A journal counts once more for every further volume and page
behind it. -/
def tally (els : List El) : List Nat :=
  [(ofKind .reportnumber els).length, ((ofKind .journal els).map fun e => 1 + (e.extraIbids.getD []).length).sum,
   (ofKind .auth els).length, (ofKind .url els).length, (ofKind .doi els).length, (ofKind .misc els).length]

end Spec
