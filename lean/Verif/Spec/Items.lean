import Verif.Spec.Implied
import Verif.Spec.Hdl
import Verif.Spec.Transform
import Verif.Spec.Record
import Verif.Spec.Ident
import Verif.Spec.Books
import Verif.Spec.Post
import Verif.Model.Kbs

/-!
# Specification vocabulary for the items of a line that are not articles (C104, C105)
-/

open Py
open scoped List

namespace Spec

/-- Kinds of items: everything but articles and texts. -/
def isEntry (k : Kind) : Bool := k != .journal && k != .misc

/-- The items of a line that are not articles, apart from the texts beside them. -/
def entries (es : List El) : List El := ofKinds isEntry es

/-- What a link to the abstract of an e-print begins with. -/
abbrev abstractAddress : Str := py! "http://arxiv.org/abs/"

/-- The marks for editors are closed up: `(ed. )` is written `(ed.)` and `(eds. )` is written `(eds.)`. -/
def Editors (a a' : Str) : Prop :=
  ∃ m, Rewritten (fun _ w _ x => w = py! "(ed. )" ∧ x = py! "(ed.)") [] a m ∧ Rewritten (fun _ w _ x => w = py! "(eds. )" ∧ x = py! "(eds.)") [] m a'

/-- What becomes of an item. -/
inductive Becomes [UnicodeDB] : El → El → Prop
  | reportNumber {e : El} {r r' : Str} : e.ty = .reportnumber → e.reportNum = some r →
      (r' = r ∨ HyphenInserted r r' ∨ SlashForHyphen r r' ∨ r.getLast? = some '\n') → Becomes e { e with reportNum := some r' }
  | author {e : El} {a a' : Str} : e.ty = .auth → e.authTxt = some a → Editors a a' → Becomes e { e with authTxt := some a' }
  | eprint {e : El} {i r : Str} : e.ty = .url → e.urlString = some (abstractAddress ++ i) → (r = py! "arXiv:" ++ i ∨ abstractAddress <:+: i) →
      Becomes e { e with ty := .reportnumber, reportNum := some r }
  | handle {e : El} {p i r : Str} : e.ty = .url → e.urlString = some (p ++ i ++ r) → HdlPrefix p → IsHandle i →
      (∀ c, r.head? = some c → isSpace c = true) → Becomes e { e with ty := .hdl, hdlId := some i, urlDesc := none, urlString := none }
  | link {e : El} {u : Str} : e.ty = .url → e.urlString = some u → ¬ abstractAddress <+: u → ¬ HdlHere u → Becomes e e
  | other {e : El} : e.ty ∉ [.reportnumber, .auth, .url] → Becomes e e

/-- The book that a row of the knowledge base tells of. -/
def BookOf (row : List Str) (b : El) : Prop :=
  ∃ authors title year y, row[0]? = some authors ∧ row[1]? = some title ∧ row[2]? = some year ∧ Trimmed [';'] [';'] year y ∧
    b = { ty := .book, misc := [], authors := some authors, title := some title, year := some (some y) }

/-- The first text in quotation marks is looked up: a known book takes its place, at the end. -/
inductive Booked [UnicodeDB] (books : Books) : List El → List El → Prop
  | noTitle {es : List El} : (∀ e ∈ es, e.ty ≠ .quoted) → Booked books es es
  | unknown {a b : List El} {t : El} {s : Str} : (∀ e ∈ a, e.ty ≠ .quoted) → t.ty = .quoted → t.title = some s →
      (∀ row, (upper s, row) ∉ books) → Booked books (a ++ t :: b) (a ++ t :: b)
  | known {a b : List El} {t bk : El} {s : Str} {row : List Str} : (∀ e ∈ a, e.ty ≠ .quoted) → t.ty = .quoted → t.title = some s →
      (upper s, row) ∈ books → BookOf row bk → Booked books (a ++ t :: b) (a ++ b ++ [bk])

/-- The second list has all of the first and handles in between. -/
inductive WithHandles : List El → List El → Prop
  | nil : WithHandles [] []
  | both {e : El} {es es' : List El} : WithHandles es es' → WithHandles (e :: es) (e :: es')
  | handle {e : El} {es es' : List El} : e.ty = .hdl → WithHandles es es' → WithHandles es (e :: es')

/-- Kinds that make a citation known. -/
abbrev knownKinds : List Kind := [.book, .journal, .doi, .isbn, .recid]

/-- The first year element of a citation. -/
def statedYear (c : List El) : Option Str := ((c.find? (·.ty = .year)).bind (·.year)).join

/-- The text names the title of the book, case and everything but letters and digits apart, and the book is of the year. -/
def Meant [UnicodeDB] (y : Option Str) (text : Str) (book : Str × List Str) : Prop :=
  alnums (upper book.1) <:+: alnums (upper text) ∧ ∃ year y', book.2[2]? = some year ∧ Trimmed [';'] [';'] year y' ∧ y = some y'

/-- The text without the title that it names, and without the year. -/
def WithoutBook [UnicodeDB] (title y text rest : Str) : Prop :=
  ∃ a m p b, text = a ++ m ++ p ++ b ∧ alnums (upper m) = alnums (upper title) ∧ AlnumFirst (upper m) ∧ AlnumLast (upper m) ∧
    (∀ c ∈ p, ¬ EndsPunct c) ∧ (b = [] ∨ ∃ c r, b = c :: r ∧ EndsPunct c) ∧ YearErased y (strip a ++ py! " " ++ strip b) rest

/-- A citation is searched for a book: the first text that names a book of the year, and the first such book. -/
inductive Searched [UnicodeDB] (books : Books) : List El → List El → Prop
  | known {c : List El} : (∃ e ∈ c, e.ty ∈ knownKinds) → Searched books c c
  | nothing {c : List El} : (∀ e ∈ c, e.ty ∉ knownKinds) → (∀ e ∈ c, ∀ q ∈ books, ¬ Meant (statedYear c) e.misc q) → Searched books c c
  | found {a b : List El} {e bk : El} {l r : Books} {t y rest : Str} {row : List Str} : (∀ x ∈ a ++ e :: b, x.ty ∉ knownKinds) →
      books = l ++ (t, row) :: r → statedYear (a ++ e :: b) = some y → (∀ x ∈ a, ∀ q ∈ books, ¬ Meant (some y) x.misc q) →
      (∀ q ∈ l, ¬ Meant (some y) e.misc q) → Meant (some y) e.misc (t, row) → BookOf row bk → bk.year = some (some y) →
      (EvenUpper e.misc → y ≠ [] → WithoutBook t y e.misc rest) → Searched books (a ++ e :: b) (a ++ { e with misc := rest } :: b ++ [bk])

end Spec
