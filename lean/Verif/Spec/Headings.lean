import Verif.Model.Find

/-!
# Vocabulary for the choice among several headings
-/

open Py

namespace Spec

variable [UnicodeDB]

/-- A line with the title of a reference section. -/
def IsHeading (r : Re) (doc : List Str) (n : Nat) (title : Str) : Prop :=
  ∃ line m, doc[n]? = some line ∧ reMatch r line = some m ∧ title = (m.group G.title).getD []

/-- The first of the patterns that matches a line does so with the match given. -/
def FirstMatch (rs : List Re) (line : Str) (r : Re) (m : Match) : Prop :=
  ∃ before after, rs = before ++ r :: after ∧ (∀ q ∈ before, reMatch q line = none) ∧ reMatch r line = some m

/-- The mark of a reference behind the title in the same line. -/
def OwnMark (line title : Str) (r : Re) (mark : Str) : Prop :=
  ∃ m, FirstMatch (Rx.marker_patterns (Re.strI title)) line r m ∧ mark = (m.group G.mark).getD []

/-- A line that opens with the mark of a first reference: one with the number one, or without number. -/
def OpensList (line : Str) (r : Re) (mark : Str) : Prop :=
  isspace line = false ∧ ∃ m, FirstMatch (Rx.marker_patterns .eps) line r m ∧ mark = (m.group G.mark).getD [] ∧
    (r.hasGroup G.marknum = true → m.group G.marknum = some (py! "1"))

/-- The mark of the first such line. -/
def ListMark (lines : List Str) (r : Re) (mark : Str) : Prop :=
  ∃ before line after, lines = before ++ line :: after ∧ (∀ l ∈ before, ∀ r' mark', ¬ OpensList l r' mark') ∧ OpensList line r mark

/-- The mark that belongs to a heading: the one in its line, or else the first one in its line and the five lines
below. `own` tells which. -/
def MarkOf (doc : List Str) (n : Nat) (title : Str) (own : Bool) (r : Re) (mark : Str) : Prop :=
  ∃ line, doc[n]? = some line ∧
    if own then OwnMark line title r mark
    else (∀ r' mark', ¬ OwnMark line title r' mark') ∧ ListMark ((doc.drop n).take 6) r mark

/-- A heading with a mark. -/
def Marked (r : Re) (doc : List Str) (n : Nat) : Prop :=
  ∃ title own p mark, IsHeading r doc n title ∧ MarkOf doc n title own p mark ∧ mark ≠ []

/-- A heading with the mark of number one in its own line. -/
def OwnFirst (r : Re) (doc : List Str) (n : Nat) : Prop :=
  ∃ title p mark m, IsHeading r doc n title ∧ MarkOf doc n title true p mark ∧ search Rx.re_num mark = some m ∧ m.txt = py! "1"

/-- Which of the headings begins the section: the last one with number one in its own line; or else the first one with
a mark; or else the first one. -/
def Chosen (r : Re) (doc : List Str) (n : Nat) : Prop :=
  (OwnFirst r doc n ∧ ∀ k, n < k → ¬ OwnFirst r doc k) ∨
  ((∀ k, ¬ OwnFirst r doc k) ∧ Marked r doc n ∧ ∀ k < n, ¬ Marked r doc k) ∨
  ((∀ k, ¬ Marked r doc k) ∧ (∃ t, IsHeading r doc n t) ∧ ∀ k < n, ∀ t, ¬ IsHeading r doc k t)

/-- What the details of a heading say. -/
def DetailsOf (doc : List Str) (n : Nat) (title : Str) (d : Details) : Prop :=
  d.start = n ∧ d.title = some title ∧
    ((∃ mark p, d.marker = some mark ∧ d.pattern = some p ∧ MarkOf doc n title d.sameLine p mark) ∨
      (d.marker = none ∧ d.pattern = none ∧ d.sameLine = false ∧ ∀ own p mark, ¬ MarkOf doc n title own p mark))

/-- A line that opens with the number given. -/
def HasNumber (r : Re) (num line : Str) : Prop := ∃ m, reMatch r (strip line) = some m ∧ m.group G.marknum = some num

/-- A line that begins a list without heading: it opens with the number one, and it is among the last six lines of the
document, or the number two opens one of the ten lines below. -/
def ListBegins (r : Re) (doc : List Str) (n : Nat) : Prop :=
  ∃ line, doc[n]? = some line ∧ HasNumber r (py! "1") line ∧
    (doc.length < n + 6 ∨ ∃ k l, n < k ∧ k ≤ n + 10 ∧ doc[k]? = some l ∧ HasNumber r (py! "2") l)

end Spec
