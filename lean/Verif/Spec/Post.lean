import Verif.Spec.Numeration
import Verif.Model.Element

/-!
# Specification vocabulary for the steps after splitting (C10 to C13)
-/

namespace Spec
open Py

/-- A year from 1900 to 2099. -/
def IsYear [UnicodeDB] (y : Str) : Prop :=
  ∃ c a b, y = c ++ [a, b] ∧ (c = py! "19" ∨ c = py! "20") ∧ isDec a = true ∧ isDec b = true

/-- The text does not begin with a decimal digit. -/
def NoDigitFirst [UnicodeDB] (s : Str) : Prop := ∀ c, s.head? = some c → isDec c = false

/-- The text does not end with a decimal digit. -/
def NoDigitLast [UnicodeDB] (s : Str) : Prop := ∀ c, s.getLast? = some c → isDec c = false

/-- A year standing between `a` and `b` without further digits next to it. -/
def Isolated [UnicodeDB] (a y b : Str) : Prop := IsYear y ∧ NoDigitLast a ∧ NoDigitFirst b

/-- `y` is the leftmost isolated year of `s`. -/
def FirstYear [UnicodeDB] (s y : Str) : Prop :=
  ∃ a b, s = a ++ y ++ b ∧ Isolated a y b ∧
    ∀ a' y' b', s = a' ++ y' ++ b' → Isolated a' y' b' → a.length ≤ a'.length

/-- There is no isolated year in the text. -/
def NoYear [UnicodeDB] (s : Str) : Prop := ¬ ∃ a y b, s = a ++ y ++ b ∧ Isolated a y b

/-- Journals, and books with a year entry. -/
def Dated (e : El) : Prop := e.ty = .journal ∨ (e.ty = .book ∧ e.year ≠ none)

/-- `e` is the first dated element. -/
def FirstDated (es : List El) (e : El) : Prop :=
  ∃ a b, es = a ++ e :: b ∧ Dated e ∧ ∀ x ∈ a, ¬ Dated x

/-- `y` is the first isolated year in the text of the last element that has one. -/
def LastTextYear [UnicodeDB] (es : List El) (y : Str) : Prop :=
  ∃ a e b, es = a ++ e :: b ∧ FirstYear e.misc y ∧ ∀ x ∈ b, NoYear x.misc

/-- The year of a citation: that of the first dated element if it is not empty, otherwise
the one found in the texts. -/
def YearOf [UnicodeDB] (es : List El) (y : Str) : Prop :=
  (∃ e, FirstDated es e ∧ e.year = some (some y) ∧ y ≠ []) ∨
  ((∀ e, FirstDated es e → e.year = some none ∨ e.year = some (some [])) ∧ LastTextYear es y)

/-- `t` is `s` with parts deleted, from left to right: wherever a deletable part begins, one is
deleted. `D d rest` says that `d` may be deleted when `rest` follows it. -/
inductive Erase (D : Str → Str → Prop) : Str → Str → Prop
  | nil : Erase D [] []
  | keep {c s t} : (¬ ∃ d r, c :: s = d ++ r ∧ D d r) → Erase D s t → Erase D (c :: s) (c :: t)
  | drop {d s t} : d ≠ [] → D d s → Erase D s t → Erase D (d ++ s) t

/-- Only white space. -/
def Spaces (s : Str) : Prop := ∀ c ∈ s, isSpace c = true

/-- The year between brackets, white space allowed around it. -/
def Bracketed (l r : Char) (y d : Str) : Prop :=
  ∃ u v, d = l :: u ++ y ++ v ++ [r] ∧ Spaces u ∧ Spaces v

/-- The year with all white space around it. -/
def Spaced (y d rest : Str) : Prop :=
  ∃ u v, d = u ++ y ++ v ∧ Spaces u ∧ Spaces v ∧ ∀ c, rest.head? = some c → isSpace c = false

/-- `t` is `s` without the year: first the occurrences in square brackets are deleted, then
those in round brackets, then all others. -/
def YearErased (y s t : Str) : Prop :=
  ∃ s1 s2, Erase (fun d _ => Bracketed '[' ']' y d) s s1 ∧ Erase (fun d _ => Bracketed '(' ')' y d) s1 s2 ∧
    Erase (Spaced y) s2 t

/-- The element with the year deleted from its text. -/
def Undated (y : Str) (e e' : El) : Prop :=
  e' = { e with misc := e'.misc } ∧
  (PartOf y e.misc → YearErased y e.misc e'.misc) ∧ (¬ PartOf y e.misc → e'.misc = e.misc)

/-- An author turned into text. -/
def Demoted (e e' : El) : Prop :=
  ∃ a, e.authTxt = some a ∧ e' = { e with ty := .misc, misc := e.misc ++ ' ' :: a }

/-- `e'` is `e`, or `e` is an author and `e'` is that author turned into text. -/
def KeptOrDemoted (e e' : El) : Prop := (e.ty ≠ .auth ∧ e' = e) ∨ (e.ty = .auth ∧ Demoted e e')

/-- A record id that counts as true in Python. -/
def Linked (e : El) : Prop := ∃ r, e.recid = some (some r) ∧ r.truthy = true

/-- Only the first author stays an author, the others are turned into text. -/
inductive FirstAuthorOnly : List El → List El → Prop
  | none {es : List El} : (∀ e ∈ es, e.ty ≠ .auth) → FirstAuthorOnly es es
  | some {a : List El} {e : El} {b b' : List El} : (∀ x ∈ a, x.ty ≠ .auth) → e.ty = .auth → All2 KeptOrDemoted b b' →
      FirstAuthorOnly (a ++ e :: b) (a ++ e :: b')

/-- The record id of the first linked element is appended, if there is one. -/
def RecidAdded (es es' : List El) : Prop :=
  (∃ a e b, es = a ++ e :: b ∧ Linked e ∧ (∀ x ∈ a, ¬ Linked x) ∧
    es' = es ++ [{ ty := .recid, misc := [], recid := e.recid }]) ∨
  ((∀ e ∈ es, ¬ Linked e) ∧ es' = es)

/-- The collaboration names in a list of elements. -/
def names (l : List El) : List Str := l.filterMap (·.collaboration)

/-- The elements of a kind. -/
def kindEls (k : Kind) (l : List El) : List El := l.filter (·.ty = k)

/-- No digit comes next to an occurrence of the year, white space apart. -/
def Clear [UnicodeDB] (y s : Str) : Prop :=
  ∀ a u v b, s = a ++ u ++ y ++ v ++ b → Spaces u → Spaces v → NoDigitLast a ∧ NoDigitFirst b

/-- `d` is a whole number of the text: digits with no digit on either side. -/
def WholeNumber [UnicodeDB] (s d : Str) : Prop :=
  ∃ a b, s = a ++ d ++ b ∧ Decimals d ∧ NoDigitLast a ∧ NoDigitFirst b

/-- The common ways to write a volume, a year and a page. -/
inductive PlainNumeration (v y p : Str) : Str → Prop
  | volYearPage : PlainNumeration v y p (v ++ py! " (" ++ y ++ py! ") " ++ p)
  | volPageYear : PlainNumeration v y p (v ++ py! " " ++ p ++ py! " (" ++ y ++ py! ")")
  | yearVolPage : PlainNumeration v y p (y ++ py! " " ++ v ++ py! " " ++ p)

end Spec
