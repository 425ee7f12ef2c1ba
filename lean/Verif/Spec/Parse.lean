import Verif.Model.Element
import Verif.Spec.Post

/-!
# Vocabulary for tagged reference lines
-/

open Py

namespace Spec

/-- The names of tags. -/
def tagNames : List Str :=
  [py! "JOURNAL", py! "JOURNALibid", py! "VOL", py! "YR", py! "PG", py! "REPORTNUMBER", py! "ARXIV", py! "SER", py! "URL",
   py! "DOI", py! "QUOTED", py! "ISBN", py! "PUBLISHER", py! "COLLABORATION", py! "AUTHstnd", py! "AUTHetal", py! "AUTHincl"]

/-- An opening tag: `<cds.NAME>`, or with white space and a slash in front of the end. -/
def OpenTag [UnicodeDB] (w name : Str) : Prop :=
  name ∈ tagNames ∧ ∃ o, (o = [] ∨ ∃ c, isSpace c = true ∧ o = [c, '/']) ∧ w = py! "<cds." ++ name ++ o ++ py! ">"

/-- No opening tag inside. -/
def NoTags [UnicodeDB] (s : Str) : Prop := ∀ a w b, s = a ++ w ++ b → ∀ name, ¬ OpenTag w name

/-! ### Rendering -/

/-- A series: a letter from A to H or one of some Roman numbers. -/
def IsSeries (s : Str) : Prop :=
  (∃ c, s = [c] ∧ 'A'.toNat ≤ c.toNat ∧ c.toNat ≤ 'H'.toNat) ∨
  s ∈ [py! "I", py! "II", py! "III", py! "IV", py! "IIV", py! "IIIV", py! "V", py! "VI", py! "VII", py! "VIII"]

/-- What a tag stands for. -/
inductive Item
  | journal (ibid : Bool) (title : Str) (series : Option Str) (vol : Str) (year : Option Str) (page : Str)
  | report (t : Str)
  | arxiv (t : Str)
  | url (u d : Str)
  | doi (d : Str)
  | author (kind t : Str)
  | quoted (t : Str)
  | isbn (t : Str)
  | publisher (t : Str)
  | collaboration (t : Str)

/-- A text between an opening and a closing tag. -/
def enclose (name t : Str) : Str := py! "<cds." ++ name ++ py! ">" ++ t ++ py! "</cds." ++ name ++ py! ">"

/-- The tagged form of volume, year and page: with the series in front, or, as refextract writes it, without it. -/
def renderNumeration (series : Option Str) (vol : Str) (year : Option Str) (page : Str) : Str :=
  (match series with | some s => py! " " ++ s ++ py! " : " | none => py! " ") ++ enclose (py! "VOL") vol ++
  (match year with | some y => py! " " ++ enclose (py! "YR") (py! "(" ++ y ++ py! ")") | none => []) ++
  py! " " ++ enclose (py! "PG") page

/-- The tagged form. -/
def Item.render : Item → Str
  | .journal ibid title series vol year page =>
    enclose (if ibid then py! "JOURNALibid" else py! "JOURNAL") title ++ renderNumeration series vol year page
  | .report t => enclose (py! "REPORTNUMBER") t
  | .arxiv t => enclose (py! "ARXIV") t
  | .url _ _ => py! "<cds.URL />"
  | .doi _ => py! "<cds.DOI />"
  | .author kind t => enclose (py! "AUTH" ++ kind) t
  | .quoted t => enclose (py! "QUOTED") t
  | .isbn t => enclose (py! "ISBN") t
  | .publisher t => enclose (py! "PUBLISHER") t
  | .collaboration t => enclose (py! "COLLABORATION") t

/-- The element that stands for it, with the text in front of it. -/
def Item.el (misc : Str) : Item → El
  | .journal ibid title series vol year page =>
    { ty := .journal, misc := misc, title := some title, volume := some (some (series.getD [] ++ vol)),
      year := some (some (year.getD [])), page := some (some page), isIbid := some ibid, extraIbids := some [] }
  | .report t => { ty := .reportnumber, misc := misc, reportNum := some t }
  | .arxiv t => { ty := .reportnumber, misc := misc, reportNum := some t, isArxiv := true }
  | .url u d => { ty := .url, misc := misc, urlString := some u, urlDesc := some d }
  | .doi d => { ty := .doi, misc := misc, doiString := some d }
  | .author kind t => { ty := .auth, misc := misc, authTxt := some t, authType := some kind }
  | .quoted t => { ty := .quoted, misc := misc, title := some t }
  | .isbn t => { ty := .isbn, misc := misc, isbn := some t }
  | .publisher t => { ty := .publisher, misc := misc, publisher := some t }
  | .collaboration t => { ty := .collaboration, misc := misc, collaboration := some t }

/-- A text without the closing tag. -/
def Free (name t : Str) : Prop := ¬ (py! "</cds." ++ name ++ py! ">") <:+: t

/-- A part of a numeration: not empty and without tags. -/
def Plain (t : Str) : Prop := t ≠ [] ∧ '<' ∉ t

/-- The contents do not contain their closing tag. -/
def Item.Ok : Item → Prop
  | .journal ibid title series vol year page =>
    Free (if ibid then py! "JOURNALibid" else py! "JOURNAL") title ∧ (∀ s, series = some s → IsSeries s) ∧ Plain vol ∧
    (∀ y, year = some y → Plain y) ∧ Plain page
  | .report t => Free (py! "REPORTNUMBER") t
  | .arxiv t => Free (py! "ARXIV") t
  | .url _ _ => True
  | .doi _ => True
  | .author kind t => kind ∈ [py! "stnd", py! "etal", py! "incl"] ∧ Free (py! "AUTH" ++ kind) t
  | .quoted t => Free (py! "QUOTED") t
  | .isbn t => Free (py! "ISBN") t
  | .publisher t => Free (py! "PUBLISHER") t
  | .collaboration t => Free (py! "COLLABORATION") t

/-- The URLs among items, with their descriptions, and the DOIs. -/
def Item.urls : Item → List (Str × Str)
  | .url u d => [(u, d)]
  | _ => []
@[inherit_doc Item.urls]
def Item.dois : Item → List Str
  | .doi d => [d]
  | _ => []

/-- A tagged line: texts with the item that follows each, and the text at the end. -/
def renderLine (toks : List (Str × Item)) (last : Str) : Str := toks.flatMap (fun p => p.1 ++ p.2.render) ++ last

/-- Text worth keeping at the end: something other than blanks, stops, semicolons and commas. -/
def LeftOver (s : Str) : Prop := ∃ c ∈ s, c ∉ [' ', '.', ';', ',']
instance (s : Str) : Decidable (LeftOver s) := inferInstanceAs (Decidable (∃ c ∈ s, c ∉ [' ', '.', ';', ',']))

/-- The elements a tagged line stands for. -/
def lineEls (toks : List (Str × Item)) (last : Str) : List El :=
  toks.map (fun p => p.2.el p.1) ++ if LeftOver last then [{ ty := .misc, misc := last }] else []

/-- How many elements are of a kind. -/
def howMany (k : Kind) (els : List El) : Nat := (els.filter (fun e => e.ty = k)).length

/-! ### Text -/

/-- The text an element holds, in the order of the line: the text in front and the contents. DOIs and
URLs are not in the line. -/
def elText (e : El) : Str :=
  e.misc ++ e.title.getD [] ++ (e.volume.getD none).getD [] ++ (e.year.getD none).getD [] ++ (e.page.getD none).getD [] ++
  (e.extraIbids.getD []).flatMap (fun i => i.volume ++ i.year.getD [] ++ i.page) ++
  e.reportNum.getD [] ++ e.authTxt.getD [] ++ e.isbn.getD [] ++ e.publisher.getD [] ++ e.collaboration.getD []

/-- How often a text occurs in another, overlapping or not. -/
def occurs (sub : Str) : Str → Nat
  | [] => 0
  | c :: s => (if sub <+: c :: s then 1 else 0) + occurs sub s

/-! ### Markers -/

/-- The text does not begin with white space. -/
def NoSpaceFirst (s : Str) : Prop := ∀ c, s.head? = some c → isSpace c = false

/-- A letter of a marker: a Latin letter, colon or hyphen, up to case. -/
def MarkLetter [UnicodeDB] (c : Char) : Prop :=
  ∃ d ∈ caseVariants c, ('a'.toNat ≤ d.toNat ∧ d.toNat ≤ 'z'.toNat) ∨ ('A'.toNat ≤ d.toNat ∧ d.toNat ≤ 'Z'.toNat) ∨ d = ':' ∨ d = '-'

/-- The marker of a reference line, followed by `rest`: a number in brackets of some kind; letters with an
optional plus sign, blank and number of up to four digits with an optional letter in square brackets; a number with
a stop that no digit follows; a number with white space; a number with a closing bracket; a number with a decimal point in
square brackets; empty square brackets; or a star. -/
def IsMarker [UnicodeDB] (w rest : Str) : Prop :=
  (∃ o c a n b, (o, c) ∈ [('[', ']'), ('{', '}'), ('<', '>'), ('(', ')')] ∧ Spaces a ∧ Decimals n ∧ Spaces b ∧ w = o :: a ++ n ++ b ++ [c]) ∨
  (∃ a l p x n b, Spaces a ∧ l ≠ [] ∧ (∀ c ∈ l, MarkLetter c) ∧ (p = [] ∨ p = ['+']) ∧ (x = [] ∨ ∃ c, isSpace c = true ∧ x = [c]) ∧
    (n = [] ∨ ∃ d t, Decimals d ∧ d.length ≤ 4 ∧ (t = [] ∨ ∃ c, MarkLetter c ∧ t = [c]) ∧ n = d ++ t) ∧ Spaces b ∧
    w = '[' :: a ++ l ++ p ++ x ++ n ++ b ++ [']']) ∨
  (∃ n b, Decimals n ∧ Spaces b ∧ w = n ++ b ++ ['.'] ∧ NoDigitFirst rest) ∨
  (∃ n b, Decimals n ∧ Spaces b ∧ b ≠ [] ∧ w = n ++ b) ∨
  (∃ n b c, Decimals n ∧ Spaces b ∧ c ∈ [']', '}', ')', '>'] ∧ w = n ++ b ++ [c]) ∨
  (∃ a n n' b, Spaces a ∧ Decimals n ∧ Decimals n' ∧ Spaces b ∧ w = '[' :: a ++ n ++ ['.'] ++ n' ++ b ++ [']']) ∨
  (∃ a, Spaces a ∧ w = '[' :: a ++ [']']) ∨
  w = ['*']

end Spec
