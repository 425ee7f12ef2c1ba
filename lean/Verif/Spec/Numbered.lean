import Verif.Spec.Rebuild
import Verif.Spec.Strings
import Verif.Spec.Transform
import Verif.Spec.Post

/-!
# Specification vocabulary for numbered lists of references
-/

open Py

namespace Spec
open scoped List

/-- A reference in a numbered list: the text behind its number in the first line, and the further lines. -/
structure Entry where
  text : Str
  more : List Str

/-- The references with their numbers. -/
def numbered : Nat → List Entry → List (Nat × Entry)
  | _, [] => []
  | n, b :: bs => (n, b) :: numbered (n + 1) bs

/-- The number of a reference in square brackets. -/
def bracketed (n : Nat) : Str := '[' :: decimal n ++ [']']

/-- The lines of a reference. -/
def entryLines (p : Nat × Entry) : List Str := (bracketed p.1 ++ p.2.text) :: p.2.more

/-- The lines of a list of references numbered from one. -/
def listLines (entries : List Entry) : List Str := (numbered 1 entries).flatMap entryLines

/-- The text contains no number in square brackets. -/
def NoBracketNumber [UnicodeDB] (l : Str) : Prop :=
  ∀ a n b, Spaces a → Decimals n → Spaces b → ¬ ('[' :: a ++ n ++ b ++ [']']) <:+: l

/-- The text begins with the word given, in any case, with or without white space between its letters. -/
def spelt [UnicodeDB] : Str → Str → Bool
  | [], _ => true
  | _ :: _, [] => false
  | c :: t, x :: s => (decide (c ∈ caseVariants x) && spelt t s) || (isSpace x && spelt (c :: t) s)

/-- The word given begins in the text, in any case and with or without white space between its letters, after at most `k` characters,
white space aside. -/
def opensWith [UnicodeDB] (t : Str) : Str → Nat → Bool
  | [], _ => spelt t []
  | x :: s, k => spelt t (x :: s) || if isSpace x then opensWith t s k else k != 0 && opensWith t s (k - 1)

/-- The titles of reference sections. -/
def sectionTitles : List Str :=
  [py! "references", py! "rÉférences", py! "rÉfÉrences", py! "r´ef´erences", py! "bibliography", py! "bibliographie",
   py! "literaturverzeichnis", py! "citations", py! "refs", py! "publicationsréfs", py! "rÉfs", py! "reference",
   py! "référence", py! "rÉfÉrence"]

/-- A list of references that can be taken apart: lines of at most 4300 characters, no number in square brackets in
further lines, no title of a section behind at most thirteen characters at the beginning of a line, and the second number among
the ten lines after the first, unless there are at most five lines. -/
structure PlainList [UnicodeDB] (entries : List Entry) : Prop where
  nonempty : entries ≠ []
  short : ∀ l ∈ listLines entries, l.length ≤ 4300
  free : ∀ b ∈ entries, ∀ l ∈ b.more, NoBracketNumber l
  untitled : ∀ l ∈ listLines entries, ∀ t ∈ sectionTitles, opensWith t l 13 = false
  near : (listLines entries).length ≤ 5 ∨ ∃ a b rest, entries = a :: b :: rest ∧ a.more.length < 10

/-- Replacing undesirable characters leaves a number in square brackets at the beginning of a line as it is. -/
def KeepsNumber (undesirable : Str → Str) : Prop := ∀ n s, ∃ s', undesirable (bracketed n ++ s) = bracketed n ++ s'

end Spec
