import Verif.Py.Re

/-!
# Specification vocabulary for plain lines (C103)
-/

open Py
open scoped List

namespace Spec

/-- Letters, digits, blanks, brackets and common punctuation. -/
abbrev calmChars : List Char := py! "abcdefghijklmnopqrstuvwxyzABCDEFGHIJKLMNOPQRSTUVWXYZ0123456789 .,;:()-[]"

/-- Small letters. -/
def smallLetter (c : Char) : Char := if isAsciiUpper c then swapCase c else c

/-- Words that announce an identifier. -/
abbrev tellingWords : List Str := [py! "arxiv", py! "sbn", py! "booknumber", py! "pos", py! "-conf-"]

/-- Spacing that is tidied. -/
abbrev untidy : List Str := [py! "  ", py! " ,", py! " ;", py! " .", py! ": :", py! ", :", py! " ]", py! "[ "]

/-- A text of letters, digits, blanks, brackets and common punctuation that is tidily spaced, has none of the
words that announce an identifier, no seven digits in a row and no point between two digits. -/
structure Calm (s : Str) : Prop where
  chars : ∀ c ∈ s, c ∈ calmChars
  words : ∀ w ∈ tellingWords, ¬ w <:+: s.map smallLetter
  tidy : ∀ w ∈ untidy, ¬ w <:+: s
  digits : ∀ x, x <:+: s → x.length = 7 → ∃ c ∈ x, c ∉ py! "0123456789"
  points : ∀ a ∈ py! "0123456789", ∀ b ∈ py! "0123456789", ¬ [a, '.', b] <:+: s

end Spec
