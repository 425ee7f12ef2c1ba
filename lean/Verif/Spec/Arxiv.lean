import Verif.Spec.Reports
import Verif.Spec.Doi
import Verif.Spec.Ident

/-!
# Specification vocabulary for a line with an arXiv identifier (C111)
-/

open Py
open scoped List

namespace Spec

/-- An arXiv identifier since 2007 with the word in front of it: `w`, in front of `r`, is reported as `i`. Its number has five digits, and then year
and month are those of an identifier, or four. -/
def ArxivCited [UnicodeDB] (w r i : Str) : Prop :=
  ArxivNamed Year13 Month2 5 [] w r (tagged (py! "ARXIV") i) ∨ ArxivNamed (DigitsOf 2) (DigitsOf 2) 4 [] w r (tagged (py! "ARXIV") i)

/-- Words that announce other identifiers. -/
abbrev otherWords : List Str := [py! "sbn", py! "booknumber", py! "pos", py! "-conf-"]

/-- A numbered line with one arXiv identifier `w`, which is reported as `i`. -/
structure ArxivLine [UnicodeDB] (n : Nat) (pre w tail i : Str) : Prop where
  front : Calm (bracketed n ++ ' ' :: pre)
  back : Calm tail
  /-- the texts around it are quiet -/
  quiet : ∀ c ∈ pre ++ tail, c ∈ quietChars
  cited : ArxivCited w tail i
  chars : ∀ c ∈ w, c ∈ calmChars
  words : ∀ x ∈ otherWords, ¬ x <:+: (pre ++ w ++ tail).map smallLetter
  tidy : ∀ x ∈ untidy, ¬ x <:+: bracketed n ++ ' ' :: (pre ++ w ++ tail)

end Spec
