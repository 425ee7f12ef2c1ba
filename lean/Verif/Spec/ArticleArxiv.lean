import Verif.Spec.ArticleDoi
import Verif.Spec.Arxiv

/-!
# Specification vocabulary for an article with its arXiv identifier (C120)
-/

open Py
open scoped List

namespace Spec

/-- The text of a line with an article and an arXiv identifier. -/
def articleArxivText (pre b p lead w mid a tail : Str) : Str := articleText pre b p lead w mid ++ a ++ tail

/-- A numbered line with one article and, behind it, one arXiv identifier `a`, which is reported as `i`. -/
structure ArticleArxivLine [UnicodeDB] (n : Nat) (pre b p ld w mid a tail i : Str) (t : Told) : Prop where
  article : ArticleFront pre b p ld w mid t
  marker : Calm (bracketed n ++ ' ' :: articleText pre b p ld w mid)
  back : Calm tail
  /-- the texts behind the article are quiet -/
  quiet : ∀ c ∈ mid ++ tail, c ∈ quietChars
  /-- the year is not also in the texts -/
  year : ¬ t.year <:+: pre ∧ ¬ t.year <:+: mid ∧ ¬ t.year <:+: tail
  cited : ArxivCited a tail i
  chars : ∀ c ∈ a, c ∈ calmChars
  words : ∀ x ∈ otherWords, ¬ x <:+: (articleArxivText pre b p ld w mid a tail).map smallLetter
  tidy : ∀ x ∈ untidy, ¬ x <:+: bracketed n ++ ' ' :: articleArxivText pre b p ld w mid a tail

end Spec
