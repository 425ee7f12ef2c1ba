import Verif.Spec.Doi
import Verif.Spec.Hdl

/-!
# Specification vocabulary for a line with a URL (C114)
-/

open Py
open scoped List

namespace Spec

/-- A secure URL without a port: host, path, perhaps a slash at the end. -/
def SecureUrl [UnicodeDB] (w : Str) : Prop :=
  ∃ (host : Str) (segs : List Str) (sl : Str), w = py! "https://" ++ host ++ segs.flatMap ('/' :: ·) ++ sl ∧
    host ≠ [] ∧ (∀ c ∈ host, HostChar c) ∧ (∀ p ∈ segs, p ≠ [] ∧ ∀ c ∈ p, PathChar c) ∧ (sl = [] ∨ sl = ['/'])

/-- A numbered line with one URL `u`, written `w`: a full stop at its end does not belong to it. -/
structure UrlLine [UnicodeDB] (n : Nat) (pre w tail u : Str) : Prop where
  front : Calm (bracketed n ++ ' ' :: pre)
  back : Calm tail
  /-- the texts around it are quiet -/
  quiet : ∀ c ∈ pre ++ tail, c ∈ quietChars
  url : SecureUrl w
  chars : ∀ c ∈ w, c ∈ calmChars ++ py! "/_?=&%~"
  stop : w = u ++ ['.'] ∨ (w = u ∧ w.getLast? ≠ some '.')
  /-- the URL does not go on -/
  last : ∀ c, tail.head? = some c → ¬ PathChar c ∧ c ≠ ':'
  /-- no two blanks in a row -/
  tidy : ¬ py! "  " <:+: bracketed n ++ ' ' :: (pre ++ w ++ tail)
  /-- there is no DOI in the line, and the URL is not a handle -/
  noDoi : ∀ x d, x <:+: pre ++ w ++ tail → ¬ CitesDoi x d
  noHandle : ¬ HdlHere u

/-- What stands for a URL while the rest of the line is looked at. -/
abbrev urlMark : Str := py! "<cds.URL />"

end Spec
