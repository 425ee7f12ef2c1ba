import Verif.Spec.Rebuild
import Verif.Model.Record

/-!
# Vocabulary for references that do not depend on each other
-/

open Py

namespace Spec

/-- A list of lines gives what its lines give one by one: their references one after the other, or the error of
one of them. -/
def OneByOne (parse : List Str → Py (List Field × List Nat)) (lines : List Str) : Prop :=
  match parse lines with
  | .ok (refs, _) => ∃ blocks, refs = blocks.flatten ∧ All2 (fun line block => ∃ stats, parse [line] = .ok (block, stats)) lines blocks
  | .error e => ∃ line ∈ lines, parse [line] = .error e

end Spec
