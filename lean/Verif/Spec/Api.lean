import Verif.Spec.Record
import Verif.Model.Api

/-!
# Specification vocabulary for the entry points
-/

open Py

namespace Spec

/-- The outcomes of processing the lines one after the other, each in the state that the
previous one left. -/
inductive Outcomes {S R : Type} (ext : Extract S R) : S → List Str → List (Py R) → S → Prop
  | nil (s) : Outcomes ext s [] [] s
  | cons {s t u line lines out outs} : ext line s = (out, t) → Outcomes ext t lines outs u →
      Outcomes ext s (line :: lines) (out :: outs) u

/-- The entry for a line with a given outcome: the first reference, or only the raw text. -/
inductive EntryOf (line : Str) : Py (List Field) → Field → Prop
  | first (r : Field) (more : List Field) : EntryOf line (.ok (r :: more)) r
  | empty : EntryOf line (.ok []) [(py! "raw_ref", [line])]
  | failed (e : PyErr) : EntryOf line (.error e) [(py! "raw_ref", [line])]

/-- `d` lists the members of `l` once each, in the order of their first occurrence. -/
def FirstOccurrences (l d : List Str) : Prop :=
  d.Nodup ∧ ∀ n, ∃ m, ∀ x, x ∈ d.take m ↔ x ∈ l.take n

/-- The error that a download meets first. -/
inductive Meets {R : Type} (d : Download) (ext : Bytes → Py R × Option Bytes) : PyErr → Prop
  | request {e} : d.request = some e → Meets d ext e
  | status {e} : d.request = none → d.status = some e → Meets d ext e
  | openFile {e} : d.request = none → d.status = none → d.openFile = some e → Meets d ext e
  | stop {e} : d.request = none → d.status = none → d.openFile = none → d.stop = some e → Meets d ext e
  | extract {e} : d.request = none → d.status = none → d.openFile = none → d.stop = none →
      (ext d.chunks.flatten).1 = .error e → Meets d ext e

end Spec
