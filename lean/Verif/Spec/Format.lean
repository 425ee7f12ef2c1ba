import Verif.Spec.Record

/-!
# Specification of records in two formats (C123)
-/

namespace Spec
open Py

/-- The two records differ in the journal references only, and these are the same articles in the two formats. -/
def SameButFormatted (fmt fmt' : List FmtPart) (r r' : Field) : Prop :=
  (∀ k, k ≠ py! "journal_reference" → vals r' k = vals r k) ∧
  ∃ js ss ss', (∀ j ∈ js, j.ty = .journal) ∧ All2 (fun j s => Filled j fmt s) js ss ∧ All2 (fun j s => Filled j fmt' s) js ss' ∧
    vals r (py! "journal_reference") = ss.filter (· ≠ []) ∧ vals r' (py! "journal_reference") = ss'.filter (· ≠ [])

end Spec
