import Verif.Model.PdfFile

/-!
# Specification vocabulary for PDF files
-/

open Py

namespace Spec

/-- `sub` occurs in `f` after the prefix `a`. -/
def OccursAfter (sub f a : Bytes) : Prop := ∃ b, f = a ++ sub ++ b

/-- `sub` does not occur in `f`. -/
def Absent (sub f : Bytes) : Prop := ∀ a b, f ≠ a ++ sub ++ b

/-- `a` is what comes before the first occurrence of `sub` in `f`. -/
def BeforeFirst (sub f a : Bytes) : Prop :=
  OccursAfter sub f a ∧ ∀ a', OccursAfter sub f a' → a.length ≤ a'.length

/-- `a` is what comes before the last occurrence of `sub` in `f`. -/
def BeforeLast (sub f a : Bytes) : Prop :=
  OccursAfter sub f a ∧ ∀ a', OccursAfter sub f a' → a'.length ≤ a.length

/-- The part of `f` from its first PDF header to its last end-of-file marker, both included. -/
def PdfPart (f mid : Bytes) : Prop :=
  ∃ a z e, f = a ++ mid ++ z ∧ mid = e ++ "%%EOF".toUTF8.toList ∧ BeforeFirst "%PDF-".toUTF8.toList f a
    ∧ BeforeLast "%%EOF".toUTF8.toList f (a ++ e)

end Spec
