import Verif.Model.Transform

/-!
# Vocabulary for handles in texts
-/

open Py

namespace Spec

/-- What announces a handle: `hdl:` in any case or the address of the handle resolver. -/
def HdlPrefix (p : Str) : Prop :=
  (∃ a b c, p = [a, b, c, ':'] ∧ a ∈ py! "hH" ∧ b ∈ py! "dD" ∧ c ∈ py! "lL") ∨
    p = py! "http://hdl.handle.net/" ∨ p = py! "https://hdl.handle.net/"

/-- A handle: no blanks, and a slash with something on both sides. -/
def IsHandle (i : Str) : Prop := (∀ c ∈ i, isSpace c = false) ∧ ∃ a b, i = a ++ '/' :: b ∧ a ≠ [] ∧ b ≠ []

/-- A handle is announced at the beginning of the text. -/
def HdlHere (s : Str) : Prop := ∃ p i r, s = p ++ i ++ r ∧ HdlPrefix p ∧ IsHandle i

/-- The text `s` consists of the text `b` and the handles in `hs`, each together with the text that
follows it up to the next handle. A handle extends up to the next blank. -/
inductive HdlCut : Str → Str → List (Str × Str) → Prop
  | nil : HdlCut [] [] []
  | ch {c : Char} {s b : Str} {hs : List (Str × Str)} : ¬ HdlHere (c :: s) → HdlCut s b hs → HdlCut (c :: s) (c :: b) hs
  | hit {p i r b : Str} {hs : List (Str × Str)} : HdlPrefix p → IsHandle i → (∀ c, r.head? = some c → isSpace c = true) →
      HdlCut r b hs → HdlCut (p ++ i ++ r) [] ((i, b) :: hs)

/-- An element whose text is cut up: it keeps the text in front of the first handle, and for each handle
there is an element with the text behind it. -/
def cutUp (e : El) (b : Str) (hs : List (Str × Str)) : List El :=
  { e with misc := b } :: hs.map fun h => { ty := .hdl, misc := h.2, hdlId := some h.1 }

/-- `out` is what becomes of the element `e`. -/
def CutUp (e : El) (out : List El) : Prop := ∃ b hs, HdlCut e.misc b hs ∧ out = cutUp e b hs

/-- The two elements differ not only in their texts. -/
def Differ (x y : El) : Prop := { x with misc := [] } ≠ { y with misc := [] }

instance (x y : El) : Decidable (Differ x y) := inferInstanceAs (Decidable (_ ≠ _))

end Spec
