import Verif.Model.PdfKeys

/-!
# Specification vocabulary for TeX keys
-/

open Py

namespace Spec

/-- The destination name of the TeX key `k`: `cite.` and the key, perhaps with a final line
break. -/
def CiteName (s k : Str) : Prop :=
  '\n' ∉ k ∧ (s = py! "cite." ++ k ∨ s = py! "cite." ++ k ++ ['\n'])

/-- A destination at a known place. The column is the number of half page widths to its left. -/
def Placed (d : Dest) (p : Pos) : Prop :=
  ∃ page width left top, d.page = .ok (page, width) ∧ d.left = some left ∧ d.top = some top
    ∧ left ≠ 0 ∧ top ≠ 0 ∧ width ≠ 0 ∧ p = ⟨page, (2 * left).fdiv width, -top, left⟩

/-- The TeX keys and places of the citation destinations among some destinations. -/
inductive Cites : List (DestKey × Dest) → List (Str × Pos) → Prop
  | nil : Cites [] []
  | skip {s d r l} : (∀ k, ¬ CiteName s k) → Cites r l → Cites ((.text s, d) :: r) l
  | skipBytes {s d r l} : (∀ k, ¬ CiteName s k) → Cites r l → Cites ((.bytes (some s), d) :: r) l
  | take {s k d p r l} : CiteName s k → Placed d p → Cites r l → Cites ((.text s, d) :: r) ((k, p) :: l)

/-- Reading order: by page, by column if there are two, from top to bottom (`y` is counted
downwards), from left to right. -/
def ReadBefore (two : Bool) (p q : Pos) : Prop :=
  p.page < q.page ∨ p.page = q.page ∧
    if two then p.col < q.col ∨ p.col = q.col ∧ (p.y < q.y ∨ p.y = q.y ∧ p.x ≤ q.x)
    else p.y < q.y ∨ p.y = q.y ∧ p.x ≤ q.x

/-- Two columns: three destinations begin at the same place of the right half. -/
def TwoColumns (ps : List Pos) : Prop := ∃ x, 3 ≤ (ps.filter fun p => p.col = 1 ∧ p.x = x).length

/-- A link at a known place. -/
def LinkPlaced (l : Link) (p : Pos) : Prop :=
  ∃ left top width, l.rect = .ok (left, top) ∧ l.width = .ok width ∧ width ≠ 0
    ∧ p = ⟨l.page, (2 * left).fdiv width, -top, left⟩

end Spec
