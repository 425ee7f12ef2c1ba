import Verif.Py.Basic

/-!
# Specification vocabulary for joining and washing lines
-/

open Py

namespace Spec

/-- A line as it stands before the next one: without its final hyphen, or with one blank at its
end. -/
inductive Glued : Str → Str → Prop
  | empty : Glued [] []
  | hyphen (l : Str) : Glued (l ++ ['-']) l
  | blank (l : Str) : Glued (l ++ [' ']) (l ++ [' '])
  | other (l : Str) {c : Char} : c ≠ '-' → c ≠ ' ' → Glued (l ++ [c]) (l ++ [c, ' '])

/-- Characters taken for hyphens. -/
def hyphens : Str := ['˗', '̵', '̶', '−', '-', '﹣', '－']

/-- The edits that washing a line may make. -/
inductive Washes : Str → Str → Prop
  | refl (s : Str) : Washes s s
  | trans {s t u : Str} : Washes s t → Washes t u → Washes s u
  /-- White space before a comma, a semicolon, a full stop or a closing bracket is dropped. -/
  | before (a b : Str) {w p : Char} : isSpace w = true → p ∈ [',', ';', '.', ']'] →
      Washes (a ++ w :: p :: b) (a ++ p :: b)
  /-- White space after an opening bracket is dropped. -/
  | after (a b : Str) {w : Char} : isSpace w = true → Washes (a ++ '[' :: w :: b) (a ++ '[' :: b)
  /-- Two white-space characters become one blank. -/
  | run (a b : Str) {w v : Char} : isSpace w = true → isSpace v = true → Washes (a ++ w :: v :: b) (a ++ ' ' :: b)
  /-- A colon or a comma before white space and a colon is dropped. -/
  | colon (a b : Str) {w p : Char} : isSpace w = true → p ∈ [':', ','] → Washes (a ++ p :: w :: ':' :: b) (a ++ ':' :: b)
  /-- Characters taken for hyphens become hyphens. -/
  | hyphen (a b : Str) {h : Char} : h ∈ hyphens → Washes (a ++ h :: b) (a ++ '-' :: b)
  /-- The sequence `\255` becomes a hyphen. -/
  | code (a b : Str) : Washes (a ++ '\\' :: '2' :: '5' :: '5' :: b) (a ++ '-' :: b)

/-- Characters that washing always keeps. -/
def solid (c : Char) : Bool := !isSpace c && c != ':' && c != ',' && !hyphens.contains c

/-- No two adjacent white-space characters. -/
def NoDoubleSpace (s : Str) : Prop := ¬ ∃ a w v b, s = a ++ w :: v :: b ∧ isSpace w = true ∧ isSpace v = true

end Spec
