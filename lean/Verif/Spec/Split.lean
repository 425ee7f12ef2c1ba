import Verif.Spec.Basic
import Verif.Model.Element

/-!
# Specification vocabulary for splitting (C06 to C09)
-/

namespace Spec
open Py

/-- How an element may be cut: not at all, or at the first semicolon of its
miscellaneous text, the text before becoming an element of its own and that semicolon
disappearing. -/
inductive CutOf : El → List El → Prop
  | whole (e : El) : CutOf e [e]
  | atSemicolon (e : El) (a b : Str) : e.misc = a ++ ';' :: b → ';' ∉ a →
      CutOf e [{ ty := .misc, misc := a }, { e with misc := b }]

/-- The elements that are not authors. -/
def nonAuthors (l : List El) : List El := l.filter (·.ty ≠ .auth)

/-- The authors. -/
def authors (l : List El) : List El := l.filter (·.ty = .auth)

/-- Kinds of which a citation may hold several. -/
def mayRepeat : Kind → Bool
  | .reportnumber | .collaboration | .auth | .misc => true
  | _ => false

/-- `is_arxiv` is only set on report numbers. -/
def ArxivOk (e : El) : Prop := e.isArxiv = true → e.ty = .reportnumber

end Spec
