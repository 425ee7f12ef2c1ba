import Verif.Model.Element

/-!
# Splitting a line into citations

Model of `/repo/refextract/references/engine.py:301-374`. Python objects have an
identity, because the same author dictionary can end up in two citations
(`engine.py:318`): an object is a value with an identifier.
-/

namespace Py

/-- A citation element together with the identity of its dictionary. -/
structure Obj where
  id : Nat
  el : El
deriving DecidableEq, Repr

/-- The type used for splitting: `"ARXIV"` or the element's type (`engine.py:303`). -/
inductive TypeKey where
  | arxiv
  | kind (k : Kind)
deriving DecidableEq, Repr

/-- `"ARXIV" if el.get("is_arxiv") else el["type"]` (`engine.py:303`, `engine.py:369`). -/
def typeKey (e : El) : TypeKey := if e.isArxiv then .arxiv else .kind e.ty

/-- Result of `split_needed` other than `None` (`engine.py:306-310`). -/
inductive SplitReason where
  | semicolon
  | repeated
deriving DecidableEq, Repr

/-- Membership in `repeatable_if_adjacent` (`engine.py:302`). -/
def repeatable (t : TypeKey) : Bool := t == .kind .reportnumber || t == .kind .collaboration

/-- `split_needed` (`engine.py:301-311`). -/
def splitNeeded (next : El) (types : List TypeKey) (last : Option TypeKey) : Option SplitReason :=
  if next.misc.contains ';' then some .semicolon
  else if (types.contains (typeKey next) && !repeatable (typeKey next))
      || (last == some (typeKey next) && !repeatable (typeKey next)) then some .repeated
  else none

/-- Remove the last element satisfying `p` and return it with the rest. -/
def popLast {α : Type} (p : α → Bool) : List α → Option (α × List α)
  | [] => none
  | a :: l =>
    match popLast p l with
    | some (b, r) => some (b, a :: r)
    | none => if p a then some (a, l) else none

/-- Is the object an author? -/
def Obj.isAuth (o : Obj) : Bool := o.el.ty == .auth

/-- `postpone_last_auth` (`engine.py:314-322`): the postponed author and the citation
afterwards (`pop` mutates it, `__getitem__` does not). -/
def postponeLastAuth (cur : List Obj) (numAuth : Nat) : Option Obj × List Obj :=
  if numAuth = 0 then (none, cur)
  else match popLast Obj.isAuth cur with
    | none => (none, cur)
    | some (a, rest) => if numAuth = 1 then (some a, cur) else (some a, rest)

/-- Local variables of `split_citations_iter` (`engine.py:333-338`), plus the next
unused object identifier. -/
structure SplitSt where
  cur : List Obj := []
  types : List TypeKey := []
  last : Option TypeKey := none
  numAuth : Nat := 0
  postponed : Option Obj := none
  prev : Option SplitReason := none
  fresh : Nat
deriving DecidableEq, Repr

/-- `postponed_auth and (num_auth == 0 or prev_split_reason == "repeated field")`:
insert the postponed author at the front (`engine.py:346-350`, `engine.py:372-373`). -/
def insertPostponed (s : SplitSt) : List Obj × Nat :=
  match s.postponed with
  | some a =>
    if s.numAuth = 0 ∨ s.prev = some .repeated then (a :: s.cur, s.numAuth + 1)
    else (s.cur, s.numAuth)
  | none => (s.cur, s.numAuth)

/-- The part of the loop body after the split decision (`engine.py:360-370`). -/
def splitAppend (s : SplitSt) (o : Obj) : SplitSt :=
  let s := { s with cur := s.cur ++ [o] }
  if o.el.ty = .misc then s
  else if o.el.ty = .auth then { s with numAuth := s.numAuth + 1 }
  else { s with last := some (typeKey o.el), types := typeKey o.el :: s.types }

/-- The split branch of the loop body (`engine.py:342-358`): the yielded citation and
the state afterwards. -/
def splitYield (s : SplitSt) (r : SplitReason) : List Obj × SplitSt :=
  let ins := insertPostponed s
  let pp := postponeLastAuth ins.1 ins.2
  (pp.2, { cur := [], types := [], last := none, numAuth := 0, postponed := pp.1, prev := some r,
           fresh := s.fresh })

/-- `split_citations_iter` (`engine.py:325-374`) as a loop producing the yielded list. -/
def splitGo : SplitSt → List Obj → List (List Obj)
  | s, [] => [(insertPostponed s).1]
  | s, o :: os =>
    match splitNeeded o.el s.types s.last with
    | none => splitGo (splitAppend s o) os
    | some .repeated =>
      let y := splitYield s .repeated
      y.1 :: splitGo (splitAppend y.2 o) os
    | some .semicolon =>
      match split1 ';' o.el.misc with
      | some (m, rest) =>
        let misc : Obj := ⟨s.fresh, { ty := .misc, misc := m }⟩
        let s := { s with cur := s.cur ++ [misc], fresh := s.fresh + 1 }
        let y := splitYield s .semicolon
        y.1 :: splitGo (splitAppend y.2 { o with el := { o.el with misc := rest } }) os
      | none => splitGo (splitAppend s o) os  -- unreachable: a semicolon is present

/-- The elements of the line as objects numbered from 0. -/
def number : Nat → List El → List Obj
  | _, [] => []
  | n, e :: es => ⟨n, e⟩ :: number (n + 1) es

/-- `list(split_citations_iter(citation_elements))` (`engine.py:665`). -/
def splitCitations (els : List El) : List (List Obj) :=
  splitGo { fresh := els.length } (number 0 els)

end Py
