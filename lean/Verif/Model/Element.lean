import Verif.Py.Basic

/-!
# Citation elements

The dictionaries that `parse_tagged_reference_line` produces and the later steps
transform (`/repo/refextract/references/engine.py`).
-/

namespace Py

/-- Value of the key `type` of a citation element
(`/repo/refextract/references/engine.py:450-1378`). -/
inductive Kind where
  | journal | reportnumber | url | doi | hdl | auth | quoted | isbn | book
  | publisher | year | collaboration | recid | misc
deriving DecidableEq, Repr

/-- A Python value that is a `str` or `None`. -/
abbrev Val := Option Str

/-- Answer of the linker callback (`engine.py:292-298`): any Python object. Only its
truth value (`engine.py:555`) and its `str()` (`record.py:157`) are ever used; two
answers are identified when both agree. -/
structure RecId where
  truthy : Bool
  txt : Str
deriving DecidableEq, Repr

/-- The elements of `extra_ibids` (`engine.py:1052-1061`); `yr` may be `None`. -/
structure Ibid where
  title : Str
  volume : Str
  year : Val
  page : Str
deriving DecidableEq, Repr

/-- A citation element: a dictionary with one optional field per key ever used
(`engine.py:227-240`, `450-456`, `487-500`, `556`, `577-581`, `1017-1026`, `1077-1081`,
`1109-1114`, `1135-1140`, `1160-1164`, `1208-1213`, `1331-1334`, `1369-1373`). `none` means the key
is absent; a `Val` may in addition hold `None`. Every element has `type` and
`misc_txt`. `is_arxiv` is only ever set to `True`. -/
structure El where
  ty : Kind
  misc : Str
  title : Option Str := none
  volume : Option Val := none
  year : Option Val := none
  page : Option Val := none
  pageEnd : Option Val := none
  isIbid : Option Bool := none
  extraIbids : Option (List Ibid) := none
  reportNum : Option Str := none
  isArxiv : Bool := false
  urlString : Option Str := none
  urlDesc : Option Str := none
  doiString : Option Str := none
  hdlId : Option Str := none
  authTxt : Option Str := none
  authType : Option Str := none
  isbn : Option Str := none
  publisher : Option Str := none
  collaboration : Option Str := none
  authors : Option Str := none
  recid : Option (Option RecId) := none
deriving DecidableEq, Repr

/-- `el[k]` used as a string: `KeyError` when absent, `TypeError` when `None`. -/
def getStr (o : Option Val) : Py Str :=
  match o with
  | some (some s) => .ok s
  | some none => .error .typeError
  | none => .error .keyError

/-- `el.get(k)` -/
def getOr {α : Type} (o : Option (Option α)) : Option α := o.join

end Py
