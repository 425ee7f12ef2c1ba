import Verif.Py.Dict

/-!
# The knowledge-base cache

Model of `get_kbs` and `load_kb_by_type`, `/repo/refextract/references/kbs.py:55-87`, with the
configuration of `/repo/refextract/references/config.py:42-51`.
-/

namespace Py

/-- A knowledge base as passed by the caller: a path, or a list or dictionary object with an
identity. `none` below stands for `None`. -/
inductive KbArg where
  | path (s : Str)
  | obj (id : Nat)
deriving DecidableEq, Repr

/-- What a loader sees: the path, or the contents of the object at the time of the call. -/
inductive KbSrc (α : Type) where
  | path (s : Str)
  | data (a : α)
deriving DecidableEq, Repr

/-- The contents of all list and dictionary objects. -/
abbrev Store (α : Type) := Nat → α

/-- The source an argument denotes. -/
def src {α : Type} (st : Store α) : KbArg → KbSrc α
  | .path s => .path s
  | .obj i => .data (st i)

/-- The loaders (`kbs.py:73-87`): a function of the kind and the source, which may raise. Files
are supposed not to change while the program runs. -/
abbrev Loader (α L : Type) := Str → KbSrc α → Py L

/-- The kinds with a loader (`kbs.py:76-85`), in the order of `config.py:42-51`. -/
def kbKinds : List Str :=
  [py! "journals", py! "journals_re", py! "report-numbers", py! "authors", py! "collaborations",
   py! "books", py! "publishers", py! "special_journals"]

/-- `load_kb_by_type` (`kbs.py:73-87`): `KeyError` for an unknown kind. -/
def loadKb {α L : Type} (ld : Loader α L) (kind : Str) (s : KbSrc α) : Py L :=
  if kbKinds.contains kind then ld kind s else .error .keyError

/-- The two default arguments of `get_kbs` (`kbs.py:55`), which live as long as the program.
The first is also what every call returns. -/
structure KbCache (L : Type) where
  cache : List (Str × L) := []
  inputs : List (Str × KbArg) := []

/-- `CFG_REFEXTRACT_KBS` (`config.py:42-51`); the directory is a parameter. -/
def defaultKbs (dir : Str) : List (Str × KbArg) :=
  [(py! "journals", .path (dir ++ py! "/journal-titles.kb")),
   (py! "journals_re", .path (dir ++ py! "/journal-titles-re.kb")),
   (py! "report-numbers", .path (dir ++ py! "/report-numbers.kb")),
   (py! "authors", .path (dir ++ py! "/authors.kb")),
   (py! "collaborations", .path (dir ++ py! "/collaborations.kb")),
   (py! "books", .path (dir ++ py! "/books.kb")),
   (py! "publishers", .path (dir ++ py! "/publishers.kb")),
   (py! "special_journals", .path (dir ++ py! "/special-journals.kb"))]

/-- Overrides: a dictionary whose values may be `None`. -/
abbrev Overrides := List (Str × Option KbArg)

/-- Truth value of an override (`kbs.py:64`); `empty` tells which contents are empty. -/
def truthyKb {α : Type} (empty : α → Bool) (st : Store α) : Option KbArg → Bool
  | none => false
  | some (.path s) => !s.isEmpty
  | some (.obj i) => !empty (st i)

/-- The configuration of a request (`kbs.py:62-64`). -/
def configOf {α : Type} (empty : α → Bool) (st : Store α) (dir : Str) (custom : Overrides) : List (Str × KbArg) :=
  dupdate (defaultKbs dir) (custom.filterMap fun p => if truthyKb empty st p.2 then p.2.map (p.1, ·) else none)

/-- `kb != cache_inputs.get(kb_type)` (`kbs.py:67`): strings are compared as strings, objects
by their present contents. -/
def kbChanged {α : Type} [DecidableEq α] (st : Store α) (kb : KbArg) (old : Option KbArg) : Bool :=
  match old with
  | none => true
  | some o => src st kb != src st o

/-- The loop of `get_kbs` (`kbs.py:66-69`): the input is recorded before the load. -/
def kbLoop {α L : Type} [DecidableEq α] (ld : Loader α L) (st : Store α) :
    KbCache L → List (Str × KbArg) → Py Unit × KbCache L
  | c, [] => (.ok (), c)
  | c, (k, kb) :: r =>
    if kbChanged st kb (dget c.inputs k) then
      let inputs := dset c.inputs k kb
      match loadKb ld k (src st kb) with
      | .error e => (.error e, { c with inputs := inputs })
      | .ok v => kbLoop ld st { cache := dset c.cache k v, inputs := inputs } r
    else kbLoop ld st c r

/-- `get_kbs` (`kbs.py:55-70`): the outcome and the new state; what a successful call returns
is the `cache` itself. -/
def getKbs {α L : Type} [DecidableEq α] (ld : Loader α L) (empty : α → Bool) (dir : Str) (st : Store α)
    (custom : Overrides) (c : KbCache L) : Py Unit × KbCache L :=
  kbLoop ld st c (configOf empty st dir custom)

/-- The side effect of tagging a line on the shared cache (`tag.py:123-124`): the dictionary of
standard titles inside the journals knowledge base is updated with the entries of
`journals_re`. `upd` is that update. -/
def tagEffect {L : Type} (upd : L → L → L) (c : KbCache L) : KbCache L :=
  match dget c.cache (py! "journals"), dget c.cache (py! "journals_re") with
  | some j, some r => { c with cache := dset c.cache (py! "journals") (upd j r) }
  | _, _ => c

end Py
