import Verif.Gen.Regexs
import Verif.Py.Sort

/-!
# TeX keys and links of a PDF

Model of `/repo/refextract/references/pdf.py:42-276`. What `pypdf` answers is a parameter;
coordinates are integers in some common unit.
-/

namespace Py

/-- A position `(page, column, -y, x)` (`pdf.py:234-241`, `254`). -/
structure Pos where
  page : Nat
  col : Int
  y : Int
  x : Int
deriving DecidableEq, Repr

/-- The name of a destination (`pdf.py:63-67`): text, or bytes with their UTF-8 decoding if any. -/
inductive DestKey where
  | text (s : Str)
  | bytes (decoded : Option Str)
deriving DecidableEq, Repr

/-- A named destination. `page` is the answer of `get_destination_page_number`, with the width
of that page. A coordinate `none` is a missing one. -/
structure Dest where
  page : Py (Nat × Int)
  left : Option Int
  top : Option Int
deriving DecidableEq

/-- `(2 * left) // pagewidth` (`pdf.py:234`, `252`); `other 0` stands for `ZeroDivisionError`. -/
def columnOf (left width : Int) : Py Int :=
  if width = 0 then .error (.other 0) else .ok ((2 * left).fdiv width)

/-- A coordinate that is usable (`pdf.py:231`): present and not zero. -/
def coord : Option Int → Option Int
  | some n => if n = 0 then none else some n
  | none => none

/-- `_destination_position` (`pdf.py:221-241`); `other 1` stands for
`IncompleteCoordinatesError`. -/
def destPosition (d : Dest) : Py Pos := do
  let (page, width) ← d.page
  match coord d.left, coord d.top with
  | some left, some top => do
    let col ← columnOf left width
    return { page := page, col := col, y := -top, x := left }
  | _, _ => .error (.other 1)

/-- A link annotation (`pdf.py:257-276`): page with its width, target, left and top. -/
structure Link where
  uri : Str
  page : Nat
  width : Py Int
  rect : Py (Int × Int)
deriving DecidableEq

/-- `_uri_position` (`pdf.py:244-254`). -/
def linkPosition (l : Link) : Py Pos := do
  let (left, top) ← l.rect
  let width ← l.width
  let col ← columnOf left width
  return { page := l.page, col := col, y := -top, x := left }

/-- What `pypdf` finds in a file (`pdf.py:54-60`): named destinations in dictionary order and
link annotations in page order. -/
structure PdfInfo where
  dests : List (DestKey × Dest)
  links : List Link

/-- `re_reference_in_dest.match(key).group(1)` (`pdf.py:68`, `91-93`). -/
def citeKey [UnicodeDB] (s : Str) : Option Str :=
  (reMatch Rx.re_reference_in_dest s).bind (·.group 1)

/-- `dest.decode("utf-8")` when the name is bytes (`pdf.py:63-67`). -/
def destName : DestKey → Py Str
  | .text s => .ok s
  | .bytes (some s) => .ok s
  | .bytes none => .error .valueError

/-- The loop selecting the destinations of references (`pdf.py:61-70`). A name that cannot be
decoded raises outside any `try`. -/
def citeDests [UnicodeDB] : List (DestKey × Dest) → Py (List (DestKey × Dest))
  | [] => .ok []
  | (k, d) :: r => do
    let s ← destName k
    let rest ← citeDests r
    return if (citeKey s).isSome then (k, d) :: rest else rest

/-- Loop of `_destinations_in_two_columns` (`pdf.py:208-218`): `count` holds the x positions met
in the second column. Lazily computed positions that raise make the caller fail in any case. -/
def twoColumns : List Int → List Pos → Bool
  | _, [] => false
  | seen, p :: r =>
    if p.col = 1 then
      if 3 ≤ (p.x :: seen).count p.x then true else twoColumns (p.x :: seen) r
    else twoColumns seen r

/-- Lexicographic `≤` on lists of integers. -/
def lexLe : List Int → List Int → Bool
  | [], _ => true
  | _ :: _, [] => false
  | a :: as, b :: bs => if a < b then true else if b < a then false else lexLe as bs

/-- The sorting key (`pdf.py:75-85`). -/
def sortKey (two : Bool) (p : Pos) : List Int :=
  if two then [p.page, p.col, p.y, p.x] else [p.page, p.y, p.x]

/-- `refs.sort(key=sortfunc)` (`pdf.py:88`, `90`): stable. -/
def sortPos {α : Type} (two : Bool) (l : List (α × Pos)) : List (α × Pos) :=
  sortBy (fun a b => lexLe (sortKey two a.2) (sortKey two b.2)) l

/-- What the loop of `_match_urls_with_reference` does with one link. -/
inductive LinkAction where
  | take | skip | stop
deriving DecidableEq

/-- Loop body of `_match_urls_with_reference` (`pdf.py:127-191`). -/
def linkAction (two : Bool) (ref : Pos) (next : Option Pos) (url : Pos) : LinkAction :=
  let under : Bool := ref.y ≤ url.y
  let sameCol : Bool := ref.col = url.col
  let nextCol : Bool := ref.col < url.col
  let samePage : Bool := ref.page = url.page
  let prevPage : Bool := ref.page + 1 = url.page
  match next with
  | none => if ((samePage && (sameCol || nextCol)) || prevPage) && under then .take else .skip
  | some n =>
    let between : Bool := (samePage || prevPage) && (ref.y ≤ url.y && url.y ≤ n.y)
    let nextSamePage : Bool := n.page = url.page
    let lastInPage : Bool := samePage && url.page < n.page && under
    let lastTwoCol : Bool := samePage && nextSamePage && under && url.col < n.col && n.y < url.y && ref.y ≤ url.y
      && (sameCol || nextCol)
    let newColumn : Bool := samePage && nextSamePage && url.y < ref.y && ref.col < n.col && url.y < n.y
    let otherInNewColumn : Bool := samePage && n.page = url.page && (n.col = ref.col && ref.col < url.col) && url.y < n.y
    let unrelated : Bool := url.page < ref.page
    let forNext : Bool := n.y ≤ url.y
    if between then
      if !two || url.col = ref.col then .take else .skip
    else if lastInPage || lastTwoCol || newColumn then .take
    else if unrelated then .skip
    else if forNext || otherInNewColumn then .stop
    else .skip

/-- The loop of `_match_urls_with_reference` (`pdf.py:126-193`): the links taken, and the rest from
the link where the loop stopped, if it did. -/
def matchLoop {α : Type} (two : Bool) (ref : Pos) (next : Option Pos) :
    List (α × Pos) → List (α × Pos) × Option (List (α × Pos))
  | [] => ([], none)
  | u :: us =>
    match linkAction two ref next u.2 with
    | .stop => ([], some (u :: us))
    | .take => let (t, r) := matchLoop two ref next us; (u :: t, r)
    | .skip => matchLoop two ref next us

/-- `_match_urls_with_reference` (`pdf.py:119-194`): links taken and links left. -/
def matchLinks {α : Type} (two : Bool) (ref : Pos) (next : Option Pos) (urls : List (α × Pos)) :
    List (α × Pos) × List (α × Pos) :=
  let (t, r) := matchLoop two ref next urls
  (t, if next.isNone then [] else r.getD urls)

/-- The loop over the references (`pdf.py:91-111`): the links taken by each. -/
def assignLinks {α : Type} (two : Bool) : List (α × Pos) → List Pos → List (List (α × Pos))
  | _, [] => []
  | urls, ref :: refs =>
    let (t, urls) := matchLinks two ref refs.head? urls
    t :: assignLinks two urls refs

/-- The text of a set of links: each target once (`pdf.py:126`, `165`). -/
def linkSet : List (Str × Pos) → List Str
  | [] => []
  | u :: us => u.1 :: (linkSet us).filter (· != u.1)

/-- `match(ref[0])` on the name of a destination (`pdf.py:94-96`): `TypeError` on bytes. -/
def keyText [UnicodeDB] : DestKey → Py Str
  | .text s => match citeKey s with
    | some k => .ok k
    | none => .error .attributeError
  | .bytes _ => .error .typeError

/-- The second `try` body (`pdf.py:72-113`). -/
def texkeysBody [UnicodeDB] (refs : List (DestKey × Dest)) (links : List Link) : Py (List (Str × List Str)) := do
  let ps ← refs.mapM fun r => do
    let p ← destPosition r.2
    pure (r.1, p)
  let two := twoColumns [] (ps.map (·.2))
  let ps := sortPos two ps
  let us ← links.mapM fun l => do
    let p ← linkPosition l
    pure (l.uri, p)
  let us := sortPos two us
  let ks ← ps.mapM fun p => keyText p.1
  return ks.zip ((assignLinks two us (ps.map (·.2))).map linkSet)

/-- `extract_texkeys_and_urls_from_pdf` (`pdf.py:42-116`). `info` is the outcome of the first
`try` body; failures there and in the second `try` body give the empty list. A set of links that
is empty is represented by the empty list instead of a missing key (`api.py:157` reads it with
the default `[]`). The keys are extracted after the links are assigned; Python does both in one
loop, with the same outcome because any failure discards everything. -/
def texkeys [UnicodeDB] (info : Py PdfInfo) : Py (List (Str × List Str)) :=
  match info with
  | .error _ => .ok []
  | .ok i =>
    match citeDests i.dests with
    | .error e => .error e
    | .ok refs =>
      match texkeysBody refs i.links with
      | .error _ => .ok []
      | .ok r => .ok r

end Py
