import Verif.Model.Boundary
import Verif.Model.Rebuild

/-!
# Finding the reference section

Model of `/repo/refextract/references/find.py` and of `extract_references_from_fulltext`
(`/repo/refextract/references/text.py:44-92`).
-/

namespace Py

/-- `regex_match_list` (`/repo/refextract/references/regexs.py:1070-1086`), with the pattern that
matched (`m.re`). -/
def matchList [UnicodeDB] (line : Str) : List Re → Option (Re × Match)
  | [] => none
  | r :: rs => match reMatch r line with
    | some m => some (r, m)
    | none => matchList line rs

/-- The dictionary `ref_details` (`find.py:118-122`, `144-148`, `176-186`, `100-101`, `353-359`).
`title_marker_same_line` is `sameLine`. -/
structure Details where
  start : Nat
  title : Option Str
  marker : Option Str
  pattern : Option Re
  sameLine : Bool
deriving DecidableEq, Repr

/-- `find_numeration_in_title` (`find.py:155-188`) on the first of the lines: marker, pattern and
`found_title`. The patterns always capture the group `mark`. The result `none` stands for `None`
(the `IndexError` of an empty list of lines included). -/
def numerationInTitle [UnicodeDB] (lines : List Str) (title : Str) : Option (Str × Re × Bool) :=
  match lines with
  | [] => none
  | l :: _ => match matchList l (Rx.marker_patterns (Re.strI title)) with
    | none => none
    | some (r, m) =>
      let mk := (m.group G.mark).getD []
      some (mk, r, match search Rx.re_num mk with
        | none => false
        | some n => n.txt == py! "1")

/-- The loop of `find_numeration_in_body` (`find.py:124-150`). The patterns always capture the group
`mark`, and `marknum` if they have it. -/
def numerationInBody [UnicodeDB] : List Str → Option (Str × Re)
  | [] => none
  | l :: ls =>
    if isspace l then numerationInBody ls
    else match matchList l (Rx.marker_patterns .eps) with
      | none => numerationInBody ls
      | some (r, m) =>
        if r.hasGroup G.marknum && m.group G.marknum != some (py! "1") then numerationInBody ls
        else some ((m.group G.mark).getD [], r)

/-- `find_numeration` (`find.py:191-213`): details without start line, and `found_title`. -/
def findSectionNumeration [UnicodeDB] (lines : List Str) (start : Nat) (title : Str) : Details × Bool :=
  match numerationInTitle lines title with
  | some (mk, r, found) => (⟨start, some title, some mk, some r, true⟩, found)
  | none => match numerationInBody lines with
    | some (mk, r) => (⟨start, some title, some mk, some r, false⟩, false)
    | none => (⟨start, some title, none, none, false⟩, false)

/-- `bool(s)` of an optional string (`find.py:94-95`). -/
def someTruthy : Option Str → Bool
  | none => false
  | some s => !s.isEmpty

/-- Inner loop of `find_reference_section` (`find.py:75-104`) over the positions below `n`, from the
last to the first. The title patterns always capture the group `title`. The dictionary never has the
key `"title"`, so that the test of `find.py:84-90` never holds. -/
def sectionInner [UnicodeDB] (doc : List Str) (r : Re) : Nat → Option Details → Option Details
  | 0, d => d
  | n + 1, d =>
    match doc[n]? with
    | none => sectionInner doc r n d
    | some line => match reMatch r line with
      | none => sectionInner doc r n d
      | some m =>
        let (t, found) := findSectionNumeration ((doc.drop n).take 6) n ((m.group G.title).getD [])
        let keep := match d with
          | none => false
          | some d => someTruthy d.marker && !someTruthy t.marker
        if keep then sectionInner doc r n d
        else if found then some t
        else sectionInner doc r n (some t)

/-- Outer loop of `find_reference_section` (`find.py:73-107`). -/
def sectionOuter [UnicodeDB] (doc : List Str) : List Re → Option Details
  | [] => none
  | r :: rs => match sectionInner doc r doc.length none with
    | some d => some d
    | none => sectionOuter doc rs

/-- `find_reference_section` (`find.py:45-109`). -/
def findSection [UnicodeDB] (doc : List Str) : Option Details := sectionOuter doc Rx.section_title_patterns

/-- Does a line have the number given? (`find.py:321-322`, `339-340`) The patterns used always
capture the group `marknum`. -/
def hasNumber [UnicodeDB] (r : Re) (num : Str) (line : Str) : Option Match :=
  match reMatch r (strip line) with
  | none => none
  | some m => if m.group G.marknum == some num then some m else none

/-- The loop of `find_reference_section_no_title_generic` (`find.py:312-364`) over the positions below
`n`, from the last to the first, for a single pattern (`find.py:237`, `262`, `287`). -/
def noTitleLoop [UnicodeDB] (doc : List Str) (r : Re) : Nat → Option Details
  | 0 => none
  | n + 1 =>
    match doc[n]? with
    | none => noTitleLoop doc r n
    | some line => match hasNumber r (py! "1") line with
      | none => noTitleLoop doc r n
      | some m =>
        let zone := (doc.drop (n + 1)).take 10
        if zone.length < 5 || zone.any fun l => (hasNumber r (py! "2") l).isSome then
          some ⟨n, none, some (strip ((m.group G.mark).getD [])), some r, false⟩
        else noTitleLoop doc r n

/-- `get_reference_section_beginning` (`find.py:483-523`), without `how_found_start`. -/
def sectionBeginning [UnicodeDB] (doc : List Str) : Option Details :=
  match findSection doc with
  | some d => some d
  | none => match noTitleLoop doc Rx.re_reference_line_bracket_markers doc.length with
    | some d => some d
    | none => match noTitleLoop doc Rx.re_reference_line_dot_markers doc.length with
      | some d => some d
      | none => noTitleLoop doc Rx.re_reference_line_number_markers doc.length

/-- `int(num_match.group("marknum"))` (`find.py:407`, `425`): `IndexError` without the group,
`TypeError` if it took no part. -/
def matchNumber [UnicodeDB] (p : Re × Match) : Py Nat :=
  if p.1.hasGroup G.marknum then
    match p.2.group G.marknum with
    | none => .error .typeError
    | some t => pyInt t
  else .error .indexError

/-- The reference count (`find.py:404-407`). -/
def countRefs [UnicodeDB] (pats : List Re) (line : Str) (count : Nat) : Py Nat :=
  match matchList (strip line) pats with
  | none => .ok count
  | some p => match matchNumber p with
    | .ok n => .ok n
    | .error .valueError => .ok count
    | .error .indexError => .ok count
    | .error e => .error e

/-- Is a line the next reference? (`find.py:422-436`) -/
def isNextRef [UnicodeDB] (pats : List Re) (count : Nat) (line : Str) : Py Bool :=
  match matchList (strip line) pats with
  | none => .ok false
  | some p =>
    if isdigit p.2.txt then .ok false
    else match matchNumber p with
      | .ok n => .ok (count + 1 == n)
      | .error .valueError => .ok false
      | .error .indexError => .ok true
      | .error e => .error e

/-- The loop of `find.py:419-437` over the next lines. -/
def nextRefIn [UnicodeDB] (pats : List Re) (count : Nat) : List Str → Py Bool
  | [] => .ok false
  | l :: ls => do
    let b ← isNextRef pats count l
    if b then return true else nextRefIn pats count ls

/-- `digit_test_str` (`find.py:444-453`, `460-469`): without blanks, points, signs and crosses. -/
def digitTest (line : Str) : Str :=
  strip (line.filter fun c => !(c == ' ' || c == '.' || c == '-' || c == '+' || c == '×' || c == '−'))

/-- `len(digit_test_str) > 10 and digit_test_str.isdigit()` (`find.py:454`, `470`). -/
def digitLine [UnicodeDB] (line : Str) : Bool := decide (10 < (digitTest line).length) && isdigit (digitTest line)

/-- The loop of `find.py:456-477`: `k` is `y - x`, `dl` is `digit_lines`, `nd` is
`num_digit_lines`. -/
def digitLoop [UnicodeDB] : Nat → Nat → Nat → List Str → Bool
  | _, dl, nd, [] => nd == dl
  | k, dl, nd, l :: ls =>
    if k < dl then
      if digitLine l then digitLoop (k + 1) dl (nd + 1) ls
      else if (digitTest l).isEmpty then digitLoop (k + 1) (dl + 1) nd ls
      else digitLoop (k + 1) dl nd ls
    else nd == dl

/-- Is the line the title of the next section? (`find.py:411-440`) -/
def titleEnds [UnicodeDB] (pats : List Re) (count : Nat) (l : Str) (ls : List Str) : Py Bool :=
  if (matchList (strip l) Rx.post_title_patterns).isSome then do
    let b ← nextRefIn pats count (ls.take 199)
    return !b
  else .ok false

/-- The loop of `find_end_of_reference_section` (`find.py:401-480`) on the lines that are left: the
number of lines that belong to the section. The match of the keyword patterns (`find.py:415`) is not
used. -/
def endLoop [UnicodeDB] (pats : List Re) : Nat → List Str → Py Nat
  | _, [] => .ok 0
  | count, l :: ls => do
    let count ← countRefs pats l count
    let ended ← titleEnds pats count l ls
    if ended then return 0
    else if digitLine l && digitLoop 1 4 1 ls then return 1
    else do
      let n ← endLoop pats count ls
      return n + 1

/-- `mk_patterns` (`find.py:396-399`). -/
def endPatterns (d : Details) : List Re :=
  match d.marker, d.pattern with
  | some _, some r => [r]
  | _, _ => Rx.marker_patterns .eps

/-- `find_end_of_reference_section` (`find.py:367-480`): the index after the last line. -/
def findEnd [UnicodeDB] (doc : List Str) (d : Details) : Py (Option Nat) :=
  if doc.length < d.start || doc.length < 1 then .ok none
  else do
    let n ← endLoop (endPatterns d) 0 (doc.drop d.start)
    return some (d.start + n)

/-- The references of a section with its end (`text.py:71-90`), and `status`. -/
def extractSection [UnicodeDB] (doc : List Str) (d : Details) : Option Nat → Py (List Str × Nat)
  | none => .ok ([], 5)
  | some e => do
    let refs ← getReferenceLines doc d.start (some e) d.title (d.pattern.map Marker.of) d.sameLine
    return (refs, 0)

/-- The references of a document without page headers (`text.py:63-90`), and `status`. -/
def extractDoc [UnicodeDB] (doc : List Str) : Option Details → Py (List Str × Nat)
  | none => .ok ([], 4)
  | some d => do
    let e ← findEnd doc d
    extractSection doc d e

/-- `extract_references_from_fulltext` (`text.py:44-92`): the references and `status`. -/
def extractFulltext [UnicodeDB] (fulltext : List Str) : Py (List Str × Nat) := do
  let doc ← removeBoundary fulltext
  extractDoc doc (sectionBeginning doc)

end Py
