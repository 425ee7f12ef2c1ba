import Verif.Gen.Regexs
import Verif.Model.Lines

/-!
# Rebuilding the lines of a reference section

Model of `/repo/refextract/references/text.py:95-371`.
-/

namespace Py

/-- Does a pattern have a group? (`m.group` raises `IndexError` otherwise, `text.py:245`,
`find.py:139`, `406`, `433`.) -/
def Re.hasGroup (g : Nat) : Re → Bool
  | .seq a b => a.hasGroup g || b.hasGroup g
  | .alt a b => a.hasGroup g || b.hasGroup g
  | .star _ a => a.hasGroup g
  | .group h a => h == g || a.hasGroup g
  | .look _ a => a.hasGroup g
  | _ => false

/-- The pattern of the marker of a reference line (`text.py:101`, `167`, `212`), with the knowledge
whether it has a group `marknum`. -/
structure Marker where
  re : Re
  numbered : Bool
deriving DecidableEq, Repr

/-- The marker of a pattern (`find.py:143`, `171`, `324`). -/
def Marker.of (r : Re) : Marker := ⟨r, r.hasGroup G.marknum⟩

/-- The patterns that `find.py` may return as pattern of the markers: those of
`get_reference_line_numeration_marker_patterns` (`find.py:113`, `167`) with the title of the section
or nothing as prefix, and those of `find.py:237`, `262`, `287`. -/
def knownMarkers (pfx : Re) : List Re :=
  Rx.marker_patterns pfx ++
    [Rx.re_reference_line_bracket_markers, Rx.re_reference_line_dot_markers, Rx.re_reference_line_number_markers]

/-- `^\s*$` (`text.py:199`). -/
def blankMarker : Marker := ⟨.bos ⬝ .star true Re.space ⬝ .eos, false⟩

/-- `^[^\s]` (`text.py:209`). -/
def indentMarker : Marker := ⟨.bos ⬝ .set ⟨true, false, [.space]⟩, false⟩

/-- `max_lines` (`/repo/refextract/references/config.py:122`). -/
def maxLines : Nat := 25

/-- `prepare_ref` (`text.py:221-226`). -/
def prepareRef (ps : List Str) : Str :=
  rstrip ((ps.take maxLines).foldl (fun w l => joinLines w (strip l)) [])

/-- The outer loop of `test_for_blank_lines_separating_reference_lines` (`text.py:341-360`) on the
lines that are left, with `num_blanks`, `num_lines` and `multi_nonblanks_found`. Every round passes
a run of blank or of other lines; `fuel` bounds the number of rounds. -/
def blankLoop : Nat → List Str → Nat → Nat → Bool → Nat × Nat × Bool
  | 0, _, b, n, m => (b, n, m)
  | _ + 1, [], b, n, m => (b, n, m)
  | fuel + 1, l :: ls, b, n, m =>
    if !isspace l then
      let rest := ls.dropWhile fun l => !isspace l
      blankLoop fuel rest b (n + 1) (m || rest.length < ls.length)
    else
      let rest := ls.dropWhile isspace
      blankLoop fuel rest (if rest.isEmpty then b + 1 - 1 else b + 1) n m

/-- `test_for_blank_lines_separating_reference_lines` (`text.py:325-371`). -/
def blankSeparated (sect : List Str) : Bool :=
  let (b, n, m) := blankLoop sect.length sect 0 0 false
  decide (3 < n) && (b == n || b == n - 1) && m

/-- State of the loop of `rebuild_reference_lines` (`text.py:217-219`, `243-252`): `cur` is
`current_ref`, `num` the variable `marknum` (`none`: not bound yet), `refs` is
`rebuilt_references`, `work` is `working_ref`. -/
structure Reb where
  cur : Option Nat
  num : Option (Option Nat)
  refs : List Str
  work : List Str
deriving DecidableEq, Repr

/-- Assignment of `marknum` (`text.py:243-252`). Without the group: `IndexError`, `None`. When the
group took no part: `int(None)`, `TypeError`. `ValueError`: the variable keeps its value. -/
def marknum [UnicodeDB] (mk : Marker) (m : Match) (old : Option (Option Nat)) : Py (Option (Option Nat)) :=
  if mk.numbered then
    match m.group G.marknum with
    | none => .error .typeError
    | some t => match pyInt t with
      | .ok n => .ok (some (some n))
      | .error _ => .ok old
  else .ok (some none)

/-- `marknum is None or current_ref + 1 == marknum` (`text.py:255`). -/
def inSequence (cur : Option Nat) : Option (Option Nat) → Py Bool
  | none => .error .unboundLocal
  | some none => .ok true
  | some (some n) => match cur with
    | none => .error .typeError
    | some c => .ok (c + 1 == n)

/-- The two exceptions for indented lists (`text.py:257-263`). -/
def continues [UnicodeDB] (work : List Str) (line : Str) : Bool :=
  (reMatch Rx.lower_case_start (strip line)).isSome ||
    match work.getLast? with
    | none => false
    | some w => (search Rx.continuing_line_markers (strip w)).isSome

/-- A line unless it is empty (`text.py:270`, `284`, `294`). -/
def unlessEmpty (l : Str) : List Str := if l.isEmpty then [] else [l]

/-- A finished reference (`text.py:279-280`, `298-300`). -/
def finish (work : List Str) : List Str := if work.isEmpty then [] else [prepareRef work]

/-- A new reference starts in the line (`text.py:265-285`). -/
def newRef (s : Reb) (num : Option (Option Nat)) (start : Nat) (line : Str) : Reb :=
  ⟨num.getD none, num, s.refs ++ finish (s.work ++ unlessEmpty (line.take start)), unlessEmpty (line.drop start)⟩

/-- Body of the loop of `rebuild_reference_lines` (`text.py:231-296`). -/
def rebuildStep [UnicodeDB] (mk : Marker) (indent : Bool) (s : Reb) (line : Str) : Py Reb :=
  match search mk.re line with
  | none => .ok { s with work := s.work ++ unlessEmpty line }
  | some m => do
    let num ← marknum mk m s.num
    let new ← inSequence s.cur num
    .ok (if new && !(indent && continues s.work line) then newRef s num m.start line
      else { s with num := num, work := s.work ++ [line] })

/-- The loop of `rebuild_reference_lines` (`text.py:231-296`). -/
def rebuildLoop [UnicodeDB] (mk : Marker) (indent : Bool) : Reb → List Str → Py Reb
  | s, [] => .ok s
  | s, l :: ls => do
    let s ← rebuildStep mk indent s l
    rebuildLoop mk indent s ls

/-- The marker to use and `indentation_splitting` (`text.py:193-212`). -/
def chooseMarker (sect : List Str) : Option Marker → Marker × Bool
  | some mk => (mk, false)
  | none => if blankSeparated sect then (blankMarker, false) else (indentMarker, true)

/-- `rebuild_reference_lines` (`text.py:167-302`). -/
def rebuild [UnicodeDB] (sect : List Str) (mk : Option Marker) : Py (List Str) := do
  let s ← rebuildLoop (chooseMarker sect mk).1 (chooseMarker sect mk).2 ⟨some 0, none, [], []⟩ sect
  .ok (s.refs ++ finish s.work)

/-- The pattern of `strip_footer` (`text.py:162`): `\(?\[?\d{0,4}\]?\)?\.?\s*TITLE\s*$`. -/
def footerPattern (title : Str) : Re :=
  Re.opt (Re.ch '(') ⬝ Re.opt (Re.ch '[') ⬝ Re.upTo 4 Re.digit ⬝ Re.opt (Re.ch ']') ⬝ Re.opt (Re.ch ')') ⬝
    Re.opt (Re.ch '.') ⬝ .star true Re.space ⬝ .str title ⬝ .star true Re.space ⬝ .eos

/-- `strip_footer` (`text.py:160-164`). -/
def stripFooter [UnicodeDB] (lines : List Str) (title : Str) : List Str :=
  lines.filter fun l => (reMatch (footerPattern title) l).isNone

/-- `docbody[start]` without the title (`text.py:129-133`). -/
def cutTitle (line title : Str) : Str :=
  match find title line with
  | none => line
  | some k => line.drop (k + title.length)

/-- The lines of the section (`text.py:126-143`). `stop` is the index after its last line,
`ref_sect_end_line + 1`; `none` means up to the end of the document. `title_marker_same_line` is only set together with a title
(`find.py:101`, `176-186`); without one `str.find(None)` would be a `TypeError`. -/
def sectionLines [UnicodeDB] (doc : List Str) (start : Nat) (stop : Option Nat) (title : Option Str) (sameLine : Bool) :
    Py (List Str) :=
  let upto (l : List Str) := match stop with
    | none => l
    | some k => l.take k
  let strip (l : List Str) := match title with
    | none => l
    | some t => if t.isEmpty then l else stripFooter l t
  if sameLine then
    match doc[start]?, title with
    | none, _ => .error .indexError
    | some _, none => .error .typeError
    | some line, some t => .ok (strip ((upto (doc.set start (cutTitle line t))).drop start))
  else .ok (strip ((upto doc).drop (if title.isSome then start + 1 else start)))

/-- `get_reference_lines` (`text.py:95-147`). -/
def getReferenceLines [UnicodeDB] (doc : List Str) (start : Nat) (stop : Option Nat) (title : Option Str)
    (mk : Option Marker) (sameLine : Bool) : Py (List Str) := do
  let ls ← sectionLines doc start stop title sameLine
  rebuild ls mk

/-- `wash_and_repair_reference_line` (`text.py:305-322`). `undesirable` stands for
`replace_undesirable_characters` of the package `inspire_utils`, which is not part of the
repository. -/
def washRepair [UnicodeDB] (undesirable : Str → Str) (line : Str) : Str :=
  let line := repairUrls line
  let line := undesirable line
  let line := sub Rx.quoted_comma (fun m => '"' :: (m.group 1).getD [] ++ ['"', ',']) line
  let line := undesirable line
  sub Rx.re_multiple_space (fun _ => [' ']) line

end Py
