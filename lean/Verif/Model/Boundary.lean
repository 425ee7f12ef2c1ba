import Verif.Gen.Regexs
import Verif.Model.Transform

/-!
# Page headers and footers

Model of `/repo/refextract/documents/text.py:189-450`.
-/

namespace Py

/-- `document_contains_text` (`text.py:222-236`). -/
def containsText (doc : List Str) : Bool := doc.any fun l => !isspace l

/-- Loop of `get_page_break_positions` (`text.py:250-252`) from position `i` on. -/
def breaksFrom [UnicodeDB] : Nat → List Str → List Nat
  | _, [] => []
  | i, l :: ls => if (reMatch Rx.p_break l).isSome then i :: breaksFrom (i + 1) ls else breaksFrom (i + 1) ls

/-- `get_page_break_positions` (`text.py:239-253`). -/
def pageBreaks [UnicodeDB] (doc : List Str) : List Nat := breaksFrom 0 doc

/-- `p_wordSearch.findall(line)` (`text.py:286`, `297`, `347`, `353`). -/
def wordsOf [UnicodeDB] (line : Str) : List Str := (finditer Rx.p_wordSearch line).map (·.txt)

/-- Loop body of `check_boundary_lines_similar` (`text.py:436-446`): do two words agree? The words
are ASCII and not empty (`text.py:269`), so that lower-casing does not change their length. -/
def wordMatch [UnicodeDB] (a b : Str) : Bool :=
  if isdigit a && isdigit b then true
  else (lower a).head? == (lower b).head? && (lower a).getLast? == (lower b).getLast?

/-- `check_boundary_lines_similar` (`text.py:424-450`). The quotient of floats is below `0.9`
exactly if ten times the numerator is below nine times the denominator (for lists of less than
`10^15` words). -/
def linesSimilar [UnicodeDB] (ws vs : List Str) : Bool :=
  if ws.length ≠ vs.length then false
  else
    let n := ((ws.zip vs).filter fun p => wordMatch p.1 p.2).length
    !(ws.length == 0 || 10 * n < 9 * ws.length)

/-- The comparison of one line with the model line (`text.py:298-310`, `355-368`). -/
def lineAgrees [UnicodeDB] (empty : Bool) (words : List Str) (line : Str) : Bool :=
  let ws := wordsOf line
  if empty then ws.length == 0
  else if ws.length == 0 || words.length != ws.length then false
  else linesSimilar words ws

/-- Inner loop of `get_number_header_lines` (`text.py:290-312`): is `keep_checking` still set at
its end? `fuel` bounds the number of rounds; running out of it would show as the error `other 99`. -/
def headInner [UnicodeDB] (doc : List Str) (pbs : List Nat) (empty : Bool) (words : List Str) (n rem step : Nat) :
    Nat → Nat → Py Bool
  | 0, _ => .error (.other 99)
  | fuel + 1, cur =>
    if cur < rem then do
      let p ← getIdx pbs cur
      if doc.length ≤ p + n + 1 then return false
      else do
        let line ← getIdx doc (p + n + 1)
        if lineAgrees empty words line then headInner doc pbs empty words n rem step fuel (cur + step) else return false
    else .ok true

/-- Outer loop of `get_number_header_lines` (`text.py:274-316`) with `n` header lines so far. -/
def headLoop [UnicodeDB] (doc : List Str) (pbs : List Nat) (rem step : Nat) : Nat → Nat → Py Nat
  | 0, _ => .error (.other 99)
  | fuel + 1, n => do
    let p ← getIdx pbs 1
    let line ← getIdx doc (p + n + 1)
    let q ← getIdx pbs 2
    let keep ← if p + n + 1 = q then pure false
      else headInner doc pbs (isspace line) (wordsOf line) n rem step (rem + 1) (1 + step)
    if keep then headLoop doc pbs rem step fuel (n + 1) else return n

/-- `get_number_header_lines` (`text.py:256-317`). -/
def headerLines [UnicodeDB] (doc : List Str) (pbs : List Nat) : Py Nat :=
  let rem := pbs.length - 1
  if 2 < rem then headLoop doc pbs rem (if 3 < rem then 2 else 1) (doc.length + 1) 0 else .ok 0

/-- Inner loop of `get_number_footer_lines` (`text.py:351-370`). The position cannot be negative,
because it is not negative for the earlier page break. -/
def footInner [UnicodeDB] (doc : List Str) (empty : Bool) (words : List Str) (n : Nat) : List Nat → Py Bool
  | [] => .ok true
  | p :: ps => do
    let line ← getIdx doc (p - n - 1)
    if lineAgrees empty words line then footInner doc empty words n ps else return false

/-- Outer loop of `get_number_footer_lines` (`text.py:336-374`) with `n` footer lines so far. -/
def footLoop [UnicodeDB] (doc : List Str) (pbs : List Nat) : Nat → Nat → Py Nat
  | 0, _ => .error (.other 99)
  | fuel + 1, n => do
    let p ← getIdx pbs 1
    if p < n + 1 || doc.length < p - n then return n
    else do
      let line ← getIdx doc (p - n - 1)
      let keep ← footInner doc (isspace line) (wordsOf line) n (pbs.drop 2)
      if keep then footLoop doc pbs fuel (n + 1) else return n

/-- `get_number_footer_lines` (`text.py:320-375`). -/
def footerLines [UnicodeDB] (doc : List Str) (pbs : List Nat) : Py Nat :=
  if 2 < pbs.length then footLoop doc pbs (doc.length + 1) 0 else .ok 0

/-- `page_lens` (`text.py:394-397`). -/
def pageLens : List Nat → List Nat
  | p :: q :: r => (q - p) :: pageLens (q :: r)
  | _ => []

/-- `for _ in range(n): doc[a:a+1] = []` (`text.py:407-408`, `413`, `415-420`). -/
def deleteAt : Nat → Nat → List Str → List Str
  | 0, _, doc => doc
  | n + 1, a, doc => deleteAt n a (doc.take a ++ doc.drop (a + 1))

/-- Loop of `strip_headers_footers_pagebreaks` (`text.py:403-420`) over the reversed positions. The
difference `p - nf` is not negative, because pages are longer than headers and footers. -/
def stripLoop (nh nf : Nat) : Bool → List Nat → List Str → List Str
  | _, [], doc => doc
  | first, p :: ps, doc =>
    let doc := if first then doc else deleteAt nh (p + 1) doc
    let doc := deleteAt 1 p doc
    let doc := if ps.isEmpty then doc else deleteAt nf (p - nf) doc
    stripLoop nh nf false ps doc

/-- `strip_headers_footers_pagebreaks` (`text.py:378-421`); the smallest page length is the head
of the sorted list. -/
def stripBoundary (doc : List Str) (pbs : List Nat) (nh nf : Nat) : List Str :=
  match pageLens pbs with
  | [] => doc
  | l :: ls => if nh + nf + 1 < ls.foldl min l then stripLoop nh nf true pbs.reverse doc else doc

/-- `remove_page_boundary_lines` (`text.py:189-219`). -/
def removeBoundary [UnicodeDB] (doc : List Str) : Py (List Str) :=
  if !containsText doc then .ok doc
  else do
    let pbs := pageBreaks doc
    let nh ← headerLines doc pbs
    let nf ← footerLines doc pbs
    return stripBoundary doc pbs nh nf

end Py
