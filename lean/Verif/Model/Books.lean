import Verif.Model.Transform

/-!
# Years and books in miscellaneous text

Model of `/repo/refextract/references/regexs.py:1105-1110` and
`/repo/refextract/references/engine.py:692-827`.
-/

namespace Py

/-- The pattern text for the year: the literal year, or any year when it is empty
(`regexs.py:1106`). -/
def yearRe (year : Str) : Re :=
  if year.isEmpty then (Re.alts [.str (py! "19"), .str (py! "20")]) ⬝ (Re.times 2 Re.digit) else .str year

/-- `remove_year` (`regexs.py:1105-1110`); an absent argument is the empty string. -/
def removeYear [UnicodeDB] (s year : Str) : Str :=
  let s := sub (Rx.remove_year_0 (yearRe year)) (fun _ => []) s
  let s := sub (Rx.remove_year_1 (yearRe year)) (fun _ => []) s
  sub (Rx.remove_year_2 (yearRe year)) (fun _ => []) s

/-- The class `[A-Z0-9]` (`engine.py:782`, `788`, `806`). -/
def isAlnumUp (c : Char) : Bool := isAsciiUpper c || isAsciiDigit c

/-- `re.subn("[^A-Z0-9]", "", s.upper())[0]` (`engine.py:780-783`). -/
def cleanUp [UnicodeDB] (s : Str) : Str := (upper s).filter isAlnumUp

/-- The loop computing the real index (`engine.py:786-793`): `i` letters and digits have been
seen, `n` is how many may be passed. -/
def realIndex (n : Nat) : Nat → Str → Nat
  | _, [] => 0
  | i, c :: cs =>
    let i := if isAlnumUp c then i + 1 else i
    if n < i then 0 else realIndex n i cs + 1

/-- `find_substring_ignore_special_chars` (`engine.py:779-798`); `none` for -1. -/
def findIgnoring [UnicodeDB] (s substr : Str) : Option Nat :=
  match find (cleanUp substr) (cleanUp s) with
  | some i => some (realIndex i 0 (upper s))
  | none => none

/-- Loop of `cut_substring_with_special_chars` (`engine.py:807-819`) over the rest of the
upper-cased text: the value of `counter` when the whole of `clean` has been met, `none`
when the text ends before. -/
def cutLoop (clean : Str) : Nat → Nat → Str → Py (Option Nat)
  | _, _, [] => .ok none
  | pos, counter, c :: cs =>
    match clean[pos]? with
    | none => .error .indexError
    | some d =>
      let pos := if c = d then pos + 1 else pos
      if clean.length ≤ pos then .ok (some (counter + 1)) else cutLoop clean pos (counter + 1) cs

/-- Characters that end the tail of a book title: the class `[ [{(a-zA-Z0-9]`
(`engine.py:816`). -/
def cutStop (c : Char) : Bool :=
  c == ' ' || c == '[' || c == '{' || c == '(' || isAsciiLower c || isAsciiUpper c || isAsciiDigit c

/-- `cut_substring_with_special_chars` (`engine.py:801-819`). The Python function returns
`None` when the loop ends, and the caller then fails with a `TypeError` in `re.sub`. -/
def cutSubstring [UnicodeDB] (s sub : Str) (start : Nat) : Py Str := do
  match ← cutLoop (cleanUp sub) 0 0 ((upper s).drop start) with
  | none => .error .typeError
  | some counter =>
    let counter := counter + ((s.drop (start + counter)).takeWhile fun c => !cutStop c).length
    return strip (s.take start) ++ [' '] ++ strip (s.drop (start + counter))

end Py
