import Verif.Model.Element
import Verif.Gen.Regexs

/-!
# Transformations of the citation elements before splitting

Model of `/repo/refextract/references/engine.py:113-298` and `560-599`. A function that
mutates the elements of a list in place is a function on one element; `eachEl` applies
it to all of them in order.
-/

namespace Py

/-- `for el in citation_elements: ...` with a body that only mutates `el`. -/
def eachEl (f : El → Py El) : List El → Py (List El)
  | [] => .ok []
  | e :: es => do
    let e' ← f e
    let es' ← eachEl f es
    return e' :: es'

/-- `10 ** (205558 % ord(r) % 7) % 9995` (`engine.py:122`); `ZeroDivisionError` on NUL. -/
def romanDigit (r : Char) : Py Nat :=
  if r.toNat = 0 then .error (.other 0) else .ok (10 ^ (205558 % r.toNat % 7) % 9995)

/-- Loop of `roman2arabic` (`engine.py:119-124`) with its variables `t` and `p`.
`2 * p % n` is less than `n`, so natural subtraction is exact; `n` is never 0. -/
def romanLoop (t p : Nat) : Str → Py Nat
  | [] => .ok t
  | r :: rs => do
    let n ← romanDigit r
    romanLoop (t + (n - 2 * p % n)) n rs

/-- `roman2arabic` (`engine.py:113-125`). -/
def roman2arabic (num : Str) : Py Nat := romanLoop 0 0 num

/-- Body of `format_volume` (`engine.py:137-140`). -/
def formatVolume1 [UnicodeDB] (e : El) : Py El :=
  if e.ty = .journal then do
    let v ← getStr e.volume
    match reMatch Rx.roman_end v with
    | some _ => do
      let n ← roman2arabic (upper v)
      return { e with volume := some (some (natStr n)) }
    | none => return e
  else return e

/-- `s[-2:]` -/
def lastTwo (s : Str) : Str := s.drop (s.length - 2)

/-- Body of `handle_special_journals` (`engine.py:150-166`); `special` is the list of keys
of `kbs["special_journals"]`. -/
def specialJournal1 [UnicodeDB] (special : List Str) (e : El) : Py El :=
  if e.ty = .journal then do
    let title ← getKey e.title
    if special.contains title then do
      let vol ← getStr e.volume
      let e ← match reMatch Rx.two_digits_end vol with
        | some _ => do
          let year ← getKey e.year
          let e ← if year = some [] then do
              let page ← getStr e.page
              match reMatch Rx.year_end page with
              | some _ => pure { e with ty := .misc, misc := title ++ [','] ++ vol ++ [','] ++ page }
              | none => pure e
            else pure e
          let year ← getStr e.year
          let n ← pyInt vol
          pure { e with volume := some (some (lastTwo year ++ padNat 2 n)) }
        | none => pure e
      let page ← getStr e.page
      if isdigit page then do
        let n ← pyInt page
        return { e with page := some (some (padNat 3 n)) }
      else return e
    else return e
  else return e

/-- `format_report_number` on the string (`engine.py:179-183`). -/
def formatReport [UnicodeDB] (s : Str) : Str :=
  match reMatch Rx.re_report s with
  | some m =>
    match m.group G.name, m.group G.nums with
    | some name, some nums => if endsWith name ['-'] then s else name ++ ['-'] ++ nums
    | _, _ => s  -- unreachable: both groups are mandatory
  | none => s

/-- Body of `format_report_number` (`engine.py:177-183`). -/
def formatReportNumber1 [UnicodeDB] (e : El) : Py El :=
  if e.ty = .reportnumber then do
    let r ← getKey e.reportNum
    return { e with reportNum := some (formatReport r) }
  else return e

/-- `prefixes` (`engine.py:192`). -/
def hepPrefixes : List Str :=
  [py! "astro-ph-", py! "hep-th-", py! "hep-ph-", py! "hep-ex-", py! "hep-lat-", py! "math-ph-"]

/-- Inner loop body of `format_hep` (`engine.py:196-201`). -/
def formatHep1 (s p : Str) : Str :=
  if startsWith s p then s.take (p.length - 1) ++ ['/'] ++ s.drop p.length else s

/-- `format_hep` on the string (`engine.py:195-201`). -/
def formatHepStr (s : Str) : Str := hepPrefixes.foldl formatHep1 s

/-- Body of `format_hep` (`engine.py:193-201`). -/
def formatHepEl (e : El) : Py El :=
  if e.ty = .reportnumber then do
    let r ← getKey e.reportNum
    return { e with reportNum := some (formatHepStr r) }
  else return e

/-- Body of `format_author_ed` (`engine.py:210-213`). -/
def formatAuthorEd1 (e : El) : Py El :=
  if e.ty = .auth then do
    let a ← getKey e.authTxt
    let a := replace a (py! "(ed. )") (py! "(ed.)")
    return { e with authTxt := some (replace a (py! "(eds. )") (py! "(eds.)")) }
  else return e

/-- `kbs["books"]`: a dictionary from upper-cased titles to rows of the knowledge base,
in insertion order (`/repo/refextract/references/kbs.py:401-407`). -/
abbrev Books := List (Str × List Str)

/-- `d.get(k)` on an association list with distinct keys. -/
def lookup {α : Type} (d : List (Str × α)) (k : Str) : Option α := (d.find? (·.1 = k)).map (·.2)

/-- `line[i]`, `IndexError` outside. -/
def getIdx {α : Type} (l : List α) (i : Nat) : Py α :=
  match l[i]? with
  | some a => .ok a
  | none => .error .indexError

/-- The book element made from a row (`engine.py:232-238`). -/
def bookElement (line : List Str) : Py El := do
  let a ← getIdx line 0
  let t ← getIdx line 1
  let y ← getIdx line 2
  return { ty := .book, misc := [], authors := some a, title := some t,
           year := some (some (stripP (inSet [';']) y)) }

/-- `look_for_books` (`engine.py:217-243`). `citation_elements.remove(title)` removes the
first element equal to `title`; that is `title` itself, the first quoted element. -/
def lookForBooks [UnicodeDB] (books : Books) (es : List El) : Py (List El) :=
  match es.find? (·.ty = .quoted) with
  | none => .ok es
  | some t => do
    let title ← getKey t.title
    match lookup books (upper title) with
    | none => return es
    | some line => do
      let b ← bookElement line
      return (es ++ [b]).erase t

/-- Body of `split_volume_from_journal` (`engine.py:253-256`). -/
def splitVolume1 (e : El) : Py El :=
  if e.ty = .journal then do
    let title ← getKey e.title
    match rsplit1 ';' title with
    | some (t, series) => do
      let v ← getStr e.volume
      return { e with title := some t, volume := some (some (series ++ v)) }
    | none => return e
  else return e

/-- Body of `remove_b_for_nucl_phys` (`engine.py:266-273`). -/
def removeB1 (e : El) : Py El :=
  if e.ty = .journal then do
    let title ← getKey e.title
    if title = py! "Nucl.Phys.Proc.Suppl." then
      match e.volume with
      | none => return e
      | some v => do
        let v ← getStr (some v)
        if startsWith v ['b'] || startsWith v ['B'] then return { e with volume := some (some (v.drop 1)) }
        else return e
    else return e
  else return e

/-- `mangle_volume` on the string (`engine.py:285-287`). -/
def mangleStr [UnicodeDB] (v : Str) : Str :=
  match reMatch Rx.volume_re v with
  | some m =>
    match m.group 2, m.group 1 with
    | some b, some a => b ++ a
    | _, _ => v  -- unreachable: both groups are mandatory
  | none => v

/-- Body of `mangle_volume` (`engine.py:283-287`). -/
def mangleVolume1 [UnicodeDB] (e : El) : Py El :=
  if e.ty = .journal then do
    let v ← getStr e.volume
    return { e with volume := some (some (mangleStr v)) }
  else return e

/-- Body of `arxiv_urls_to_report_numbers` (`engine.py:561-565`). -/
def arxivUrl1 (e : El) : Py El :=
  if e.ty = .url then do
    let u ← getKey e.urlString
    if startsWith u (py! "http://arxiv.org/abs/") then
      return { e with ty := .reportnumber,
                      reportNum := some (replace u (py! "http://arxiv.org/abs/") (py! "arXiv:")) }
    else return e
  else return e

/-- Insert `x` after the first element equal to `e`, if there is one. -/
def insertAfter (e x : El) : List El → Option (List El)
  | [] => none
  | y :: ys => if y = e then some (y :: x :: ys) else (insertAfter e x ys).map (y :: ·)

/-- Inner loop of `look_for_hdl` (`engine.py:576-583`) over the reversed matches. `done`
is the part of the list in front of `el`, `after` what has been inserted behind it.
`citation_elements.index(el)` finds the first *equal* element, which may be in front. -/
def hdlLoop : List El → El → List El → List Match → List El × El × List El
  | done, el, after, [] => (done, el, after)
  | done, el, after, m :: ms =>
    let hdl : El := { ty := .hdl, misc := el.misc.drop m.stop, hdlId := m.group G.hdl_id }
    let el := { el with misc := el.misc.take m.start }
    match insertAfter el hdl done with
    | some done => hdlLoop done el after ms
    | none => hdlLoop done el (hdl :: after) ms

/-- Outer loop of `look_for_hdl` (`engine.py:574-583`) over a snapshot of the list. -/
def hdlGo [UnicodeDB] : List El → List El → List El
  | done, [] => done
  | done, el :: es =>
    let r := hdlLoop done el [] (finditer Rx.re_hdl el.misc).reverse
    hdlGo (r.1 ++ r.2.1 :: r.2.2) es

/-- `look_for_hdl` (`engine.py:568-583`). -/
def lookForHdl [UnicodeDB] (es : List El) : List El := hdlGo [] es

/-- Body of `look_for_hdl_urls` (`engine.py:592-599`). -/
def hdlUrl1 [UnicodeDB] (e : El) : Py El :=
  if e.ty = .url then do
    let u ← getKey e.urlString
    match reMatch Rx.re_hdl u with
    | some m => do
      let _ ← getKey e.urlDesc  -- `del el["url_desc"]`
      return { e with ty := .hdl, hdlId := m.group G.hdl_id, urlDesc := none, urlString := none }
    | none => return e
  else return e

/-- The linker callback: any function of an element that may return or raise
(`engine.py:295`). A callback with memory or that changes the element is outside the
model. -/
abbrev Linker := El → Py (Option RecId)

/-- Body of `associate_recids` (`engine.py:293-297`). -/
def associate1 (link : Linker) (e : El) : Py El :=
  match link e with
  | .ok r => .ok { e with recid := some r }
  | .error .indexError => .ok { e with recid := some none }
  | .error .keyError => .ok { e with recid := some none }
  | .error x => .error x

/-- The transformations in the order of `engine.py:646-661`. -/
def transformElements [UnicodeDB] (special : List Str) (books : Books) (link : Option Linker)
    (es : List El) : Py (List El) := do
  let es ← eachEl splitVolume1 es
  let es ← eachEl formatVolume1 es
  let es ← eachEl (specialJournal1 special) es
  let es ← eachEl formatReportNumber1 es
  let es ← eachEl formatAuthorEd1 es
  let es ← lookForBooks books es
  let es ← eachEl formatHepEl es
  let es ← eachEl removeB1 es
  let es ← eachEl mangleVolume1 es
  let es ← eachEl arxivUrl1 es
  let es := lookForHdl es
  let es ← eachEl hdlUrl1 es
  match link with
  | some l => eachEl (associate1 l) es
  | none => return es

end Py
