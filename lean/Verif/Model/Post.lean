import Verif.Model.Split
import Verif.Model.Books
import Verif.Model.Numeration

/-!
# Steps after splitting

Model of `/repo/refextract/references/engine.py:438-557`, `664-689` and `692-776`. The same
dictionary may sit in two citations, so elements live in a heap and a citation is a list of
identifiers.
-/

namespace Py

/-- The dictionaries reachable from the citations; `next` is the first unused identifier. -/
structure Heap where
  get : Nat → El
  next : Nat

/-- Mutation of one dictionary. -/
def Heap.set (h : Heap) (i : Nat) (e : El) : Heap :=
  { h with get := fun j => if j = i then e else h.get j }

/-- A new dictionary: the heap and its identifier. -/
def Heap.alloc (h : Heap) (e : El) : Heap × Nat :=
  ({ get := fun j => if j = h.next then e else h.get j, next := h.next + 1 }, h.next)

/-- The elements of a citation. -/
def Heap.els (h : Heap) (c : List Nat) : List El := c.map h.get

/-- The heap holding the objects of the split citations. -/
def heapOf (cs : List (List Obj)) : Heap :=
  let objs := cs.flatten
  { get := fun i => ((objs.find? (·.id == i)).map (·.el)).getD { ty := .misc, misc := [] },
    next := (objs.map (·.id)).foldl max 0 + 1 }

/-- A pass over the citations whose body changes the heap and the citation. -/
def eachCit (f : Heap → List Nat → Py (Heap × List Nat)) : Heap → List (List Nat) → Py (Heap × List (List Nat))
  | h, [] => .ok (h, [])
  | h, c :: cs => do
    let (h, c) ← f h c
    let (h, cs) ← eachCit f h cs
    return (h, c :: cs)

/-! ### Implied ibids -/

/-- `numeration["page"] or numeration["jinst_page"]` (`engine.py:497`): there is no key
`jinst_page`, so an empty page is a `KeyError`. -/
def ibidPage (n : Numeration) : Py Str :=
  match n.page with
  | some (c :: s) => .ok (c :: s)
  | _ => .error .keyError

/-- `series + volume` or `volume` (`engine.py:484-492`). -/
def ibidVolume [UnicodeDB] (n : Numeration) (journal : El) : Py Val := do
  let series ← match n.series with
    | some (c :: s) => pure (some (c :: s))
    | _ => do
      let v ← getStr journal.volume
      pure (extractSeries v)
  match series with
  | some (c :: s) => match n.volume with
    | some v => return some (c :: s ++ v)
    | none => .error .typeError
  | _ => return n.volume

/-- Inner loop of `look_for_implied_ibids` (`engine.py:479-503`). The loop also visits the
elements appended by its own body; these are journals, on which the body does nothing, so
the model visits the original elements only. `acc` collects the appended elements. -/
def ibidLoop [UnicodeDB] (journal : Nat) : Heap → List Nat → List Nat → Py (Heap × List Nat)
  | h, acc, [] => .ok (h, acc)
  | h, acc, i :: is =>
    let el := h.get i
    if el.ty = .misc then do
      match ← findNumeration el.misc with
      | none => ibidLoop journal h acc is
      | some n => do
        let j := h.get journal
        let volume ← ibidVolume n j
        let title ← getKey j.title
        let page ← ibidPage n
        let (h, new) := h.alloc { ty := .journal, misc := [], title := some title, volume := some volume,
                                  year := some n.year, page := some (some page), pageEnd := some n.pageEnd,
                                  isIbid := some true, extraIbids := some [] }
        let h := h.set i { el with misc := el.misc.drop n.len }
        ibidLoop journal h (acc ++ [new]) is
    else ibidLoop journal h acc is

/-- The last journal of a citation (`engine.py:505-508`). -/
def lastJournal (h : Heap) (c : List Nat) : Option Nat := (c.reverse).find? fun i => (h.get i).ty = .journal

/-- Loop body of `look_for_implied_ibids` (`engine.py:477-503`). -/
def ibidStep [UnicodeDB] (cur : Option Nat) (h : Heap) (c : List Nat) : Py (Heap × List Nat) :=
  match cur with
  | some j =>
    if c.any fun i => (h.get i).ty = .journal then .ok (h, c)
    else do
      let (h, new) ← ibidLoop j h [] c
      return (h, c ++ new)
  | none => .ok (h, c)

/-- `look_for_implied_ibids` (`engine.py:471-509`) with its variable `current_journal`. -/
def impliedIbids [UnicodeDB] : Option Nat → Heap → List (List Nat) → Py (Heap × List (List Nat))
  | _, h, [] => .ok (h, [])
  | cur, h, c :: cs => do
    let (h, c) ← ibidStep cur h c
    let (h, cs) ← impliedIbids (lastJournal h c) h cs
    return (h, c :: cs)

/-! ### Years -/

/-- The year of the first journal, or book with a year (`engine.py:444-448`); `KeyError` for
a journal without the key. -/
def firstDated (es : List El) : Py Val :=
  match es.find? fun e => e.ty = .journal || (e.ty = .book && e.year.isSome) with
  | none => .ok none
  | some e => getKey e.year

/-- The year in the last miscellaneous text that has one (`engine.py:450-454`). -/
def lastMiscYear [UnicodeDB] (es : List El) : Val :=
  es.foldl (fun y e => match search Rx.re_year_in_misc_txt e.misc with
    | some m => some m.txt
    | none => y) none

/-- The year of a citation (`engine.py:443-454`); the result is not empty. -/
def citationYear [UnicodeDB] (es : List El) : Py (Option Str) := do
  match ← firstDated es with
  | some (c :: s) => return some (c :: s)
  | _ => return orElse (lastMiscYear es) none

/-- The loop removing the year from the texts (`engine.py:464-466`). -/
def removeYearLoop [UnicodeDB] (year : Str) : Heap → List Nat → Heap
  | h, [] => h
  | h, i :: is =>
    let el := h.get i
    removeYearLoop year (if contains el.misc year then h.set i { el with misc := removeYear el.misc year } else h) is

/-- Body of `add_year_elements` (`engine.py:440-466`). The first loop of the Python body has no
effect. -/
def addYear [UnicodeDB] (h : Heap) (c : List Nat) : Py (Heap × List Nat) := do
  match ← citationYear (h.els c) with
  | none => return (h, c)
  | some y =>
    let (h, i) := h.alloc { ty := .year, misc := [], year := some (some y) }
    return (removeYearLoop y h (c ++ [i]), c ++ [i])

/-! ### Books -/

/-- `year_from_citation` (`engine.py:692-700`). -/
def yearFromCitation (es : List El) : Py Val :=
  match es.find? (·.ty = .year) with
  | some e => getKey e.year
  | none => .ok none

/-- `is_unknown_citation` (`engine.py:822-827`). -/
def isUnknown (es : List El) : Bool :=
  es.all fun e => !(e.ty == .book || e.ty == .journal || e.ty == .doi || e.ty == .isbn || e.ty == .recid)

/-- `get_possible_author_names` (`engine.py:772-776`) up to whether it raises; its result does
not influence the outcome, because `book_found` is already true (`engine.py:734-739`). -/
def possibleAuthors (es : List El) : Py Unit :=
  match es.find? (·.ty = .auth) with
  | some e => do
    let _ ← getKey e.authTxt
    return ()
  | none => .ok ()

/-- Inner loop of `search_for_book_in_misc` (`engine.py:716-765`) over the titles: the book
element and the new text, if a book is found in `misc`. -/
def bookInMisc [UnicodeDB] (books : Books) (es : List El) (year : Val) (misc : Str) :
    List Str → Py (Option (El × Str))
  | [] => .ok none
  | title :: titles =>
    match findIgnoring misc title with
    | none => bookInMisc books es year misc titles
    | some start => do
      let line ← getKey (lookup books (upper title))
      let y2 ← getIdx line 2
      let bookYear := stripP (inSet [';']) y2
      let authors ← getIdx line 0
      if year = some bookYear then do
        possibleAuthors es
        let t ← getIdx line 1
        let cut ← cutSubstring misc title start
        return some ({ ty := .book, misc := [], authors := some authors, title := some t,
                       year := some (some bookYear) }, removeYear cut bookYear)
      else bookInMisc books es year misc titles

/-- `search_for_book_in_misc` (`engine.py:709-769`) from the citation element `is` on. -/
def bookSearch [UnicodeDB] (books : Books) (year : Val) (h : Heap) (c : List Nat) :
    List Nat → Py (Heap × List Nat)
  | [] => .ok (h, c)
  | i :: is => do
    let el := h.get i
    match ← bookInMisc books (h.els c) year el.misc (books.map (·.1)) with
    | none => bookSearch books year h c is
    | some (b, misc) =>
      let (h, new) := h.alloc b
      return (h.set i { el with misc := misc }, c ++ [new])

/-- Body of `look_for_undetected_books` (`engine.py:704-706`). -/
def undetectedBooks [UnicodeDB] (books : Books) (h : Heap) (c : List Nat) : Py (Heap × List Nat) :=
  if isUnknown (h.els c) then do
    let y ← yearFromCitation (h.els c)
    bookSearch books y h c c
  else .ok (h, c)

/-! ### Linking, duplicates and record ids -/

/-- `associate_recids` (`engine.py:292-298`) on one citation. -/
def associateLoop (link : Linker) : Heap → List Nat → Py Heap
  | h, [] => .ok h
  | h, i :: is => do
    let e ← associate1 link (h.get i)
    associateLoop link (h.set i e) is

/-- Body of the linking loop (`engine.py:674-677`). -/
def associateCit (link : Linker) (h : Heap) (c : List Nat) : Py (Heap × List Nat) := do
  let h ← associateLoop link h c
  return (h, c)

/-- Inner loop of `remove_duplicated_authors` (`engine.py:514-521`) with `found_author`. -/
def dupAuthors : Bool → Heap → List Nat → Py Heap
  | _, h, [] => .ok h
  | found, h, i :: is =>
    let el := h.get i
    if el.ty = .auth then
      if found then do
        let a ← getKey el.authTxt
        dupAuthors true (h.set i { el with ty := .misc, misc := el.misc ++ [' '] ++ a }) is
      else dupAuthors true h is
    else dupAuthors found h is

/-- Body of `remove_duplicated_authors` (`engine.py:512-523`). -/
def dupAuthorsCit (h : Heap) (c : List Nat) : Py (Heap × List Nat) := do
  let h ← dupAuthors false h c
  return (h, c)

/-- `citation.remove(el)`: drop the first element *equal* to `el`. -/
def removeEq (h : Heap) (e : El) (c : List Nat) : List Nat := c.eraseP fun i => h.get i = e

/-- Inner loop of `remove_duplicated_dois` (`engine.py:528-534`): the snapshot is the last
argument, the citation being changed the one before. -/
def dupDois (h : Heap) : Bool → List Nat → List Nat → List Nat
  | _, c, [] => c
  | found, c, i :: is =>
    if (h.get i).ty = .doi then
      if found then dupDois h true (removeEq h (h.get i) c) is else dupDois h true c is
    else dupDois h found c is

/-- Inner loop of `remove_duplicated_collaborations` (`engine.py:541-547`). -/
def dupCollabs (h : Heap) : List Str → List Nat → List Nat → Py (List Nat)
  | _, c, [] => .ok c
  | seen, c, i :: is =>
    if (h.get i).ty = .collaboration then do
      let k ← getKey (h.get i).collaboration
      if seen.contains k then dupCollabs h seen (removeEq h (h.get i) c) is
      else dupCollabs h (seen ++ [k]) c is
    else dupCollabs h seen c is

/-- Body of `remove_duplicated_dois` (`engine.py:526-536`). -/
def dupDoisCit (h : Heap) (c : List Nat) : Py (Heap × List Nat) := .ok (h, dupDois h false c c)

/-- Body of `remove_duplicated_collaborations` (`engine.py:539-549`). -/
def dupCollabsCit (h : Heap) (c : List Nat) : Py (Heap × List Nat) := do
  let c ← dupCollabs h [] c c
  return (h, c)

/-- Truth value of `el.get("recid", None)` (`engine.py:555`). -/
def hasRecid (e : El) : Bool :=
  match e.recid with
  | some (some r) => r.truthy
  | _ => false

/-- Body of `add_recid_elements` (`engine.py:552-557`). -/
def addRecid (h : Heap) (c : List Nat) : Py (Heap × List Nat) :=
  match c.find? fun i => hasRecid (h.get i) with
  | some i =>
    let (h, new) := h.alloc { ty := .recid, misc := [], recid := (h.get i).recid }
    .ok (h, c ++ [new])
  | none => .ok (h, c)

/-- The steps removing duplicates and adding record ids (`engine.py:685-688`). -/
def dedupe (h : Heap) (cs : List (List Nat)) : Py (Heap × List (List Nat)) := do
  let (h, cs) ← eachCit dupAuthorsCit h cs
  let (h, cs) ← eachCit dupDoisCit h cs
  let (h, cs) ← eachCit dupCollabsCit h cs
  eachCit addRecid h cs

/-- The steps adding elements (`engine.py:668-677`). -/
def enrich [UnicodeDB] (books : Books) (link : Option Linker) (h : Heap) (cs : List (List Nat)) :
    Py (Heap × List (List Nat)) := do
  let (h, cs) ← impliedIbids none h cs
  let (h, cs) ← eachCit addYear h cs
  let (h, cs) ← eachCit (undetectedBooks books) h cs
  match link with
  | some l => eachCit (associateCit l) h cs
  | none => return (h, cs)

/-- Everything that `parse_reference_line` does after parsing the tagged line
(`engine.py:646-688`). -/
def postProcess [UnicodeDB] (special : List Str) (books : Books) (link : Option Linker) (els : List El) :
    Py (List (List El)) := do
  let els ← transformElements special books link els
  let objs := splitCitations els
  let (h, cs) ← enrich books link (heapOf objs) (objs.map fun c => c.map (·.id))
  let (h, cs) ← dedupe h cs
  return cs.map h.els

end Py
