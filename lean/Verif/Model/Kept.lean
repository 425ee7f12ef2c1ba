import Verif.Model.Strings

/-!
# The knowledge bases that are kept from one line to the next

`tag_reference_line` changes the dictionary of standard titles in place (`tag.py:124-125`). The knowledge
bases are loaded once and kept (`kbs.py:55-70`), so that every line and every later call sees the changed
dictionary.
-/

namespace Py

/-- `standardised_titles.update(kbs["journals_re"])` (`tag.py:124-125`). -/
def updateStd (kbs : Kbs) : Kbs :=
  { kbs with tag := { kbs.tag with journalStd := dupdate kbs.tag.journalStd (kbs.tag.journalsRe.map fun p => (p.1, p.2.2)) } }

/-- The knowledge bases after a line (`engine.py:614-689`, `tag.py:88-125`): they are updated unless the
steps before the update raise. -/
def keptAfter [UnicodeDB] (undesirable : Str → Str) (lib : Lib) (kbs : Kbs) (raw : Str) : Kbs :=
  match tagFixed lib (tagUrls (tagDois lib (removeMarker (washRepair undesirable raw)).2).1).1 with
  | .ok _ => updateStd kbs
  | .error _ => kbs

/-- The loop of `parse_references_elements` (`engine.py:879-899`) with the knowledge bases that it leaves. -/
def elementsKept [UnicodeDB] (undesirable : Str → Str) (lib : Lib) (link : Option Linker) :
    Kbs → List Str → List ParsedLine × List (Str × Nat) × List (Str × Nat) →
      Py (List ParsedLine × List (Str × Nat) × List (Str × Nat)) × Kbs
  | kbs, [], st => (.ok st, kbs)
  | kbs, l :: ls, st =>
    match elementsStep undesirable lib kbs link st l with
    | .ok st => elementsKept undesirable lib link (keptAfter undesirable lib kbs l) ls st
    | .error e => (.error e, keptAfter undesirable lib kbs l)

/-- `parse_references` (`engine.py:1500-1522`) with the knowledge bases that it leaves. -/
def parseReferencesKept [UnicodeDB] (undesirable : Str → Str) (lib : Lib) (kbs : Kbs) (fmt : List FmtPart) (link : Option Linker)
    (lines : List Str) : Py (List Field × List Nat) × Kbs :=
  let r := elementsKept undesirable lib link kbs lines ([], ({} : Counts).dict, [])
  (do
    let (cs, counts, _) ← r.1
    let refs ← buildReferences fmt cs
    let stats ← buildStats counts
    return (refs, stats), r.2)

/-- What a call is given: the journals to be found by regular expression, which the caller may replace
(`kbs.py:62-64`), the format, the linker and the lines. -/
structure Call where
  res : List (Str × Re × Str)
  fmt : List FmtPart
  link : Option Linker
  lines : List Str

/-- The knowledge bases for a call: `get_kbs` (`kbs.py:66-70`) loads the journals given by regular expression
again if they are others than before, and hands out the kept dictionary of titles. The other knowledge bases
are the same in all calls. -/
def kbsFor (kbs : Kbs) (res : List (Str × Re × Str)) : Kbs := { kbs with tag := { kbs.tag with journalsRe := res } }

/-- One call: what it returns, and the knowledge bases that it leaves. -/
def runCall [UnicodeDB] (undesirable : Str → Str) (lib : Lib) (kbs : Kbs) (c : Call) : Py (List Field × List Nat) × Kbs :=
  parseReferencesKept undesirable lib (kbsFor kbs c.res) c.fmt c.link c.lines

/-- The knowledge bases after a number of calls. -/
def afterCalls [UnicodeDB] (undesirable : Str → Str) (lib : Lib) (kbs : Kbs) (calls : List Call) : Kbs :=
  calls.foldl (fun k c => (runCall undesirable lib k c).2) kbs

end Py
