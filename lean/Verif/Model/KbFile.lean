import Verif.Model.Kbs
import Verif.Model.Document

/-!
# Loading knowledge bases

Model of `file_resolving` (`/repo/refextract/references/kbs.py:40-52`), `load_kb` (`kbs.py:90-95`), `load_kb_from_iterable`
(`kbs.py:461-462`), `load_kb_from_file` (`kbs.py:465-481`) and of the table of loaders (`kbs.py:73-87`). A file is given by
its text, as decoded; a missing file or one that cannot be decoded is not modelled. The tables with columns (`csv.reader`) are given by
their rows in `Verif/Model/Kbs.lean`.
-/

namespace Py

/-- The lines that a file gives when it is read as text (`kbs.py:43`): all three line ends are taken for a line feed. -/
def fileLines (t : Str) : List Str := readLines (newlines t)

/-- What `file_resolving` without a reader is given (`kbs.py:40-52`): a path, or the lines themselves. -/
inductive LineSource where
  | file (text : Str)
  | items (ls : List Str)

/-- `file_resolving` without a reader (`kbs.py:40-52`). -/
def LineSource.lines : LineSource → List Str
  | .file t => fileLines t
  | .items ls => ls

/-- What `load_kb` is given (`kbs.py:90-95`): a dictionary, a path, or pairs. -/
inductive PairSource where
  | dict (d : List (Str × Str))
  | file (text : Str)
  | items (ps : List (Str × Str))

/-- The pairs that `load_kb` passes to the builder (`kbs.py:90-95`, `461-481`). A builder stops at the first error, which is one of its own
if it comes before that of the file; here the error of the file wins. -/
def loadPairs [UnicodeDB] : PairSource → Py (List (Str × Str))
  | .dict d => .ok d
  | .file t => kbPairs (fileLines t)
  | .items ps => .ok ps

/-- `load_kb(kb, build_journals_kb)` (`kbs.py:78`). -/
def loadJournals [UnicodeDB] (s : PairSource) : Py JournalKb := return buildJournals (← loadPairs s)

/-- `load_kb(kb, build_publishers_kb)` (`kbs.py:82`). -/
def loadPublishers [UnicodeDB] (compile : Str → Py Re) (s : PairSource) : Py (List (Str × Re × Str)) := do buildPublishers compile (← loadPairs s)

/-- `load_kb(kb, build_collaborations_kb)` (`kbs.py:84`). -/
def loadCollaborations [UnicodeDB] (compile : Str → Py Re) (s : PairSource) : Py (List (Str × Re)) := do buildCollaborations compile (← loadPairs s)

/-- `build_authors_kb` on a path or lines (`kbs.py:80`, `420-434`). -/
def loadAuthors [UnicodeDB] (s : LineSource) : List (Str × Str) := buildAuthors s.lines

/-- `build_journals_re_kb` on a path or lines (`kbs.py:77`, `437-458`). -/
def loadJournalsRe [UnicodeDB] (s : LineSource) : Py (List (Str × Str)) := buildJournalsRe s.lines

/-- `build_special_journals_kb` on a path or lines (`kbs.py:83`, `380-398`). -/
def loadSpecial [UnicodeDB] (s : LineSource) : List Str := buildSpecial s.lines

end Py
