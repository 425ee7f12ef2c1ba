import Verif.Model.Find
import Verif.Model.Parse
import Verif.Model.Api

/-!
# References of a string

Model of `/repo/refextract/references/api.py:167-216`, of `/repo/refextract/references/engine.py:1500-1522`
behind it, and of `/repo/refextract/extract.py:33-44`, `64-80`. The knowledge bases are given as built
(`get_kbs`, see `Verif.Model.KbCache`), the format as parsed.
-/

namespace Py

/-- The pattern of the markers of a list of references (`api.py:203-209`): that of the section found in it,
otherwise that of the first marker. Nothing else of the section is used. -/
def stringMarker [UnicodeDB] (doc : List Str) : Option Marker :=
  match sectionBeginning doc with
  | some d => d.pattern.map Marker.of
  | none => (numerationInBody doc).map fun p => Marker.of p.2

/-- The reference lines of a string (`api.py:199-209`). `only` is `is_only_references`. -/
def stringLines [UnicodeDB] (only : Bool) (source : Str) : Py (List Str) :=
  let doc := splitOn '\n' source
  if only then rebuild doc (stringMarker doc)
  else do
    let r ← extractFulltext doc
    return r.1

/-- `extract_references_from_string` (`api.py:167-216`). -/
def fromString [UnicodeDB] (undesirable : Str → Str) (lib : Lib) (kbs : Kbs) (fmt : List FmtPart) (link : Option Linker)
    (only : Bool) (source : Str) : Py (List Field) := do
  let lines ← stringLines only source
  let r ← parseReferences undesirable lib kbs fmt link lines
  return r.1

/-- `"{title},{volume},{page}"` (`extract.py:39`, `71`). -/
def commaFormat : List FmtPart := [.key .title, .lit [','], .key .volume, .lit [','], .key .page]

/-- `extract_references_from_text` (`extract.py:33-44`): `none` for the result `None`. -/
def fromText [UnicodeDB] (undesirable : Str → Str) (lib : Lib) (kbs : Kbs) (text : Str) : Option (List Field) :=
  match fromString undesirable lib kbs commaFormat none true text with
  | .ok refs => some refs
  | .error _ => none

/-- `extract_references_from_list` (`extract.py:64-80`), with the extraction that it calls; see `extractList`. -/
def fromList [UnicodeDB] (undesirable : Str → Str) (lib : Lib) (kbs : Kbs) (lines : List Str) : List Field :=
  (extractList (S := Unit) (fun s u => (fromString undesirable lib kbs commaFormat none true s, u)) () lines).1

end Py
