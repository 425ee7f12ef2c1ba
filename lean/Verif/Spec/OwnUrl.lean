import Verif.Spec.Tag

/-!
# Specification of the text in which URLs are looked for (C125)
-/

namespace Spec
open Py

/-- `t` is the end of the line, with texts that cite a DOI replaced by the mark. -/
def DoisOut [UnicodeDB] (line t : Str) : Prop :=
  ∃ lead gaps ws, line = lead ++ interleave gaps ws ∧ t = interleave gaps (ws.map fun _ => py! "<cds.DOI />") ∧ ∀ w ∈ ws, ∃ d, CitesDoi w d

end Spec
