import Verif.Model.Kbs
import Verif.Lemmas.ReSem
import Verif.Spec.Tag
import Verif.Spec.Books

/-!
# Vocabulary for the places of recognised texts
-/

open Py

namespace Spec

/-- A character as it is compared: punctuation counts as a blank. -/
def unpunct (c : Char) : Char := if c ∈ py! ".,;'()-" then ' ' else c

/-- A slash counts as a blank when titles are looked for. -/
def unslash (c : Char) : Char := if c = '/' then ' ' else c

/-- The text `b` of a line reads as the text `t`: in capital letters, with punctuation as blanks, some
runs of blanks as one, and slashes as blanks, it is `t`. -/
def ReadsAs [UnicodeDB] (b t : Str) : Prop := ∃ u, Squeezes ((upper b).map unpunct) u ∧ t = u.map unslash

/-- `w` is `v` with some characters overwritten by underscores. -/
def Masked (w v : Str) : Prop := w.length = v.length ∧ ∀ k < v.length, w[k]? = some '_' ∨ w[k]? = v[k]?

/-- The titles to be looked for come from a knowledge base of journals, none of them empty or with an
underscore. -/
def TitleKb [UnicodeDB] (kbs : TagKbs) : Prop :=
  ∃ pairs, kbs.journalPats = (buildJournals pairs).pats ∧ kbs.journalKeys = (buildJournals pairs).keys ∧
    ∀ t ∈ kbs.journalKeys, t ≠ [] ∧ '_' ∉ t

/-- No pattern of a report number matches the empty text. -/
def ReportKbOk (kbs : TagKbs) : Prop := ∀ p ∈ kbs.reportPats, 0 < p.2.minLen

/-- The patterns of the publishers match, in capitals or not, texts as long as the names. -/
def PublisherKb [UnicodeDB] (kb : List (Str × Re × Str)) : Prop :=
  (kb.map (·.1)).Nodup ∧
  ∀ p ∈ kb, 0 < p.2.1.minLen ∧ ∀ pre w post, Sem p.2.1 pre w post → w.length = p.1.length ∧ '_' ∉ w

/-- What `re.compile` makes with `re.I` of the pattern for a publisher (`kbs.py:414`) whose name has letters,
digits and blanks only. -/
def literalName (name : Str) : Re := .group 1 (.alt .wordb .bos) ⬝ Re.strI name ⬝ .group 2 (.alt .wordb .eos)

end Spec
