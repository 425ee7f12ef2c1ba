import Verif.Lemmas.Format
import Verif.Model.Strings
import Verif.Props.Engine

/-!
# The reference format changes the journal references and nothing else (C123)
-/

open Spec Py

namespace Props

/-- **C123.** For any lines, knowledge bases and linker and any two reference formats that do not ask for the last page: extraction fails with
both formats or with none, and with the same error. Otherwise there are the same number of references, with the same statistics, and each has
the same values in both under all keys except `journal_reference`; there, the same articles are written in the one and in the other format. -/
theorem C123 [UnicodeDB] (undesirable : Str → Str) (lib : Lib) (kbs : Kbs) (fmt fmt' : List FmtPart) (hf : FmtPart.key .pageEnd ∉ fmt)
    (hf' : FmtPart.key .pageEnd ∉ fmt') (link : Option Linker) (lines : List Str) :
    (∀ e, parseReferences undesirable lib kbs fmt link lines = .error e → parseReferences undesirable lib kbs fmt' link lines = .error e) ∧
    ∀ rs st, parseReferences undesirable lib kbs fmt link lines = .ok (rs, st) →
      ∃ rs', parseReferences undesirable lib kbs fmt' link lines = .ok (rs', st) ∧ All2 (SameButFormatted fmt fmt') rs rs' := by
  have h := parse_formats (undesirable := undesirable) (lib := lib) (kbs := kbs) hf hf' link lines
  generalize parseReferences undesirable lib kbs fmt link lines = x at h ⊢
  generalize parseReferences undesirable lib kbs fmt' link lines = y at h ⊢
  cases h with
  | error e => exact ⟨fun e he => he, fun rs st he => by cases he⟩
  | @ok a b h =>
    refine ⟨fun e he => (by cases he), fun rs st he => ?_⟩
    cases he
    obtain ⟨rs', st'⟩ := b
    obtain ⟨h1, h2⟩ := h
    simp only at h1 h2
    subst h2
    exact ⟨rs', rfl, h1⟩

/-- **C123** for a text. -/
theorem C123_string [UnicodeDB] (undesirable : Str → Str) (lib : Lib) (kbs : Kbs) (fmt fmt' : List FmtPart) (hf : FmtPart.key .pageEnd ∉ fmt)
    (hf' : FmtPart.key .pageEnd ∉ fmt') (link : Option Linker) (only : Bool) (source : Str) :
    (∀ e, fromString undesirable lib kbs fmt link only source = .error e → fromString undesirable lib kbs fmt' link only source = .error e) ∧
    ∀ rs, fromString undesirable lib kbs fmt link only source = .ok rs →
      ∃ rs', fromString undesirable lib kbs fmt' link only source = .ok rs' ∧ All2 (SameButFormatted fmt fmt') rs rs' := by
  have h := C123 undesirable lib kbs fmt fmt' hf hf' link
  unfold fromString
  generalize parseReferences undesirable lib kbs fmt link = f at h ⊢
  generalize parseReferences undesirable lib kbs fmt' link = g at h ⊢
  generalize stringLines only source = x
  cases x with
  | error x => exact ⟨fun e he => he, fun rs he => by cases he⟩
  | ok lines =>
    obtain ⟨h1, h2⟩ := h lines
    simp only [bind, Except.bind]
    cases hp : f lines with
    | error x =>
      rw [h1 x hp]
      exact ⟨fun e he => he, fun rs he => by cases he⟩
    | ok p =>
      obtain ⟨rs', k1, k2⟩ := h2 p.1 p.2 hp
      rw [k1]
      refine ⟨fun e he => (by cases he), fun rs he => ⟨rs', rfl, ?_⟩⟩
      cases he
      exact k2

/-! ### Instances -/

/-- One line in the default format and in the format that the package's own functions for lists use. -/
example : ((@parseReferences asciiDB id plainLib journalKbs defaultFormat none [py! "[3] Phys. Lett. 12 (1990) 34"]).map fun p => p.1.map fun r => vals r (py! "journal_reference"))
      = .ok [[py! "Phys.Lett. 12 (1990) 34"]] ∧
    ((@parseReferences asciiDB id plainLib journalKbs commaFormat none [py! "[3] Phys. Lett. 12 (1990) 34"]).map fun p => p.1.map fun r => vals r (py! "journal_reference"))
      = .ok [[py! "Phys.Lett.,12,34"]] := by
  constructor <;> decide +kernel

example : FmtPart.key .pageEnd ∉ defaultFormat ∧ FmtPart.key .pageEnd ∉ commaFormat := by decide

/-- A format that asks for the last page can fail where the default format does not: the restriction is needed. -/
example : ((@parseReferences asciiDB id plainLib journalKbs [.key .title, .lit (py! " "), .key .pageEnd] none [py! "[3] Phys. Lett. 12 (1990) 34"]).map fun p => p.2)
      = .error .keyError := by decide +kernel

end Props
