import Verif.Lemmas.Linked4
import Verif.Model.Strings
import Verif.Props.ArticleDoi

/-!
# Linking adds record ids and changes nothing else (C122)
-/

open Spec Py

namespace Props

/-- **C122.** For any lines, any knowledge bases and any linker that does not look at earlier answers and raises only `KeyError` and
`IndexError`: with the linker, extraction fails just when it fails without, and with the same error. Otherwise there are the same number of
references, with the same statistics. Each is the one without the linker, or this one with one more key `recid`, which holds the text of one
answer of the linker. A reference without anything besides its line and marker apart, every reference is linked when the linker
finds a record for whatever it is asked. -/
theorem C122 [UnicodeDB] (undesirable : Str → Str) (lib : Lib) (kbs : Kbs) (fmt : List FmtPart) (link : Linker) (hl : Steady link) (lines : List Str) :
    (∀ e, parseReferences undesirable lib kbs fmt none lines = .error e → parseReferences undesirable lib kbs fmt (some link) lines = .error e) ∧
    ∀ rs st, parseReferences undesirable lib kbs fmt none lines = .ok (rs, st) →
      ∃ rs', parseReferences undesirable lib kbs fmt (some link) lines = .ok (rs', st) ∧
        All2 (fun r r' => Unlinked r ∧ SameButLinked link r r' ∧ (Finds link → r' = r → OnlyLine r)) rs rs' := by
  have key : ∀ x y, parseReferences undesirable lib kbs fmt none lines = x → parseReferences undesirable lib kbs fmt (some link) lines = y →
      Both (fun a b => All2 (Rec2 link) a.1 b.1 ∧ a.2 = b.2) x y := by
    rintro _ _ rfl rfl
    exact parse_twin hl lines
  refine ⟨fun e he => ?_, fun rs st he => ?_⟩
  · have := key _ _ he rfl
    generalize parseReferences undesirable lib kbs fmt (some link) lines = y at this
    cases this
    rfl
  · have := key _ _ he rfl
    generalize parseReferences undesirable lib kbs fmt (some link) lines = y at this
    cases this with
    | @ok _ b h =>
      obtain ⟨rs', st'⟩ := b
      obtain ⟨h1, h2⟩ := h
      simp only at h1 h2
      subst h2
      exact ⟨rs', rfl, h1⟩

/-- **C122** for a text: the references of a text, found in it or given as lines. -/
theorem C122_string [UnicodeDB] (undesirable : Str → Str) (lib : Lib) (kbs : Kbs) (fmt : List FmtPart) (link : Linker) (hl : Steady link) (only : Bool) (source : Str) :
    (∀ e, fromString undesirable lib kbs fmt none only source = .error e → fromString undesirable lib kbs fmt (some link) only source = .error e) ∧
    ∀ rs, fromString undesirable lib kbs fmt none only source = .ok rs →
      ∃ rs', fromString undesirable lib kbs fmt (some link) only source = .ok rs' ∧
        All2 (fun r r' => Unlinked r ∧ SameButLinked link r r' ∧ (Finds link → r' = r → OnlyLine r)) rs rs' := by
  have h := C122 undesirable lib kbs fmt link hl
  unfold fromString
  generalize parseReferences undesirable lib kbs fmt none = f at h ⊢
  generalize parseReferences undesirable lib kbs fmt (some link) = g at h ⊢
  generalize stringLines only source = x
  cases x with
  | error x => exact ⟨fun e he => he, fun rs he => by cases he⟩
  | ok lines =>
    obtain ⟨h1, h2⟩ := h lines
    simp only [bind, Except.bind]
    cases hp : f lines with
    | error x =>
      rw [h1 x hp]
      exact ⟨fun e he => he, fun rs he => by cases he⟩
    | ok p =>
      obtain ⟨rs', k1, k2⟩ := h2 p.1 p.2 hp
      rw [k1]
      refine ⟨fun e he => (by cases he), fun rs he => ⟨rs', rfl, ?_⟩⟩
      cases he
      exact k2

/-! ### Instances -/

/-- A linker that finds the record 77 for everything. -/
def alwaysLinker : Linker := fun _ => .ok (some ⟨true, py! "77"⟩)

theorem always_steady : Steady alwaysLinker := ⟨fun _ _ => rfl, fun _ _ h => by cases h⟩

example : ∃ r', @parseReferences asciiDB id plainLib knownKbs defaultFormat (some alwaysLinker)
        [py! "[4] see also a note, Nature 432 (2004) 27, doi: 10.1000/xyz, with a table."] = .ok ([r'], [0, 0, 1, 0, 0, 1, 1]) ∧
    vals r' (py! "recid") = [py! "77"] ∧ vals r' (py! "doi") = [py! "doi:10.1000/xyz"] ∧ vals r' (py! "journal_volume") = [py! "432"] := by
  letI := asciiDB
  obtain ⟨r, h1, h2⟩ := @C119 asciiDB id plainLib knownKbs 4 _ _ _ _ _ _ _ _ _ _ _ _ nature_line (by decide +kernel) nature_journal nature_only nature_collaborations
    (fun _ _ => rfl) (fun _ _ => rfl) rfl
  have : LeftOver (py! ", with a table.") := by decide
  rw [if_pos this] at h1
  obtain ⟨rs', k1, k2⟩ := (C122 id plainLib knownKbs defaultFormat alwaysLinker always_steady _).2 _ _ h1
  cases k2 with
  | @cons _ r' _ _ hr hn =>
    cases hn
    obtain ⟨u, s, f⟩ := hr
    have find : ∀ k, k ≠ py! "recid" → vals (r ++ [(py! "recid", [py! "77"])]) k = vals r k := by
      intro k hk
      unfold vals
      rw [List.find?_append]
      cases r.find? (·.1 = k) with
      | some p => rfl
      | none => simp [Ne.symm hk]
    have hd : vals r (py! "doi") = [py! "doi:10.1000/xyz"] := by
      rw [h2]
      decide +kernel
    have e : r' = r ++ [(py! "recid", [py! "77"])] := by
      rcases s with s | ⟨e, id, k1, -, s⟩
      · have := f (fun _ => ⟨_, rfl, rfl, by decide⟩) s
        exfalso
        unfold vals at hd
        cases hx : r.find? (·.1 = py! "doi") with
        | none => rw [hx] at hd; cases hd
        | some p =>
          have h3 := List.find?_some hx
          have h4 := this p (List.mem_of_find?_eq_some hx)
          simp only [decide_eq_true_eq] at h3
          rw [h3] at h4
          revert h4
          decide
      · cases k1
        exact s
    subst e
    refine ⟨_, k1, ?_, ?_, ?_⟩
    · unfold vals
      rw [List.find?_append]
      have : r.find? (fun x => decide (x.1 = py! "recid")) = none := by
        rw [List.find?_eq_none]
        intro p hp
        simpa using u p hp
      rw [this]
      rfl
    · rw [find _ (by decide)]; exact hd
    · rw [find _ (by decide), h2]
      decide +kernel

/-- A linker that knows DOIs, raises `KeyError` for articles and finds nothing else. -/
def doiLinker : Linker := fun e =>
  match e.ty with
  | .doi => .ok (some ⟨true, py! "77"⟩)
  | .journal => .error .keyError
  | _ => .ok none

example : Steady doiLinker := by
  refine ⟨fun e r => rfl, fun e x h => ?_⟩
  unfold doiLinker at h
  split at h
  · cases h
  · cases h; exact .inl rfl
  · cases h

set_option synthInstance.maxSize 1000 in
example : ((@parseReferences asciiDB id plainLib knownKbs defaultFormat (some doiLinker)
      [py! "[1] see doi:10.1000/xyz, and more", py! "[2] Nature 432 (2004) 27"]).map fun p => p.1.map fun r => (vals r (py! "linemarker"), vals r (py! "recid")))
    = .ok [([py! "1"], [py! "77"]), ([py! "2"], [])] := by decide +kernel

/-- Another error of the linker ends the extraction: the restriction to linkers that raise `KeyError` and `IndexError` only is needed. -/
example : ((@parseReferences asciiDB id plainLib knownKbs defaultFormat (some fun _ => .error .typeError)
      [py! "[1] see doi:10.1000/xyz, and more"]).map fun p => p.2) = .error .typeError := by decide +kernel

end Props
