import Verif.Props.Cited
import Verif.Props.Linked
import Verif.Props.Format

/-!
# The records of a reference list with a linker and in any format (C121)
-/

open Spec Py

namespace Props

theorem linked_vals {link : Linker} {r r' : Field} (h : SameButLinked link r r') {k : Str} (hk : k ≠ py! "recid") : vals r' k = vals r k := by
  rcases h with rfl | ⟨e, id, -, -, rfl⟩
  · rfl
  · unfold vals
    rw [List.find?_append]
    cases r.find? (·.1 = k) with
    | some p => rfl
    | none => simp [Ne.symm hk]

theorem linked_recid {link : Linker} {r r' : Field} (u : Unlinked r) (h : SameButLinked link r r') :
    vals r' (py! "recid") = [] ∨ ∃ e id, link e = .ok (some id) ∧ id.truthy = true ∧ vals r' (py! "recid") = [id.txt] := by
  have hn : r.find? (fun x => decide (x.1 = py! "recid")) = none := by
    rw [List.find?_eq_none]
    intro p hp
    simpa using u p hp
  rcases h with rfl | ⟨e, id, h1, h2, rfl⟩
  · left
    unfold vals
    rw [hn]
  · refine .inr ⟨e, id, h1, h2, ?_⟩
    unfold vals
    rw [List.find?_append, hn]
    rfl

/-- **C121** with a linker and in any format that does not ask for the last page: the document gives a record for every record of its references, in their
order, with exactly the values of its reference under every key except the journal reference, which is written in the format, and the record id; there is
at most one record id, and the linker gave it. -/
theorem C121_options [UnicodeDB] (undesirable : Str → Str) (lib : Lib) (hlib : PlainLibs lib) (kbs : Kbs) (hk : py! "key" ∉ kbs.tag.journalKeys)
    (fmt : List FmtPart) (hf : FmtPart.key .pageEnd ∉ fmt) (link : Linker) (hl : Steady link)
    (body : List Str) (heading : Str) (gap : Nat) (entries : List Entry) (after : List Str) (h : PlainDocument body heading gap entries after)
    (hc : CitedList undesirable kbs entries) (source : Str) (hs : LinesOf source (documentLines body heading gap entries after)) :
    ∃ refs out, Listed kbs entries refs ∧ fromString undesirable lib kbs fmt (some link) false source = .ok out ∧
      All2 (fun r r' => (∀ k, k ≠ py! "journal_reference" → k ≠ py! "recid" → vals r' k = vals r k) ∧
        (vals r' (py! "recid") = [] ∨ ∃ e id, link e = .ok (some id) ∧ id.truthy = true ∧ vals r' (py! "recid") = [id.txt])) refs out := by
  obtain ⟨refs, h1, h2⟩ := C121 undesirable lib hlib kbs hk body heading gap entries after h hc source hs
  obtain ⟨refs', h3, h4⟩ := (C123_string undesirable lib kbs defaultFormat fmt (by decide) hf none false source).2 refs h1
  obtain ⟨out, h5, h6⟩ := (C122_string undesirable lib kbs fmt link hl false source).2 refs' h3
  refine ⟨refs, out, h2, h5, ?_⟩
  refine all2_imp ?_ (all2_trans h4 h6)
  rintro r r' ⟨m, ⟨k1, -⟩, u, s, -⟩
  exact ⟨fun k hj hr => by rw [linked_vals s hr, k1 k hj], linked_recid u s⟩

example : ∃ refs out, @Listed asciiDB knownKbs threeArticles refs ∧
    @fromString asciiDB id yearsLib knownKbs [.key .title, .lit (py! ","), .key .volume, .lit (py! ","), .key .page] (some alwaysLinker) false
      (py! "Introduction\nAs is known [1], and from the references [2],\nthis holds.\nReferences\n[1] see also the review of early work, Phys. Lett.\nB432 (1998) 17, and a note.\n[2] see also a note, Nature 432 (2004) 27, doi: 10.1000/xyz, with a table.\n[3] see also a note, Nature 432 (2004) 27, ArXiv: 1501.00123v2 [hep-th], with a table.") = .ok out ∧
    All2 (fun r r' => (∀ k, k ≠ py! "journal_reference" → k ≠ py! "recid" → vals r' k = vals r k) ∧
        (vals r' (py! "recid") = [] ∨ ∃ e id, alwaysLinker e = .ok (some id) ∧ id.truthy = true ∧ vals r' (py! "recid") = [id.txt])) refs out := by
  letI := asciiDB
  refine C121_options id yearsLib ⟨fun _ _ => rfl, fun _ _ => rfl, ⟨someYears, rfl, by unfold DigitsOf; decide⟩, ⟨someYears, rfl, by unfold DigitsOf; decide⟩⟩ knownKbs (by decide +kernel)
    _ (by decide) alwaysLinker always_steady shortBody (py! "References") 0 threeArticles [] three_document three_cited _ ⟨by decide, by decide +kernel, by decide +kernel⟩

end Props
