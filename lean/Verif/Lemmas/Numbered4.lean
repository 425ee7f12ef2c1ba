import Verif.Lemmas.Numbered3
import Verif.Lemmas.Strings2
import Verif.Props.Engine

/-!
# Lemmas about numbered lists of references: the references made of them
-/

open Py Spec Props
open scoped List

namespace Py

variable [UnicodeDB]

/-- The references made of the lines of numbered entries. -/
theorem entry_blocks {undesirable : Str → Str} (hu : KeepsNumber undesirable) {lib : Lib} {kbs : Kbs} {fmt : List FmtPart}
    {link : Option Linker} {es : List (Nat × Entry)} {refs : List Field} {stats : List Nat}
    (h2 : parseReferences undesirable lib kbs fmt link (es.map fun p => prepareRef (solidPieces (entryLines p))) = .ok (refs, stats)) :
    ∃ blocks : List (List Field), refs = blocks.flatten ∧
      All2 (fun p block => block ≠ [] ∧ ∃ text, RefOf (solidPieces (entryLines p)) text ∧
        ∀ r ∈ block, vals r (py! "raw_ref") = [text] ∧ vals r (py! "linemarker") = [decimal p.1]) es blocks := by
  obtain ⟨ps, blocks, h3, h4, h5, -⟩ := parseReferences_ok h2
  refine ⟨blocks, h4, ?_⟩
  have h6 := all2_trans h3 h5
  clear h2 h3 h4 h5
  induction es generalizing blocks with
  | nil => cases h6; exact .nil
  | cons q es ih =>
    cases h6 with
    | @cons _ block _ blocks hq h6 =>
      refine .cons ?_ (ih blocks h6)
      obtain ⟨p, ⟨hraw, bad, bad', hp⟩, hb⟩ := hq
      obtain ⟨hne, hm, -⟩ := parseReferenceLine_ok hp
      refine ⟨all2_ne hb hne, prepareRef (solidPieces (entryLines q)), refOf_prepare ?_, fun r hr => ⟨?_, ?_⟩⟩
      · rw [entryLines, solid_cons]
        simp [unlessEmpty, bracketed]
      · obtain ⟨els, -, he⟩ := all2_mem hb hr
        rw [vals_raw he, hraw]
      · obtain ⟨els, -, he⟩ := all2_mem hb hr
        obtain ⟨e1, -⟩ := build_emits he
        have hk : (els.flatMap (elEmits fmt)).filter (·.1 = py! "linemarker") = [] := by
          rw [List.filter_eq_nil_iff]
          intro q hq
          obtain ⟨e, _, he⟩ := List.mem_flatMap.1 hq
          simpa using (emits_keys fmt e q he).2.2
        obtain ⟨t, ht⟩ := prepare_bracketed q.1 q.2
        obtain ⟨t', ht'⟩ := wash_bracketed hu q.1 t
        have hmark : p.1.marker = bracketed q.1 := by
          rw [hm]
          show (removeMarker (washRepair undesirable (prepareRef (solidPieces (entryLines (q.1, q.2)))))).1 = _
          rw [ht, ht', removeMarker_bracketed]
        rw [vals_eq, e1, values_addAll, hk, Field.values, Field.get_set, if_neg (by decide), create_eq, hmark, formatMarker_bracketed]
        obtain ⟨d1, d2⟩ := padNat_digits 0 q.1
        rw [← decimal_eq] at d1 d2
        rw [if_pos]
        · simp [Field.get]
        · refine ⟨?_, d1⟩
          obtain ⟨c, hc⟩ := List.exists_mem_of_ne_nil _ d1
          refine ⟨c, by simp [bracketed, hc], fun hh => ?_⟩
          have hd := d2 c hc
          simp only [isEdge, List.mem_cons, List.not_mem_nil, or_false] at hh
          rcases hh with rfl | rfl | rfl | rfl | rfl | rfl | rfl | rfl | rfl <;> cases hd

end Py
