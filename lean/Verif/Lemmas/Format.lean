import Verif.Lemmas.Linked4
import Verif.Lemmas.Complete
import Verif.Spec.Format
import Verif.Props.Record

/-!
# Helper lemmas: records in two formats (C123)
-/

open Spec
open scoped List

namespace Py

theorem emits_format (fmt fmt' : List FmtPart) (e : El) {k : Str} (hk : k ≠ py! "journal_reference") :
    (elEmits fmt' e).filter (·.1 = k) = (elEmits fmt e).filter (·.1 = k) := by
  unfold elEmits
  simp only [List.filter_append]
  congr 1
  unfold emits
  cases e.ty <;> simp only
  case journal =>
    have : ¬ py! "journal_reference" = k := fun h => hk h.symm
    simp only [List.filter_cons, List.filter_nil, this, decide_false, Bool.false_eq_true, if_false]

theorem build_formats {fmt fmt' : List FmtPart} {els : List El} {m raw : Str} {r r' : Field} (h : buildReferenceFields els m raw fmt = .ok r)
    (h' : buildReferenceFields els m raw fmt' = .ok r') : SameButFormatted fmt fmt' r r' := by
  refine ⟨?_, ?_⟩
  · intro k hk
    obtain ⟨rfl, -⟩ := build_emits h
    obtain ⟨rfl, -⟩ := build_emits h'
    rw [vals_eq, vals_eq, values_addAll, values_addAll]
    have e : ∀ els : List El, (els.flatMap (elEmits fmt')).filter (·.1 = k) = (els.flatMap (elEmits fmt)).filter (·.1 = k) := by
      intro els
      induction els with
      | nil => rfl
      | cons e els ih => simp only [List.flatMap_cons, List.filter_append, emits_format fmt fmt' e hk, ih]
    rw [e]
  · obtain ⟨-, -, -, -, ⟨ss, h1, h2⟩, -⟩ := Props.C05_values _ _ _ _ _ h
    obtain ⟨-, -, -, -, ⟨ss', h3, h4⟩, -⟩ := Props.C05_values _ _ _ _ _ h'
    exact ⟨_, ss, ss', by simp [ofKind], h1, h3, h2, h4⟩

theorem build_complete2 {fmt fmt' : List FmtPart} (hf : FmtPart.key .pageEnd ∉ fmt) (hf' : FmtPart.key .pageEnd ∉ fmt') {els : List El} (h : ∀ e ∈ els, Complete e)
    (m raw : Str) : Both (SameButFormatted fmt fmt') (buildReferenceFields els m raw fmt) (buildReferenceFields els m raw fmt') := by
  obtain ⟨r, h1⟩ := build_complete h (marker := m) (raw := raw) hf
  obtain ⟨r', h2⟩ := build_complete h (marker := m) (raw := raw) hf'
  have := build_formats h1 h2
  rw [h1, h2]
  exact .ok this

theorem all2_self {α : Type} {P : α → Prop} : ∀ {l : List α}, (∀ a ∈ l, P a) → All2 (fun a b => a = b ∧ P a) l l
  | [], _ => .nil
  | a :: l, h => .cons ⟨rfl, h a (by simp)⟩ (all2_self fun x hx => h x (by simp [hx]))

theorem buildReferences_formats {fmt fmt' : List FmtPart} (hf : FmtPart.key .pageEnd ∉ fmt) (hf' : FmtPart.key .pageEnd ∉ fmt') {cs : List ParsedLine}
    (h : ∀ p ∈ cs, ∀ c ∈ p.elements, ∀ e ∈ c, Complete e) : Both (All2 (SameButFormatted fmt fmt')) (buildReferences fmt cs) (buildReferences fmt' cs) := by
  unfold buildReferences
  refine (Both.mapM (S := All2 (SameButFormatted fmt fmt')) (fun x y hxy => ?_) (all2_self h)).bind fun x y hxy => .ok (both_join hxy)
  obtain ⟨rfl, hx⟩ := hxy
  refine Both.mapM (fun c d hcd => ?_) (all2_self hx)
  obtain ⟨rfl, hc⟩ := hcd
  exact build_complete2 hf hf' hc _ _

theorem elements_complete [UnicodeDB] {undesirable : Str → Str} {lib : Lib} {kbs : Kbs} {link : Option Linker} {lines : List Str}
    {r : List ParsedLine × List (Str × Nat) × List (Str × Nat)} (h : parseElements undesirable lib kbs link lines = .ok r) :
    ∀ p ∈ r.1, ∀ c ∈ p.elements, ∀ e ∈ c, Complete e := by
  have key : ∀ (lines : List Str) (a r : List ParsedLine × List (Str × Nat) × List (Str × Nat)), (∀ p ∈ a.1, ∀ c ∈ p.elements, ∀ e ∈ c, Complete e) →
      lines.foldlM (elementsStep undesirable lib kbs link) a = .ok r → ∀ p ∈ r.1, ∀ c ∈ p.elements, ∀ e ∈ c, Complete e := by
    intro lines
    induction lines with
    | nil =>
      intro a r ha h
      rw [List.foldlM_nil] at h
      rw [← pure_ok h]
      exact ha
    | cons l lines ih =>
      intro a r ha h
      rw [List.foldlM_cons] at h
      obtain ⟨b, h1, h2⟩ := bind_ok h
      refine ih b r ?_ h2
      unfold elementsStep at h1
      obtain ⟨⟨cs, m, n, bad⟩, h3, h1⟩ := bind_ok h1
      obtain ⟨x, -, h1⟩ := bind_ok h1
      rw [← pure_ok h1]
      intro p hp
      rcases List.mem_append.1 hp with hp | hp
      · exact ha p hp
      · rw [List.mem_singleton.1 hp]
        obtain ⟨-, -, t, d, u, els, k1, k2⟩ := parseReferenceLine_ok h3
        exact post_complete (fun x hx => (parseTagged_parsed k1 x hx).1) k2
  exact key lines _ r (by simp) h

theorem parse_formats [UnicodeDB] {undesirable : Str → Str} {lib : Lib} {kbs : Kbs} {fmt fmt' : List FmtPart} (hf : FmtPart.key .pageEnd ∉ fmt)
    (hf' : FmtPart.key .pageEnd ∉ fmt') (link : Option Linker) (lines : List Str) :
    Both (fun a b => All2 (SameButFormatted fmt fmt') a.1 b.1 ∧ a.2 = b.2) (parseReferences undesirable lib kbs fmt link lines)
      (parseReferences undesirable lib kbs fmt' link lines) := by
  unfold parseReferences
  cases hp : parseElements undesirable lib kbs link lines with
  | error e => exact .error e
  | ok r =>
    obtain ⟨cs, counts, bad⟩ := r
    have hc := elements_complete hp
    simp only at hc
    refine (buildReferences_formats hf hf' hc).bind fun a b hab => ?_
    refine (Both.same _).bind fun x y hxy => ?_
    subst hxy
    exact .ok ⟨hab, rfl⟩

end Py
