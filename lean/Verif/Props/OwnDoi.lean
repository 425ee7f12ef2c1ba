import Verif.Lemmas.OwnDoi
import Verif.Lemmas.Marker
import Verif.Props.Engine
import Verif.Props.Items
import Verif.Props.Tag

/-!
# A reported DOI is one that its own line cites (C124)

The full property is that the references of a line report the DOIs that it cites, and no others, and that no internal mark shows in them.
-/

open Spec Py
open scoped List

namespace Props

theorem removeMarker_infix [UnicodeDB] (line : Str) : (removeMarker line).2 <:+: line := by
  have hl : ∀ t : Str, lstrip t <:+ t := fun t => by
    obtain ⟨a, e, -⟩ := lstrip_split t
    exact ⟨a, e.symm⟩
  unfold removeMarker
  dsimp only
  split
  · exact (((hl _).trans (List.drop_suffix _ _)).trans (hl _)).isInfix
  · exact (hl _).isInfix

theorem interleave_infix : ∀ {gaps ws : List Str}, gaps.length = ws.length + 1 → ∀ w ∈ ws, w <:+: interleave gaps ws
  | [], _, h, _, _ => by simp at h
  | _ :: _, [], _, _, hw => by simp at hw
  | g :: gs, w :: ws, h, x, hx => by
    simp only [interleave]
    rcases List.mem_cons.1 hx with rfl | hx
    · exact ⟨g, interleave gs ws, rfl⟩
    · exact (interleave_infix (gaps := gs) (ws := ws) (by simpa using h) x hx).trans (List.suffix_append _ _).isInfix

/-- **C124**, one half, for any lines, knowledge bases, reference format and linker: a DOI that a reference reports is cited by the very line
the reference comes from, as it is read after washing. It is never made up, and never one of another line. The other half, that every
DOI of a line is reported, is refuted by `C124_refuted`. -/
theorem C124_partial [UnicodeDB] (undesirable : Str → Str) (lib : Lib) (hu : Decodes lib.unquote) (kbs : Kbs) (fmt : List FmtPart)
    (link : Option Linker) (lines : List Str) (refs : List Field) (stats : List Nat)
    (h : parseReferences undesirable lib kbs fmt link lines = .ok (refs, stats)) (r : Field) (hr : r ∈ refs) :
    ∃ line ∈ lines, vals r (py! "raw_ref") = [line] ∧
      ∀ v ∈ vals r (py! "doi"), ∃ w d, v = py! "doi:" ++ d ∧ CitesDoi w d ∧ w <:+: washRepair undesirable line := by
  obtain ⟨ps, blocks, h1, rfl, h3, -⟩ := parseReferences_ok h
  obtain ⟨b, hb, hr⟩ := List.mem_flatten.1 hr
  obtain ⟨p, hp, hpb⟩ := all2_mem h3 hb
  obtain ⟨line, hline, hraw, bad, bad', hl⟩ := all2_mem h1 hp
  obtain ⟨els, he, hbuild⟩ := all2_mem hpb hr
  refine ⟨line, hline, ?_, ?_⟩
  · rw [← hraw]; exact vals_raw hbuild
  intro v hv
  rw [(C05_values els _ _ _ r hbuild).2.2.2.2.2.2.2.2.1] at hv
  obtain ⟨e, hm, hd⟩ := List.mem_filterMap.1 hv
  have hm' : e ∈ els ∧ e.ty = .doi := by simpa [ofKind] using hm
  obtain ⟨d, hd1, hd2⟩ := line_dois hl els he e hm'.1 hm'.2
  rw [hd2] at hd
  obtain ⟨gaps, ws, k1, k2, -, k4⟩ := C23_restores lib hu (removeMarker (washRepair undesirable line)).2
  obtain ⟨w, hw, hc⟩ := all2_mem k4 hd1
  refine ⟨w, d, ?_, hc, ?_⟩
  · simpa using hd.symm
  · refine List.IsInfix.trans ?_ (removeMarker_infix (washRepair undesirable line))
    rw [k2]
    exact interleave_infix k1 w hw

example : (@parseReferences asciiDB id plainLib emptyKbs defaultFormat none
      [py! "[1] A. Cox, doi:10.1000/xyz; B. Lee, https://doi.org/10.2000/a-b.", py! "[2] C. Day, report"]).map
    (fun p => p.1.map fun r => (vals r (py! "linemarker"), vals r (py! "doi"))) =
    .ok [([py! "1"], [py! "doi:10.1000/xyz;"]), ([py! "1"], [py! "doi:10.2000/a-b"]), ([py! "2"], [])] := by
  decide +kernel

/-- A reference whose title speaks of another article. -/
def titleWithDoi : Str := py! "[1] \"On doi:10.1000/abc in context\", doi:10.1000/xyz"

theorem title_with_doi : (@parseReferences asciiDB id plainLib emptyKbs defaultFormat none [titleWithDoi]).map
    (fun p => (allVals p.1 (py! "title"), allVals p.1 (py! "doi"))) =
    .ok ([py! "On <cds.DOI /> in context"], [py! "doi:10.1000/abc"]) := by
  decide +kernel

/-- The code violates the other half of **C124**, even for a DOI announced by `doi:` at the end of a line: with a DOI in a quoted title, the DOI of the reference itself is not reported; the
one in the title is reported in its place. -/
theorem C124_refuted : ¬ ∀ (line : Str) (refs : List Field) (stats : List Nat),
    @parseReferences asciiDB id plainLib emptyKbs defaultFormat none [line] = .ok (refs, stats) →
      ∀ a raw d, line = a ++ py! " doi:" ++ raw → @DoiText asciiDB raw d → py! "doi:" ++ d ∈ allVals refs (py! "doi") := by
  intro hall
  have h := title_with_doi
  cases hp : @parseReferences asciiDB id plainLib emptyKbs defaultFormat none [titleWithDoi] with
  | error e => rw [hp] at h; cases h
  | ok p =>
    rw [hp] at h
    have h2 : allVals p.1 (py! "doi") = [py! "doi:10.1000/abc"] := by
      have := congrArg (Except.toOption) h
      simp only [Except.map, Except.toOption, Option.some.injEq, Prod.mk.injEq] at this
      exact this.2
    have := hall titleWithDoi p.1 p.2 hp (py! "[1] \"On doi:10.1000/abc in context\",") (py! "10.1000/xyz") (py! "10.1000/xyz")
      (by decide) ?_
    · rw [h2] at this
      revert this
      decide
    · exact ⟨py! "1000", [], ['/'], py! "xyz", by decide, by decide, by decide, by decide, by decide, .inl rfl, by decide, by decide, by decide, by decide⟩

/-- The mark that stands for a DOI inside the program shows in the title that is reported, although the document holds no such text. -/
theorem C124_mark_shown : ¬ ∀ (line : Str) (refs : List Field) (stats : List Nat), '<' ∉ line →
    @parseReferences asciiDB id plainLib emptyKbs defaultFormat none [line] = .ok (refs, stats) →
      ∀ t ∈ allVals refs (py! "title"), '<' ∉ t := by
  intro hall
  have h := title_with_doi
  cases hp : @parseReferences asciiDB id plainLib emptyKbs defaultFormat none [titleWithDoi] with
  | error e => rw [hp] at h; cases h
  | ok p =>
    rw [hp] at h
    have h2 : allVals p.1 (py! "title") = [py! "On <cds.DOI /> in context"] := by
      have := congrArg (Except.toOption) h
      simp only [Except.map, Except.toOption, Option.some.injEq, Prod.mk.injEq] at this
      exact this.1
    have := hall titleWithDoi p.1 p.2 (by decide) hp (py! "On <cds.DOI /> in context") (by rw [h2]; simp)
    revert this
    decide

end Props
