import Verif.Lemmas.OwnUrl
import Verif.Spec.OwnUrl
import Verif.Props.OwnDoi

/-!
# A reported URL is one that its own line cites (C125)

The full property is that the references of a line report the URLs that it cites, and no others.
-/

open Spec Py
open scoped List

namespace Props

theorem removeMarker_suffix [UnicodeDB] (line : Str) : (removeMarker line).2 <:+ line := by
  have hl : ∀ t : Str, lstrip t <:+ t := fun t => by
    obtain ⟨a, e, -⟩ := lstrip_split t
    exact ⟨a, e.symm⟩
  unfold removeMarker
  dsimp only
  split
  · exact ((hl _).trans (List.drop_suffix _ _)).trans (hl _)
  · exact hl _

/-- What stands in the text without its DOIs stands in the line or in a mark. -/
theorem interleave_mem {m : Str} {c : Char} : ∀ {gaps ws : List Str}, c ∈ interleave gaps (ws.map fun _ => m) → c ∈ m ∨ c ∈ interleave gaps ws
  | [], _, h => by simp [interleave] at h
  | g :: gs, [], h => .inr h
  | g :: gs, w :: ws, h => by
    simp only [interleave, List.map_cons, List.mem_append] at h ⊢
    rcases h with (h | h) | h
    · exact .inr (.inl (.inl h))
    · exact .inl h
    · rcases interleave_mem h with h | h
      · exact .inl h
      · exact .inr (.inr h)

/-- In a line without quotation marks there are no links. -/
theorem linksApart_plain [UnicodeDB] {line t : Str} (h : '\'' ∉ line ∧ '"' ∉ line) (ht : DoisOut line t) : LinksApart t := by
  obtain ⟨lead, gaps, ws, rfl, rfl, -⟩ := ht
  intro a c w b u d e hw
  exfalso
  obtain ⟨t1, s1, t2, s2, s3, q, q', s4, t3, rfl, -, -, -, -, -, -, hq, -⟩ := hw
  have hm : q ∈ interleave gaps (ws.map fun _ => py! "<cds.DOI />") := by rw [e]; simp
  rcases interleave_mem hm with hm | hm
  · rcases hq with rfl | rfl <;> revert hm <;> decide
  · rcases hq with rfl | rfl
    · exact h.1 (List.mem_append_right _ hm)
    · exact h.2 (List.mem_append_right _ hm)

/-- **C125**, one half, for any knowledge bases, reference format and linker and for any lines in which no link directly follows a character that a URL may
contain: a URL that a reference reports is cited by the very line the reference comes from, and so is a description. The condition on links is that of
`C24_partial`; the other half, that every URL of a line is reported, is refuted by `C125_refuted`. -/
theorem C125_partial [UnicodeDB] (undesirable : Str → Str) (lib : Lib) (hu : Decodes lib.unquote) (kbs : Kbs) (fmt : List FmtPart)
    (link : Option Linker) (lines : List Str) (hq : ∀ line ∈ lines, ∀ t, DoisOut (washRepair undesirable line) t → LinksApart t)
    (refs : List Field) (stats : List Nat)
    (h : parseReferences undesirable lib kbs fmt link lines = .ok (refs, stats)) (r : Field) (hr : r ∈ refs) :
    ∃ line ∈ lines, vals r (py! "raw_ref") = [line] ∧ ∃ t, DoisOut (washRepair undesirable line) t ∧
      (∀ v ∈ vals r (py! "url"), ∃ w d, CitesUrl w (v, d) ∧ w <:+: t) ∧
      ∀ v ∈ vals r (py! "urldesc"), ∃ w u, CitesUrl w (u, v) ∧ w <:+: t := by
  obtain ⟨ps, blocks, h1, rfl, h3, -⟩ := parseReferences_ok h
  obtain ⟨b, hb, hr⟩ := List.mem_flatten.1 hr
  obtain ⟨p, hp, hpb⟩ := all2_mem h3 hb
  obtain ⟨line, hline, hraw, bad, bad', hl⟩ := all2_mem h1 hp
  obtain ⟨els, he, hbuild⟩ := all2_mem hpb hr
  obtain ⟨gaps, ws, k1, k2, k3, k4⟩ := C23_restores lib hu (removeMarker (washRepair undesirable line)).2
  obtain ⟨lead, hlead⟩ := removeMarker_suffix (washRepair undesirable line)
  have ho : DoisOut (washRepair undesirable line) (tagDois lib (removeMarker (washRepair undesirable line)).2).1 := by
    refine ⟨lead, gaps, ws, by rw [← k2, hlead], k3, ?_⟩
    clear k1 k2 k3 hl
    generalize (tagDois lib (removeMarker (washRepair undesirable line)).2).2 = ds at k4
    induction k4 with
    | nil => simp
    | cons hw _ ih =>
      intro w hm
      rcases List.mem_cons.1 hm with rfl | hm
      · exact ⟨_, hw⟩
      · exact ih w hm
  obtain ⟨ws', -, c2, gaps', c3, c4, -⟩ := C24_partial _ (hq line hline _ ho)
  have key : ∀ e ∈ els, e.ty = .url → ∃ w u, CitesUrl w u ∧ e.urlString = some u.1 ∧ e.urlDesc = some u.2 ∧
      w <:+: (tagDois lib (removeMarker (washRepair undesirable line)).2).1 := by
    intro e hm ht
    obtain ⟨u, hu1, hu2⟩ := line_urls hl els he e hm ht
    obtain ⟨w, hw, hc⟩ := all2_mem c2 hu1
    simp only [Prod.mk.injEq] at hu2
    refine ⟨w, u, hc, hu2.1, hu2.2, ?_⟩
    rw [c4]
    exact interleave_infix c3 w hw
  obtain ⟨-, -, -, -, -, -, v7, v8, -⟩ := C05_values els _ _ _ r hbuild
  refine ⟨line, hline, ?_, _, ho, ?_, ?_⟩
  · rw [← hraw]; exact vals_raw hbuild
  · intro v hv
    rw [v7] at hv
    obtain ⟨e, hm, hd⟩ := List.mem_filterMap.1 (List.mem_filter.1 hv).1
    have hm' : e ∈ els ∧ e.ty = .url := by simpa [ofKind] using hm
    obtain ⟨w, u, g1, g2, -, g4⟩ := key e hm'.1 hm'.2
    rw [g2] at hd
    cases hd
    exact ⟨w, u.2, g1, g4⟩
  · intro v hv
    rw [v8] at hv
    obtain ⟨e, hm, hd⟩ := List.mem_filterMap.1 (List.mem_filter.1 hv).1
    have hm' : e ∈ els ∧ e.ty = .url := by
      have := (List.mem_filter.1 hm).1
      simpa [ofKind] using this
    obtain ⟨w, u, g1, -, g3, g4⟩ := key e hm'.1 hm'.2
    rw [g3] at hd
    cases hd
    exact ⟨w, u.1, g1, g4⟩

/-- A line with two URLs and a DOI. -/
def twoUrls : Str := py! "[1] A. Cox, doi:10.1000/xyz, http://a.org/x, see https://b.org/y, too"

example : @LinksApart asciiDB (py! "A. Cox, <cds.DOI />, http://a.org/x, see https://b.org/y, too") :=
  @linksApart_plain asciiDB twoUrls _ (by decide +kernel)
    ⟨py! "[1] ", [py! "A. Cox, ", py! ", http://a.org/x, see https://b.org/y, too"], [py! "10.1000/xyz"].map (py! "doi:" ++ ·), by decide +kernel, by decide +kernel, by
      intro w hw
      rw [List.mem_singleton.1 hw]
      refine ⟨py! "10.1000/xyz", py! "doi:", py! "10.1000/xyz", rfl, .inr (.inl ?_), ?_⟩
      · exact ⟨[], py! "doi", [], [], [':'], [], rfl, .inl rfl, ⟨'d', 'o', 'i', .cons (by decide +kernel) (.cons (by decide +kernel) (.cons (by decide +kernel) .nil)), by decide, by decide, by decide⟩,
          by unfold Spaces; decide, by decide, by decide, by unfold Spaces; decide⟩
      · exact ⟨py! "1000", [], ['/'], py! "xyz", by decide, by decide, by decide, by decide, by decide, .inl rfl, by decide, by decide, by decide, by decide⟩⟩

example : (@parseReferences asciiDB id plainLib emptyKbs defaultFormat none [twoUrls]).map (fun p => allVals p.1 (py! "url")) =
    .ok [py! "http://a.org/x", py! "https://b.org/y"] := by
  decide +kernel

/-- A reference whose title holds a URL. -/
def titleWithUrl : Str := py! "[1] \"On the paper http://a.b/c in context\", see http://c.org/d"

theorem title_with_url : (@parseReferences asciiDB id plainLib emptyKbs defaultFormat none [titleWithUrl]).map
    (fun p => (allVals p.1 (py! "title"), allVals p.1 (py! "url"))) =
    .ok ([py! "On the paper <cds.URL /> in context"], [py! "http://a.b/c"]) := by
  decide +kernel

/-- The code violates the other half of **C125**, even for a URL at the end of a line, behind a blank: with a URL in a quoted title, the URL behind it is not
reported; the one in the title is reported in its place. -/
theorem C125_refuted : ¬ ∀ (line : Str) (refs : List Field) (stats : List Nat),
    @parseReferences asciiDB id plainLib emptyKbs defaultFormat none [line] = .ok (refs, stats) →
      ∀ a u, line = a ++ ' ' :: u → @UrlText asciiDB u → u.getLast? ≠ some '.' → u ∈ allVals refs (py! "url") := by
  intro hall
  have h := title_with_url
  cases hp : @parseReferences asciiDB id plainLib emptyKbs defaultFormat none [titleWithUrl] with
  | error e => rw [hp] at h; cases h
  | ok p =>
    rw [hp] at h
    have h2 : allVals p.1 (py! "url") = [py! "http://a.b/c"] := by
      have := congrArg (Except.toOption) h
      simp only [Except.map, Except.toOption, Option.some.injEq, Prod.mk.injEq] at this
      exact this.2
    have := hall titleWithUrl p.1 p.2 hp (py! "[1] \"On the paper http://a.b/c in context\", see") (py! "http://c.org/d") (by decide) ?_ (by decide)
    · rw [h2] at this
      revert this
      decide
    · have folds : ∀ w : Str, (∀ c ∈ w, c ∈ @caseVariants asciiDB c) → @FoldsTo asciiDB w w := by
        intro w hw
        unfold FoldsTo
        induction w with
        | nil => exact .nil
        | cons c w ih => exact .cons (hw c (by simp)) (ih fun x hx => hw x (by simp [hx]))
      exact ⟨py! "http://", py! "c.org", [], [py! "d"], [], by decide, ⟨py! "http://", by simp, folds _ (by decide +kernel)⟩, by decide,
        by unfold HostChar; decide, .inl rfl, by unfold PathChar; decide, .inl rfl⟩

end Props
