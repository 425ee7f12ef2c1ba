import Verif.Lemmas.Strings2
import Verif.Props.Api
import Verif.Props.Engine
import Verif.Props.Find

/-!
# References of a string: C91–C93
-/

namespace Props
open Py Spec
open scoped List

/-- **C91.** Every reference of a string carries the text that it was made from, in the order of the string.
These texts put together are, but for white space and hyphens, part of the string. They are all of it when the
string is taken as a list of references and has at most twenty-five lines. -/
theorem C91_partial [UnicodeDB] (undesirable : Str → Str) (lib : Lib) (kbs : Kbs) (fmt : List FmtPart) (link : Option Linker) (only : Bool)
    (source : Str) (hl : only = false → ∀ l ∈ splitOn '\n' source, l.length ≤ 4300) (refs : List Field)
    (h : fromString undesirable lib kbs fmt link only source = .ok refs) :
    ∃ (texts : List Str) (blocks : List (List Field)), refs = blocks.flatten ∧
      All2 (fun text block => block ≠ [] ∧ ∀ r ∈ block, vals r (py! "raw_ref") = [text]) texts blocks ∧
      body texts.flatten <+ body source ∧
      (only = true → source.count '\n' < 25 → body texts.flatten = body source) := by
  obtain ⟨lines, h1, h⟩ := bind_ok h
  obtain ⟨⟨rs, stats⟩, h2, h⟩ := bind_ok h
  have hr : refs = rs := by simpa [Pure.pure, Except.pure] using h.symm
  subst hr
  obtain ⟨blocks, b1, b2⟩ := C01_raw_lines undesirable lib kbs fmt link lines _ _ h2
  have hs : body source = body (splitOn '\n' source).flatten := by
    conv => lhs; rw [← splitOn_join '\n' source]
    exact body_join _
  refine ⟨lines, blocks, b1, b2, ?_, ?_⟩
  · rw [hs]
    unfold stringLines at h1
    cases only with
    | true => exact rebuild_body_sub h1
    | false =>
      simp only [Bool.false_eq_true, if_false] at h1
      obtain ⟨⟨ls, st⟩, h3, h1⟩ := bind_ok h1
      have e : lines = ls := by simpa [Pure.pure, Except.pure] using h1.symm
      subst e
      obtain ⟨doc, refs', st', -, k1, k2, k3⟩ := C36_extract _ (hl rfl)
      rw [h3] at k2
      cases k2
      rcases k3 with ⟨rfl, -⟩ | ⟨start, e, title, same, ls, pss, groups, -, -, -, -, m1, m2, m3, m4⟩
      · exact List.nil_sublist _
      · have := body_refs m4
        rw [m3, cut_flatten m2] at this
        exact this.trans (body_sublist ((section_sublist m1).trans (flatten_sublist k1)))
  · rintro rfl hc
    rw [hs]
    refine rebuild_body (mk := stringMarker (splitOn '\n' source)) h1 ?_
    rw [splitOn_length]
    omega

/-- **C91.** Making the lines of the references never fails, if the lines of the string have at most 4300
characters. -/
theorem C91_lines [UnicodeDB] (only : Bool) (source : Str) (hl : ∀ l ∈ splitOn '\n' source, l.length ≤ 4300) :
    ∃ lines, stringLines only source = .ok lines := by
  unfold stringLines
  cases only with
  | true => exact C33_total stringMarker_known hl
  | false =>
    obtain ⟨doc, refs, st, -, -, h, -⟩ := C36_extract _ hl
    exact ⟨refs, by simp [h, bind, Except.bind, Pure.pure, Except.pure]⟩

example : (@fromString asciiDB id plainLib emptyKbs defaultFormat none true (py! "[1] A. Smith, long-\nevity x\n\n  [2] B. Jones,\n  title")) = .ok
    [[(py! "linemarker", [py! "1"]), (py! "raw_ref", [py! "[1] A. Smith, longevity x"]), (py! "author", [py! "A. Smith"]), (py! "misc", [py! "longevity x"])],
     [(py! "linemarker", [py! "2"]), (py! "raw_ref", [py! "[2] B. Jones, title"]), (py! "author", [py! "B. Jones"]), (py! "misc", [py! "title"])]] := by
  decide +kernel

/-- **C91 fails** for longer references: of a reference of twenty-six lines the last line is lost. -/
theorem C91_refuted : ∃ r, @fromString asciiDB id plainLib emptyKbs defaultFormat none true
      (join ['\n'] (py! "[1] x" :: (List.replicate 24 (py! "y") ++ [py! "lost"]))) = .ok [r] ∧
    vals r (py! "raw_ref") = [join [' '] (py! "[1] x" :: List.replicate 24 (py! "y"))] := by
  refine ⟨[(py! "linemarker", [py! "1"]), (py! "raw_ref", [join [' '] (py! "[1] x" :: List.replicate 24 (py! "y"))]),
    (py! "misc", [join [' '] (py! "x" :: List.replicate 24 (py! "y"))])], by decide +kernel, by decide +kernel⟩

/-- **C92.** Every raw reference of a list has its entry, at its place, which accounts for the raw reference. -/
theorem C92_partial [UnicodeDB] (undesirable : Str → Str) (lib : Lib) (kbs : Kbs) (lines : List Str) :
    All2 Accounts lines (fromList undesirable lib kbs lines) := by
  have one : ∀ line, Accounts line (listEntry line (fromString undesirable lib kbs commaFormat none true line)) := by
    intro line
    have whole : Accounts line [(py! "raw_ref", [line])] :=
      ⟨line, rfl, List.Sublist.refl _, fun _ => List.prefix_refl _, fun _ _ _ _ => .inl rfl⟩
    cases h : fromString undesirable lib kbs commaFormat none true line with
    | error e => exact whole
    | ok refs =>
      cases refs with
      | nil => exact whole
      | cons r refs =>
        show Accounts line r
        obtain ⟨texts, blocks, h1, h2, h3, h4⟩ := C91_partial undesirable lib kbs commaFormat none true line (by simp) _ h
        cases h2 with
        | nil => simp at h1
        | @cons text block texts blocks ht hb =>
          have hr : r ∈ block := by
            cases block with
            | nil => exact absurd rfl ht.1
            | cons r' block => simp at h1; simp [h1.1]
          refine ⟨text, ht.2 r hr, ?_, fun hc => ?_, fun hne ha hn hl => ?_⟩
          · refine .trans ?_ h3
            rw [List.flatten_cons, body_append]
            exact List.sublist_append_left _ _
          · rw [← h4 rfl hc, List.flatten_cons, body_append]
            exact List.prefix_append _ _
          · obtain ⟨ls, h5, h6⟩ := bind_ok h
            rw [stringLines_one ha hne hn hl] at h5
            cases h5
            obtain ⟨⟨rs, stats⟩, h2, h⟩ := bind_ok h6
            cases h
            obtain ⟨blocks', b1, b2⟩ := C01_raw_lines undesirable lib kbs commaFormat none [strip line] _ _ h2
            cases b2 with
            | @cons _ block' _ blocks' ht' hb' =>
              cases hb'
              right
              have : r ∈ block' := by
                have : r ∈ [block'].flatten := by rw [← b1]; simp
                simpa using this
              have e := ht'.2 r this
              rw [ht.2 r hr] at e
              cases e
              exact trimmed_strip line
  induction lines with
  | nil => exact .nil
  | cons line lines ih => exact .cons (one line) ih

example : (@fromList asciiDB id plainLib emptyKbs [py! "[7] A. Smith, foo ", py! "B. Jones, bar"]).map (fun r => vals r (py! "raw_ref")) =
    [[py! "[7] A. Smith, foo"], [py! "B. Jones, bar"]] := by
  decide +kernel

/-- **C92 fails** for a raw reference with white space before its marker: everything in it is lost. -/
theorem C92_indented : @fromList asciiDB id plainLib emptyKbs [py! "  [1] A. Smith, foo"] = [[(py! "raw_ref", [[]])]] := by
  decide +kernel

/-- **C92 fails** for a raw reference of several lines: those after the first are lost. -/
theorem C92_lines : @fromList asciiDB id plainLib emptyKbs [py! "A. Smith, foo\nB. Jones, bar"] =
    [[(py! "raw_ref", [py! "A. Smith, foo"]), (py! "author", [py! "A. Smith"]), (py! "misc", [py! "foo"])]] := by
  decide +kernel

/-- **C93.** A string of which no line begins with white space gives no empty reference. -/
theorem C93_partial [UnicodeDB] (undesirable : Str → Str) (lib : Lib) (kbs : Kbs) (fmt : List FmtPart) (link : Option Linker)
    (source : Str) (hl : ∀ l ∈ splitOn '\n' source, NoSpaceFirst l) (refs : List Field)
    (h : fromString undesirable lib kbs fmt link true source = .ok refs) :
    ∀ r ∈ refs, ∃ t, vals r (py! "raw_ref") = [t] ∧ t ≠ [] := by
  obtain ⟨lines, h1, h0⟩ := bind_ok h
  clear h
  obtain ⟨⟨rs, stats⟩, h2, h⟩ := bind_ok h0
  clear h0
  cases h
  obtain ⟨blocks, b1, b2⟩ := C01_raw_lines undesirable lib kbs fmt link lines _ _ h2
  have hn : ∀ t ∈ lines, t ≠ [] := by
    simp only [stringLines, if_true] at h1
    exact rebuild_inks hl (fun k hk => by
      obtain ⟨pfx, r, -, h2, h3⟩ := stringMarker_known k hk
      exact ⟨pfx, r, h2, h3⟩) h1
  subst b1
  clear h1 h2
  induction b2 with
  | nil => simp
  | @cons t block ts bs ht hb ih =>
    intro r hr
    simp only [List.flatten_cons, List.mem_append] at hr
    rcases hr with hr | hr
    · exact ⟨t, ht.2 r hr, hn t (by simp)⟩
    · exact ih (fun t ht => hn t (by simp [ht])) r hr

example : (@fromString asciiDB id plainLib emptyKbs defaultFormat none true (py! "[1] A. Smith, foo\n\n[2] B. Jones\n- \nbar")).map
      (fun rs => rs.map fun r => vals r (py! "raw_ref")) = .ok [[py! "[1] A. Smith, foo"], [py! "[2] B. Jones bar"]] := by
  decide +kernel

/-- **C93 fails** when the first line is indented: an empty reference comes before the first one. -/
theorem C93_refuted : @fromString asciiDB id plainLib emptyKbs defaultFormat none true (py! "  [1] A. Smith, foo\n  [2] B. Jones, bar") = .ok
    [[(py! "raw_ref", [[]])],
     [(py! "linemarker", [py! "1"]), (py! "raw_ref", [py! "[1] A. Smith, foo"]), (py! "author", [py! "A. Smith"]), (py! "misc", [py! "foo"])],
     [(py! "linemarker", [py! "2"]), (py! "raw_ref", [py! "[2] B. Jones, bar"]), (py! "author", [py! "B. Jones"]), (py! "misc", [py! "bar"])]] := by
  decide +kernel

end Props
