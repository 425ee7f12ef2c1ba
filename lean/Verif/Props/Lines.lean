import Verif.Lemmas.Lines
import Verif.Py.Sample
import Verif.Spec.Basic

/-!
# Properties of joining, washing and repairing lines (C38, C39, C40, C65)
-/

open Py Spec

namespace Props

/-- **C38**: a line is joined to the next without its final hyphen, or with exactly one blank
between them unless it is empty or ends in a blank; the next line is unchanged. -/
theorem C38 (a b : Str) : ∃ g, Glued a g ∧ joinLines a b = g ++ b := joinLines_glued a b

/-- The line before the break is determined. -/
theorem C38_unique {a g g' : Str} (h : Glued a g) (h' : Glued a g') : g = g' := glued_unique h h'

example : joinLines (py! "Phys. Rev.") (py! "D 12") = py! "Phys. Rev. D 12" ∧ joinLines (py! "commu-") (py! "nication") = py! "communication" ∧
    joinLines [] (py! "x") = py! "x" ∧ joinLines (py! "a ") (py! "b") = py! "a b" := by decide +kernel

/-- **C38** for a list of lines that are not empty: every line but the last is treated that way. -/
theorem C38_list {ls gs : List Str} {last : Str} (h : All2 Glued ls gs) (hne : ∀ l ∈ ls, l ≠ []) :
    (ls ++ [last]).foldl joinLines [] = gs.flatten ++ last := by
  have key : ∀ (x y : Str), Glued x y → (ls ++ [last]).foldl joinLines x = y ++ gs.flatten ++ last := by
    induction h with
    | nil =>
      intro x y hx
      obtain ⟨g, hg, e⟩ := joinLines_glued x last
      obtain rfl := glued_unique hx hg
      simpa using e
    | @cons l g ls gs h1 h2 ih =>
      intro x y hx
      obtain ⟨y', hg, e⟩ := joinLines_glued x l
      obtain rfl := glued_unique hx hg
      rw [List.cons_append, List.foldl_cons, e,
        ih (fun l hl => hne l (List.mem_cons_of_mem _ hl)) _ _ (glued_append h1 (hne l (by simp)) y)]
      simp
  simpa using key [] [] .empty

example : [py! "Phys. Rev. Let-", py! "ters 12,", py! "34"].foldl joinLines [] = py! "Phys. Rev. Letters 12, 34" := by
  decide +kernel

variable [UnicodeDB]

/-- **C39**: a line is washed by the edits listed in the specification. -/
theorem C39 (s : Str) : Washes s (washLine s) := washLine_washes s

/-- **C39**: washing never lengthens a line. -/
theorem C39_length (s : Str) : (washLine s).length ≤ s.length := washes_length (washLine_washes s)

/-- **C39**: a washed line has no two adjacent white-space characters. -/
theorem C39_blanks (s : Str) : NoDoubleSpace (washLine s) := sub_multi_adj _

/-- **C39**: a washed line has no hyphen look-alikes. -/
theorem C39_hyphens (s : Str) (c : Char) (h : c ∈ washLine s) (hc : c ∈ hyphens) : c = '-' := washLine_hyphens h hc

/-- **C39**: apart from blanks, colons, commas and hyphens all characters of a line without
backslash are kept in order. -/
theorem C39_kept (s : Str) (h : '\\' ∉ s) : (washLine s).filter solid = s.filter solid :=
  (washes_solid (washLine_washes s) h).2

example : @washLine asciiDB (py! "Yes , I like : : [ a ]   python \u2212 3\\2554 .") = py! "Yes, I like : [a] python - 3-4." := by
  decide +kernel

omit [UnicodeDB] in
/-- **C40** is false: two blanks before a comma need two washings. -/
theorem C40_counterexample : ∃ s, @washLine asciiDB (@washLine asciiDB s) ≠ @washLine asciiDB s :=
  ⟨py! "a  , b", by decide +kernel⟩

omit [UnicodeDB] in
/-- **C40** is false for lines without adjacent blanks, too: three colons need two washings. -/
theorem C40_colons : ∃ s, NoDoubleSpace s ∧ @washLine asciiDB (@washLine asciiDB s) ≠ @washLine asciiDB s := by
  refine ⟨py! "a: : : b", ?_, by decide +kernel⟩
  rw [noDouble_iff]
  simp only [Adj]
  decide

/-- **C40** holds for lines without adjacent white space and without colons. Missing: all other
lines, for which it is false in general. -/
theorem C40_partial {s : Str} (h : NoDoubleSpace s) (hc : ':' ∉ s) : washLine (washLine s) = washLine s :=
  washLine_twice h hc

example : ∃ s, NoDoubleSpace s ∧ ':' ∉ s ∧ @washLine asciiDB s ≠ s := by
  refine ⟨py! "Yes , [ I", ?_, by decide +kernel, by decide +kernel⟩
  rw [noDouble_iff]
  simp only [Adj]
  decide

/-- **C65**: repairing broken URLs removes nothing but blanks. -/
theorem C65 (s : Str) : (repairUrls s).filter (· != ' ') = s.filter (· != ' ') := repairUrls_filter s

/-- **C65**: the characters that are left are those of the line, in order. -/
theorem C65_sublist (s : Str) : (repairUrls s).Sublist s := repairUrls_sublist s

example : @repairUrls asciiDB (py! "see h ttp: //www. cern.ch/ab/ c.h tml") = py! "see http://www.cern.ch/ab/c.html" := by
  decide +kernel

omit [UnicodeDB] in
/-- The blank removed may be the one that separates the URL from the next word. -/
theorem C65_glued : @repairUrls asciiDB (py! "see http://www.cern.ch/a/b.html now") = py! "see http://www.cern.ch/a/b.htmlnow" := by
  decide +kernel

end Props
