import Verif.Lemmas.Reports2
import Verif.Props.Unknown

/-!
# A report number of a known category (C109)
-/

open Py Spec
open scoped List

namespace Props

/-- **C109.** A numbered line of plain text with a report number of a known category, and with nothing else that is
known, is reported as exactly one reference. The values in it are exactly the number, the line, the text in front
of the report number without the last character, the report number, the text behind it without a closing bracket, and the year when
there is one in the texts, which is taken out of them. The report number is what is reported for the category, with the numeration behind it, its
blanks as hyphens, written with a hyphen between letters and digits or with a slash behind the name of an archive. When several
categories fit, the longest one counts. -/
theorem C109 [UnicodeDB] (undesirable : Str → Str) (lib : Lib) (kbs : Kbs) (fmt : List FmtPart) (n : Nat) (pre b tail S w : Str) (hl : NumberLine n pre b tail)
    (hk : KnownReport kbs.tag pre b tail S w) (ho : NothingBeside kbs pre b tail) (hne : S ++ w ≠ [])
    (hu : ∀ s, (∀ c ∈ s, isAscii c = true) → lib.unidecode s = s)
    (hw : undesirable (bracketed n ++ ' ' :: (pre ++ b ++ tail)) = bracketed n ++ ' ' :: (pre ++ b ++ tail)) :
    ∃ r R u v y, parseReferences undesirable lib kbs fmt none [bracketed n ++ ' ' :: (pre ++ b ++ tail)] =
        .ok ([r], [0, 1, 0, 0, 0, 0, if LeftOver (unclosed tail) then 1 else 0]) ∧
      ReportForm (S ++ hyphenated w) R ∧ YearOfTwo pre.dropLast (unclosed tail) u v y ∧
      ∀ k, vals r k = under k (loneRecord n (bracketed n ++ ' ' :: (pre ++ b ++ tail)) u [(py! "reportnumber", R)] v y) :=
  references_report hl hk ho hne hu hw

/-- **C18**, exactly: a report number that does not end with a line feed gets a hyphen between its capital letters and its digits
if there is none, or a slash for the hyphen behind the name of an archive, and is kept otherwise. -/
theorem C18_exact [UnicodeDB] (e : El) (r : Str) (hty : e.ty = .reportnumber) (hr : e.reportNum = some r) (hn : r.getLast? ≠ some '\n') :
    ∃ r', normaliseReport e = .ok { e with reportNum := some r' } ∧ ReportForm r r' :=
  ⟨_, by rw [normaliseReport_eq e r hty hr], report_form hn⟩

/-! ### An instance -/

/-- Two categories, of which one is part of the other. -/
def reportKbs : Kbs :=
  { knownKbs with tag := { knownKbs.tag with
      reportPats := [((9, py! "TH"), .alt .bos (.set ⟨true, false, [.word]⟩) ⬝ .group 1 (.group 2 (.str (py! "TH")) ⬝ .group G.numn (Re.opt (Re.ch ' ') ⬝ Re.times 4 Re.digit))),
        ((3, py! "CERN TH"), .alt .bos (.set ⟨true, false, [.word]⟩) ⬝ .group 1 (.group 2 (.str (py! "CERN TH")) ⬝
          .group G.numn (Re.opt (Re.ch ' ') ⬝ Re.times 4 Re.digit)))]
      reportStd := [((9, py! "TH"), py! "TH"), ((3, py! "CERN TH"), py! "CERN-TH")] }, books := bookKbs.books }

theorem report_line : NumberLine 4 (py! "see also the note (") (py! "CERN-TH.1234") (py! "), with a table.") where
  calm := calm_of (by decide +kernel)
  quiet := by decide
  first := ⟨'C', by decide, rfl⟩
  last := ⟨'4', by decide, rfl⟩

attribute [local instance] asciiDB in
theorem report_known : KnownReport reportKbs.tag (py! "see also the note (") (py! "CERN-TH.1234") (py! "), with a table.") (py! "CERN-TH") (py! " 1234") where
  keys := by decide
  known := by
    have h : (finditer (.alt .bos (.set ⟨true, false, [.word]⟩) ⬝ .group 1 (.group 2 (.str (py! "CERN TH")) ⬝ .group G.numn (Re.opt (Re.ch ' ') ⬝ Re.times 4 Re.digit)))
      (reading (py! "see also the note (CERN-TH.1234), with a table."))).map (fun m => (m.gstart 1, m.group 1, m.group G.numn)) =
        [(some (reading (py! "see also the note (")).length, some (reading (py! "CERN-TH.1234")), some (py! " 1234"))] := by decide +kernel
    obtain ⟨m, hm, e⟩ := List.map_eq_singleton_iff.1 h
    simp only [Prod.mk.injEq] at e
    refine ⟨(3, py! "CERN TH"), _, m, rfl, rfl, hm, e.1, e.2.1, e.2.2, ?_⟩
    intro p hp hne
    rcases List.mem_cons.1 hp with rfl | hp
    · exact ⟨_, rfl, fun h => absurd h (by decide), fun _ => by decide +kernel⟩
    · exact absurd (by rw [List.mem_singleton.1 hp]) hne
  part := ⟨py! "CERN TH", [], by decide +kernel⟩
  ascii := by decide
  plain := by decide

attribute [local instance] asciiDB in
theorem two_noYear {s t u v : Str} {y : Option Str} (hs : ∀ c ∈ s, isDec c = false) (ht : ∀ c ∈ t, isDec c = false) (h : YearOfTwo s t u v y) : u = s ∧ v = t ∧ y = none := by
  cases y with
  | none => exact ⟨h.2.2.1, h.2.2.2, rfl⟩
  | some y =>
    rcases h.1 with h | ⟨-, h⟩
    · obtain ⟨a, b, h1, h2, -⟩ := h
      exact absurd ⟨a, y, b, h1, h2⟩ (noYear_of ht)
    · obtain ⟨a, b, h1, h2, -⟩ := h
      exact absurd ⟨a, y, b, h1, h2⟩ (noYear_of hs)

attribute [local instance] asciiDB in
theorem report_only : NothingBeside reportKbs (py! "see also the note (") (py! "CERN-TH.1234") (py! "), with a table.") where
  kb := ⟨_, rfl, rfl, by decide +kernel⟩
  titles := by
    have : reportKbs.tag.journalKeys.all (fun k => !contains (reading (py! "see also the note (")) k && !contains (reading (py! "), with a table.")) k) = true := by decide +kernel
    intro k hk
    have := List.all_eq_true.1 this k hk
    simp only [Bool.and_eq_true, Bool.not_eq_true'] at this
    exact ⟨notIn this.1, notIn this.2⟩
  ibid := ⟨notIn (by decide +kernel), notIn (by decide +kernel)⟩
  publishers := by decide +kernel
  byRe := by decide +kernel
  authors := by decide +kernel
  collaborations := by
    intro p hp g hg
    rw [List.mem_singleton.1 hp]
    refine @barren_finditer asciiDB (py! "_seaolthn(,wib. ") (by decide) _ (by decide +kernel) _ ?_
    intro c hc
    simp only [List.mem_append] at hc
    rcases hc with (hc | hc) | hc
    · revert hc; revert c; decide
    · rw [hg c hc]; decide
    · revert hc; revert c; decide
  books := by
    intro q hq u v y h
    obtain ⟨rfl, rfl, -⟩ := two_noYear (by decide) (by decide) h
    have : reportKbs.books.all (fun q => !contains (alnums (upper (py! "see also the note (").dropLast)) (alnums (upper q.1)) &&
      !contains (alnums (upper (unclosed (py! "), with a table.")))) (alnums (upper q.1))) = true := by decide +kernel
    have := List.all_eq_true.1 this q hq
    simp only [Bool.and_eq_true, Bool.not_eq_true'] at this
    exact ⟨notIn this.1, notIn this.2⟩

attribute [local instance] asciiDB in
example : ∃ r, @parseReferences asciiDB id plainLib reportKbs defaultFormat none [py! "[4] see also the note (CERN-TH.1234), with a table."] = .ok ([r], [0, 1, 0, 0, 0, 0, 1]) ∧
    ∀ k, vals r k = under k [(py! "linemarker", py! "4"), (py! "raw_ref", py! "[4] see also the note (CERN-TH.1234), with a table."),
      (py! "misc", py! "see also the note"), (py! "reportnumber", py! "CERN-TH-1234"), (py! "misc", py! "with a table")] := by
  obtain ⟨r, R, u, v, y, h1, h2, h3, h4⟩ := @C109 asciiDB id plainLib reportKbs defaultFormat 4 _ _ _ _ _ report_line report_known report_only (by decide) (fun _ _ => rfl) rfl
  obtain ⟨rfl, rfl, rfl⟩ := two_noYear (by decide) (by decide) h3
  have hR : R = py! "CERN-TH-1234" := by
    cases h2 with
    | hyphen h hl =>
      rename_i a b
      have e : py! "CERN-TH-1234" = a ++ b := h.whole
      have ea : a = (py! "CERN-TH-1234").take a.length := by rw [e]; simp
      have eb : b = (py! "CERN-TH-1234").drop a.length := by rw [e]; simp
      have hn := h.name
      have hd := h.nums
      rw [ea] at hn
      rw [eb] at hd
      have hi : a.length < 13 := by have := congrArg List.length e; simp at this; omega
      have : ∀ i < 13, (∀ c ∈ (py! "CERN-TH-1234").take i, ('A' ≤ c ∧ c ≤ 'Z') ∨ c = '-') → (∀ c ∈ (py! "CERN-TH-1234").drop i, @isDec asciiDB c = true ∨ c = '-') → i = 7 ∨ i = 8 := by
        decide +kernel
      rcases this _ hi hn hd with h7 | h8
      · rw [h7] at eb
        exact absurd (.inr rfl) (h.long '-' (py! "1234") eb (by simp))
      · rw [ea, h8] at hl
        exact absurd rfl hl
    | slash h =>
      obtain ⟨a, ha, b, e, -⟩ := h
      exact absurd (congrArg (fun s => s.head?) e) (by
        have : ∀ a ∈ archives, ∀ b, (a ++ '-' :: b).head? ≠ some 'C' := by
          intro a ha b
          have : ∀ a ∈ archives, a ≠ [] ∧ a.head? ≠ some 'C' := by decide
          have := this a ha
          cases a with
          | nil => exact absurd rfl this.1
          | cons x xs => exact this.2
        exact fun h => this a ha b h.symm)
    | same => rfl
  subst hR
  exact ⟨r, h1, fun k => by rw [h4 k]; exact congrArg (under k) (by decide +kernel)⟩

set_option synthInstance.maxSize 1000 in
/-- With a year, and the blanks of a longer numeration. -/
example : reported [py! "misc", py! "reportnumber", py! "year"] (@parseReferences asciiDB id plainLib reportKbs defaultFormat none
    [py! "[4] see also the note (CERN-TH.1234) of 1998 at the summer school"]) =
      [[[py! "see also the note", py! "ofat the summer school"], [py! "CERN-TH-1234"], [py! "1998"]]] := by
  decide +kernel

end Props
