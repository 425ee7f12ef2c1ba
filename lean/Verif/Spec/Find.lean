import Verif.Py.Re
import Verif.Gen.Regexs
import Verif.Spec.Basic
import Verif.Spec.Post

/-!
# Specification vocabulary for the reference section
-/

open Py

namespace Spec

/-- A list without some of its members, all with the property. -/
inductive DropOnly {α : Type} (P : α → Prop) : List α → List α → Prop
  | nil : DropOnly P [] []
  | keep {a : α} {as bs : List α} : DropOnly P as bs → DropOnly P (a :: as) (a :: bs)
  | drop {a : α} {as bs : List α} : P a → DropOnly P as bs → DropOnly P (a :: as) bs

/-- A line with the title of the section only, possibly after a page number. -/
def Footer [UnicodeDB] (t l : Str) : Prop :=
  ∃ u v, l = u ++ t ++ v ∧ (∀ c ∈ u, isSpace c = true ∨ isDec c = true ∨ c ∈ ['(', '[', ']', ')', '.']) ∧ Spaces v

/-- `r` is what follows the first occurrence of `t` in `l`. -/
def AfterFirst (t l r : Str) : Prop :=
  ∃ u, l = u ++ t ++ r ∧ ∀ u' r', l = u' ++ t ++ r' → u.length ≤ u'.length

/-- The lines of the section between two positions: from the start line on, after a title that fills
its line, or after a title followed by the first reference in the same line. -/
inductive RawSection (doc : List Str) (start stop : Nat) : Option Str → Bool → List Str → Prop
  | noTitle {b : Bool} : RawSection doc start stop none b ((doc.take stop).drop start)
  | title {t : Str} : RawSection doc start stop (some t) false ((doc.take stop).drop (start + 1))
  | sameLine {t l r : Str} : doc[start]? = some l → AfterFirst t l r → start < stop →
      RawSection doc start stop (some t) true (r :: (doc.take stop).drop (start + 1))
  | empty {t : Str} : stop ≤ start → RawSection doc start stop (some t) true []

/-- The lines of the section without repeated titles. -/
def SectionOf [UnicodeDB] (doc : List Str) (start stop : Nat) (title : Option Str) (sameLine : Bool) (lines : List Str) : Prop :=
  ∃ raw, RawSection doc start stop title sameLine raw ∧ DropOnly (fun l => ∃ t, title = some t ∧ Footer t l) raw lines

/-- The line starts with a title of a reference section and `t` is the text of the title. -/
def TitleLine [UnicodeDB] (l t : Str) : Prop :=
  ∃ r ∈ Rx.section_title_patterns, ∃ m, reMatch r l = some m ∧ m.group G.title = some t

/-- The line starts, after white space, with a marker of number one. -/
def FirstMarkerLine [UnicodeDB] (l : Str) : Prop :=
  ∃ r ∈ [Rx.re_reference_line_bracket_markers, Rx.re_reference_line_dot_markers, Rx.re_reference_line_number_markers],
    ∃ m, reMatch r (strip l) = some m ∧ m.group G.marknum = some (py! "1")

/-- The line looks like the heading of a section that follows the references. -/
def NextHeading [UnicodeDB] (l : Str) : Prop := ∃ r ∈ Rx.post_title_patterns, ∃ m, reMatch r (strip l) = some m

/-- A line of more than ten digits with white space, points, signs and crosses only. -/
def AxisLine [UnicodeDB] (l : Str) : Prop :=
  (∀ c ∈ l, isSpace c = true ∨ isDigitC c = true ∨ c ∈ ['.', '-', '+', '×', '−']) ∧ 10 < (l.filter isDigitC).length

end Spec
