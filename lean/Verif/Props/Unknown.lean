import Verif.Lemmas.Unknown3
import Verif.Props.Items

/-!
# A line of which nothing is known (C107)
-/

open Py Spec
open scoped List

namespace Props

/-- **C107.** A numbered line of plain text of which nothing is known is reported as exactly one reference. The values in it are
exactly the number, the line and the text; when there is a year in the text, it is taken out of the text and reported
as year. Nothing else is reported, and one text is counted. -/
theorem C107 [UnicodeDB] (undesirable : Str → Str) (lib : Lib) (kbs : Kbs) (fmt : List FmtPart) (n : Nat) (s : Str) (hl : PlainLine n s) (h : NothingKnown kbs s)
    (hu : ∀ s, (∀ c ∈ s, isAscii c = true) → lib.unidecode s = s) (hw : undesirable (bracketed n ++ ' ' :: s) = bracketed n ++ ' ' :: s) :
    ∃ r table, parseReferences undesirable lib kbs fmt none [bracketed n ++ ' ' :: s] = .ok ([r], [0, 0, 0, 0, 0, 0, 1]) ∧
      PlainRecord n (bracketed n ++ ' ' :: s) s table ∧ ∀ k, vals r k = under k table :=
  references_plain hl h hu hw

theorem noYear_of [UnicodeDB] {s : Str} (h : ∀ c ∈ s, isDec c = false) : NoYear s := by
  rintro ⟨a, y, b, rfl, ⟨c, x, z, rfl, -, hx, -⟩, -⟩
  rw [h x (by simp)] at hx
  cases hx

theorem remains_noYear [UnicodeDB] {s u : Str} (hn : NoYear s) (h : Remains s u) : u = s := by
  rcases h with ⟨-, h⟩ | ⟨y, ⟨a, b, h1, h2, -⟩, -⟩
  · exact h
  · exact absurd ⟨a, y, b, h1, h2⟩ hn

theorem unknown_line : PlainLine 12 (py! "see the lectures at the summer school (in preparation), to appear.") where
  calm := calm_of (by decide +kernel)
  quiet := by decide
  text := by decide

attribute [local instance] asciiDB in
theorem unknown_known : NothingKnown bookKbs (py! "see the lectures at the summer school (in preparation), to appear.") where
  kb := ⟨_, rfl, rfl, by decide +kernel⟩
  titles := by
    have : bookKbs.tag.journalKeys.all (fun k => !contains (reading (py! "see the lectures at the summer school (in preparation), to appear.")) k) = true := by decide +kernel
    intro k hk
    exact notIn (by simpa using List.all_eq_true.1 this k hk)
  reports := by
    intro p hp
    rw [List.mem_singleton.1 hp]
    exact ⟨_, rfl, by decide +kernel⟩
  ibid := notIn (by decide +kernel)
  publishers := by decide +kernel
  byRe := by decide +kernel
  authors := by decide +kernel
  collaborations := by decide +kernel
  books := by
    intro q hq u hu
    rw [remains_noYear (noYear_of (by decide)) hu]
    have : bookKbs.books.all (fun q => !contains (alnums (upper (py! "see the lectures at the summer school (in preparation), to appear."))) (alnums (upper q.1))) = true := by
      decide +kernel
    exact notIn (by simpa using List.all_eq_true.1 this q hq)

example : ∃ r, @parseReferences asciiDB id plainLib bookKbs defaultFormat none
        [py! "[12] see the lectures at the summer school (in preparation), to appear."] = .ok ([r], [0, 0, 0, 0, 0, 0, 1]) ∧
    ∀ k, vals r k = under k [(py! "linemarker", py! "12"), (py! "raw_ref", py! "[12] see the lectures at the summer school (in preparation), to appear."),
      (py! "misc", py! "see the lectures at the summer school (in preparation), to appear")] := by
  obtain ⟨r, table, h1, h2, h3⟩ := @C107 asciiDB id plainLib bookKbs defaultFormat 12 _ unknown_line unknown_known (fun _ _ => rfl) rfl
  refine ⟨r, h1, fun k => ?_⟩
  rw [h3 k]
  cases h2 with
  | undated _ => exact congrArg (under k) (by decide +kernel)
  | dated h _ =>
    obtain ⟨a, b, h1, h2, -⟩ := h
    exact absurd ⟨a, _, b, h1, h2⟩ (@noYear_of asciiDB _ (by decide))

/-! ### The words around a year -/

/-- The characters that are not white space. -/
def solid (s : Str) : Str := s.filter fun c => !isSpace c

theorem solid_append (a b : Str) : solid (a ++ b) = solid a ++ solid b := by simp [solid]

theorem solid_spaces {a : Str} (h : Spaces a) : solid a = [] := by
  unfold solid
  rw [List.filter_eq_nil_iff]
  intro c hc
  simp [h c hc]

/-- The second text is the first without some parts. -/
inductive Without (D : Str → Prop) : Str → Str → Prop
  | nil : Without D [] []
  | keep {c s t} : Without D s t → Without D (c :: s) (c :: t)
  | drop {d s t} : D d → Without D s t → Without D (d ++ s) t

theorem without_erase {E : Str → Str → Prop} {D : Str → Prop} (hD : ∀ d r, E d r → D (solid d)) {s t : Str} (h : Erase E s t) : Without D (solid s) (solid t) := by
  induction h with
  | nil => exact .nil
  | keep _ _ ih =>
    rename_i c s t _ _
    by_cases hc : isSpace c = true
    · have e1 : solid (c :: s) = solid s := by simp [solid, hc]
      have e2 : solid (c :: t) = solid t := by simp [solid, hc]
      rw [e1, e2]; exact ih
    · have e1 : solid (c :: s) = c :: solid s := by simp [solid, hc]
      have e2 : solid (c :: t) = c :: solid t := by simp [solid, hc]
      rw [e1, e2]; exact .keep ih
  | drop _ h1 _ ih =>
    rw [solid_append]
    exact .drop (hD _ _ h1) ih

/-- **C108**, the part that holds: apart from white space, nothing but the year and brackets around it is taken out of a text. What is missing: the white
space that keeps the words apart, see `C108_refuted`. -/
theorem C108_partial (y s t : Str) (hy : ∀ c ∈ y, isSpace c = false) (h : YearErased y s t) :
    ∃ u v, Without (· = '[' :: y ++ [']']) (solid s) u ∧ Without (· = '(' :: y ++ [')']) u v ∧ Without (· = y) v (solid t) := by
  obtain ⟨s1, s2, h1, h2, h3⟩ := h
  have hs : solid y = y := by
    unfold solid
    rw [List.filter_eq_self]
    intro c hc
    simp [hy c hc]
  refine ⟨solid s1, solid s2, without_erase ?_ h1, without_erase ?_ h2, without_erase ?_ h3⟩
  · rintro d - ⟨u, v, rfl, hu, hv⟩
    rw [solid_append, solid_append, solid_append, solid_spaces hv, hs]
    have : solid ('[' :: u) = ['['] ++ solid u := solid_append ['['] u
    rw [this, solid_spaces hu]
    simp [solid, isSpace]
  · rintro d - ⟨u, v, rfl, hu, hv⟩
    rw [solid_append, solid_append, solid_append, solid_spaces hv, hs]
    have : solid ('(' :: u) = ['('] ++ solid u := solid_append ['('] u
    rw [this, solid_spaces hu]
    simp [solid, isSpace]
  · rintro d r ⟨u, v, rfl, hu, hv, -⟩
    rw [solid_append, solid_append, solid_spaces hu, solid_spaces hv, hs, List.append_nil]
    rfl

example : YearErased (py! "1998") (py! "of 1998 at") (py! "ofat") :=
  have h1 : ∀ {l r : Char} {s : Str}, l ∉ s → Erase (fun d _ => Bracketed l r (py! "1998") d) s s := by
    intro l r s
    induction s with
    | nil => intro _; exact .nil
    | cons c s ih =>
      intro h
      refine .keep ?_ (ih fun hm => h (by simp [hm]))
      rintro ⟨d, q, e, u, v, rfl, -⟩
      simp only [List.cons_append, List.cons.injEq] at e
      exact h (by simp [e.1])
  ⟨_, _, h1 (by decide), h1 (by decide), by
    have no : ∀ (c : Char) (s : Str), c ≠ '1' → isSpace c = false → ¬ ∃ d r, c :: s = d ++ r ∧ Spaced (py! "1998") d r := by
      rintro c s h1 h2 ⟨d, r, e, u, v, rfl, hu, -, -⟩
      cases u with
      | nil => simp only [List.nil_append, List.cons_append, List.cons.injEq] at e; exact h1 e.1
      | cons a u =>
        simp only [List.cons_append, List.cons.injEq] at e
        have := hu a (by simp)
        rw [← e.1, h2] at this
        cases this
    refine .keep (no _ _ (by decide) rfl) (.keep (no _ _ (by decide) rfl) ?_)
    refine .drop (d := py! " 1998 ") (by decide) ⟨py! " ", py! " ", rfl, by intro c h; rw [List.mem_singleton.1 h]; rfl, by intro c h; rw [List.mem_singleton.1 h]; rfl,
      by intro c h; cases h; rfl⟩ ?_
    exact .keep (no _ _ (by decide) rfl) (.keep (no _ _ (by decide) rfl) .nil)⟩

set_option synthInstance.maxSize 1000 in
/-- **C108 fails**: the words around a year are joined to one word that is not in the line. -/
theorem C108_refuted : reported [py! "misc", py! "year"] (@parseReferences asciiDB id plainLib bookKbs defaultFormat none
    [py! "[12] see the lectures of 1998 at the summer school"]) =
      [[[py! "see the lectures ofat the summer school"], [py! "1998"]]] := by
  decide +kernel

set_option synthInstance.maxSize 1000 in
/-- With a year. -/
example : reported [py! "misc", py! "year"] (@parseReferences asciiDB id plainLib bookKbs defaultFormat none
    [py! "[12] see the lectures of 1998 at the summer school (in preparation), to appear in 1999."]) =
      [[[py! "see the lectures ofat the summer school (in preparation), to appear in 1999"], [py! "1998"]]] := by
  decide +kernel

end Props
