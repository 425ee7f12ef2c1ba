import Verif.Lemmas.Arxiv
import Verif.Lemmas.Token
import Verif.Lemmas.Reports2

/-!
# Helper lemmas: the parts of an arXiv identifier
-/

namespace Py
open Spec
open scoped List

variable [UnicodeDB]

omit [UnicodeDB] in
/-- What is written behind the number. -/
def catText (cat : Str) : Str := if cat = [] then [] else ' ' :: cat

omit [UnicodeDB] in
/-- The identifier as it is reported. -/
def idText (yy mm num cat : Str) : Str := py! "arXiv:" ++ yy ++ mm ++ ['.'] ++ num ++ catText cat

omit [UnicodeDB] in
theorem arxivId_eq (yy mm num cat : Str) : arxivId yy mm num cat = tagged (py! "ARXIV") (idText yy mm num cat) := rfl

omit [UnicodeDB] in
theorem tagged_inj {N i j : Str} (h : tagged N i = tagged N j) : i = j := by
  unfold tagged at h
  simp only [List.append_assoc] at h
  have h1 := List.append_cancel_left (List.append_cancel_left (List.append_cancel_left h))
  exact List.append_cancel_right h1

/-- The parts of an identifier, in calm characters. -/
structure IdParts (yy mm num cat : Str) : Prop where
  yearTwo : Two yy
  monthTwo : Two mm
  numDec : num ≠ [] ∧ ∀ c ∈ num, isDec c = true
  catOk : cat = [] ∨ ArxivCategory cat
  chars : ∀ c ∈ yy ++ mm ++ num ++ cat, c ∈ calmChars

theorem calm_mark {c : Char} (h : c ∈ calmChars) : c ∈ markChars := List.mem_append_left _ h

theorem IdParts.idChars {yy mm num cat : Str} (h : IdParts yy mm num cat) : ∀ c ∈ idText yy mm num cat, c ∈ calmChars := by
  intro c hc
  unfold idText catText at hc
  simp only [List.mem_append] at hc
  rcases hc with ((((hc | hc) | hc) | hc) | hc) | hc
  · exact (by decide : ∀ c ∈ py! "arXiv:", c ∈ calmChars) c hc
  · exact h.chars c (by simp [hc])
  · exact h.chars c (by simp [hc])
  · exact (by decide : ∀ c ∈ ['.'], c ∈ calmChars) c hc
  · exact h.chars c (by simp [hc])
  · split at hc
    · cases hc
    · rcases List.mem_cons.1 hc with rfl | hc
      · decide
      · exact h.chars c (by simp [hc])

theorem cat_not_dec {c : Char} (hc : c ∈ calmChars) (h : c = '.' ∨ c = '-' ∨ ∃ d ∈ caseVariants c, isAsciiUpper d = true) : isDec c = false := by
  cases hd : isDec c with
  | false => rfl
  | true =>
    have h1 := dec_mark (calm_mark hc) hd
    have ha : ∀ c ∈ calmChars, isAscii c = true := by decide
    have e : caseVariants c = [c, swapCase c] := by simp [caseVariants, ha c hc]
    rw [e] at h
    exact ((by decide +kernel : ∀ c ∈ py! "0123456789", ¬ (c = '.' ∨ c = '-' ∨ ∃ d ∈ [c, swapCase c], isAsciiUpper d = true)) c h1 h).elim

/-- There are no digits behind the number. -/
theorem IdParts.cat_dec {yy mm num cat : Str} (h : IdParts yy mm num cat) : ∀ c ∈ catText cat, isDec c = false := by
  intro c hc
  unfold catText at hc
  split at hc
  · cases hc
  · rename_i hne
    rcases h.catOk with h1 | ⟨a, rfl, -, ha⟩
    · exact absurd h1 hne
    · rcases List.mem_cons.1 hc with rfl | hc
      · rfl
      · rcases List.mem_append.1 hc with hc | hc
        · rcases List.mem_cons.1 hc with rfl | hc
          · rfl
          · exact cat_not_dec (h.chars c (by simp [hc])) (ha c hc)
        · rw [List.mem_singleton.1 hc]; rfl

theorem calm_word {s : Str} (h : Calm s) : ¬ Announced s := fun hs =>
  h.words (py! "arxiv") (by simp) (announced_word hs fun c hc => calm_mark (h.chars c hc))

theorem calm_point {s : Str} (h : Calm s) : ¬ Dotted s := fun hs => by
  obtain ⟨a, ha, b, hb, hi⟩ := dotted_point hs fun c hc => calm_mark (h.chars c hc)
  exact h.points a ha b hb hi

theorem no_digit {s : Str} (h : ∀ c ∈ s, isDec c = false) {u v : Str} (e : s = u ++ v) : ¬ Announced v ∧ ¬ Dotted v := by
  constructor
  · intro hv
    obtain ⟨d, hd, h1⟩ := announced_digit hv
    rw [h d (by rw [e]; simp [hd])] at h1
    cases h1
  · rintro ⟨ds, d, rest, rfl, -, -, h1⟩
    rw [h d (by rw [e]; simp)] at h1
    cases h1

theorem tagName_digit : (∀ c ∈ py! "cds." ++ py! "ARXIV", isDec c = false) ∧ ∀ c ∈ py! "/cds." ++ py! "ARXIV", isDec c = false := by
  constructor <;> intro c hc <;> simp only [List.cons_append, List.nil_append, List.mem_cons, List.not_mem_nil, or_false] at hc
  · rcases hc with rfl | rfl | rfl | rfl | rfl | rfl | rfl | rfl | rfl <;> rfl
  · rcases hc with rfl | rfl | rfl | rfl | rfl | rfl | rfl | rfl | rfl | rfl <;> rfl

/-- In the tagged line the word and a digit stand only in the identifier. -/
theorem announced_start {yy mm num cat pre tail a s : Str} (hid : IdParts yy mm num cat) (hp : Calm pre) (ht : Calm tail)
    (e : pre ++ (tagged (py! "ARXIV") (idText yy mm num cat) ++ tail) = a ++ s) (h : Announced s) : s = idText yy mm num cat ++ py! "</cds.ARXIV>" ++ tail := by
  rcases start_tagged (fun p z q hz => announced_cut ((by decide : ∀ z ∈ py! "<>", z ∈ py! "<>/]") z hz)) h e with ⟨v, h1, h2⟩ | ⟨u, v, h1, h2⟩ | ⟨u, v, h1, -, h3, h2⟩ | ⟨u, v, h1, h2⟩ | ⟨u, h1⟩
  · exact absurd h2 (calm_word (calm_suffix (a := a) (by rw [← h1]; exact hp)))
  · exact absurd h2 (no_digit tagName_digit.1 h1).1
  · cases u with
    | nil =>
      rw [List.nil_append] at h1
      rw [h3, ← h1]
      simp
    | cons c u =>
      exfalso
      have hM : ∀ c ∈ py! "rXiv:" ++ yy ++ mm ++ ['.'] ++ num, c ∈ markChars ∧ c ≠ 'a' ∧ c ≠ 'A' := by
        have hd : ∀ c ∈ py! "0123456789", c ≠ 'a' ∧ c ≠ 'A' := by decide
        intro c hc
        simp only [List.mem_append] at hc
        rcases hc with (((hc | hc) | hc) | hc) | hc
        · exact (by decide : ∀ c ∈ py! "rXiv:", c ∈ markChars ∧ c ≠ 'a' ∧ c ≠ 'A') c hc
        · have := calm_mark (hid.chars c (by simp [hc])); exact ⟨this, hd c (dec_mark this (hid.yearTwo.2 c hc))⟩
        · have := calm_mark (hid.chars c (by simp [hc])); exact ⟨this, hd c (dec_mark this (hid.monthTwo.2 c hc))⟩
        · exact (by decide : ∀ c ∈ ['.'], c ∈ markChars ∧ c ≠ 'a' ∧ c ≠ 'A') c hc
        · have := calm_mark (hid.chars c (by simp [hc])); exact ⟨this, hd c (dec_mark this (hid.numDec.2 c hc))⟩
      have e1 : (py! "rXiv:" ++ yy ++ mm ++ ['.'] ++ num) ++ catText cat = u ++ v := by
        have : 'a' :: ((py! "rXiv:" ++ yy ++ mm ++ ['.'] ++ num) ++ catText cat) = c :: (u ++ v) := by
          rw [show c :: (u ++ v) = c :: u ++ v from rfl, ← h1]; simp [idText]
        exact (List.cons.inj this).2
      generalize py! "rXiv:" ++ yy ++ mm ++ ['.'] ++ num = M at hM e1
      rcases List.append_eq_append_iff.1 e1 with ⟨x, rfl, h4⟩ | ⟨x, h4, h5⟩
      · exact (no_digit hid.cat_dec h4).1 h2
      · cases x with
        | nil => exact (no_digit (u := []) hid.cat_dec h5.symm).1 h2
        | cons d x =>
          rw [h5] at h2
          have := hM d (by rw [h4]; simp)
          rcases announced_head h2 this.1 with h | h
          · exact this.2.1 h
          · exact this.2.2 h
  · exact absurd h2 (no_digit tagName_digit.2 h1).1
  · exact absurd h (calm_word (calm_suffix (a := u) (by rw [← h1]; exact ht)))

/-- In the tagged line four digits, a full stop and a digit stand only in the identifier. -/
theorem dotted_start {yy mm num cat pre tail a s : Str} (hid : IdParts yy mm num cat) (hp : Calm pre) (ht : Calm tail)
    (e : pre ++ (tagged (py! "ARXIV") (idText yy mm num cat) ++ tail) = a ++ s) (h : Dotted s) :
    a = pre ++ py! "<cds.ARXIV>arXiv:" ∨ ∃ a' d, a = a' ++ [d] ∧ isDec d = true := by
  rcases start_tagged (fun p z q hz => dotted_cut ((by decide : ∀ z ∈ py! "<>", z ∈ py! "<>/] ") z hz)) h e with ⟨v, h1, h2⟩ | ⟨u, v, h1, h2⟩ | ⟨u, v, h1, h0, h3, h2⟩ | ⟨u, v, h1, h2⟩ | ⟨u, h1⟩
  · exact absurd h2 (calm_point (calm_suffix (a := a) (by rw [← h1]; exact hp)))
  · exact absurd h2 (no_digit tagName_digit.1 h1).2
  · have e1 : py! "arXiv:" ++ (yy ++ mm ++ '.' :: (num ++ catText cat)) = u ++ v := by rw [← h1]; simp [idText]
    have hnum : ∀ x y, num = x ++ y → ¬ Dotted y := by
      rintro x y hy ⟨ds, d, rest, rfl, -⟩
      exact absurd (hid.numDec.2 '.' (by rw [hy]; simp)) Bool.false_ne_true
    have head : ∀ {c : Char} {s : Str}, Dotted (c :: s) → isDec c = false → False := fun h hc => by rw [dotted_head h] at hc; cases hc
    rcases List.append_eq_append_iff.1 e1 with ⟨x, rfl, h4⟩ | ⟨x, h4, h5⟩
    · rcases List.append_eq_append_iff.1 h4 with ⟨z, rfl, h6⟩ | ⟨z, h6, h7⟩
      · exfalso
        cases z with
        | nil => exact head (by rw [← show '.' :: _ = v from by simpa using h6] at h2; exact h2) rfl
        | cons d z =>
          rw [List.cons_append, List.cons.injEq] at h6
          have h6 := h6.2
          rcases List.append_eq_append_iff.1 h6 with ⟨y, rfl, h8⟩ | ⟨y, h8, h9⟩
          · exact (no_digit hid.cat_dec h8).2 h2
          · rw [h9] at h2
            unfold catText at h2
            split at h2
            · rw [List.append_nil] at h2; exact hnum _ _ h8 h2
            · exact hnum _ _ h8 (dotted_cut (by decide) h2)
      · rcases List.eq_nil_or_concat x with rfl | ⟨x, d, rfl⟩
        · exact .inl (by rw [h0]; simp)
        · refine .inr ⟨pre ++ (py! "<cds." ++ py! "ARXIV" ++ ['>']) ++ (py! "arXiv:" ++ x), d, by rw [h0]; simp, ?_⟩
          have : d ∈ yy ++ mm := by rw [h6]; simp
          rcases List.mem_append.1 this with h | h
          · exact hid.yearTwo.2 d h
          · exact hid.monthTwo.2 d h
    · cases x with
      | nil =>
        rw [List.append_nil] at h4
        exact .inl (by rw [h0, ← h4]; simp)
      | cons d x =>
        exfalso
        rw [h5] at h2
        have hd : d ∈ py! "arXiv:" := by rw [h4]; simp
        have : ∀ d ∈ py! "arXiv:", isDec d = false := by
          intro d hd
          simp only [List.mem_cons, List.not_mem_nil, or_false] at hd
          rcases hd with rfl | rfl | rfl | rfl | rfl | rfl <;> rfl
        exact head h2 (this d hd)
  · exact absurd h2 (no_digit tagName_digit.2 h1).2
  · exact absurd h (calm_point (calm_suffix (a := u) (by rw [← h1]; exact ht)))

end Py
