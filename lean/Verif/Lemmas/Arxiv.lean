import Verif.Lemmas.Calm
import Verif.Lemmas.Ident5
import Verif.Spec.Arxiv

/-!
# Helper lemmas: an arXiv identifier in a calm text
-/

namespace Py
open Spec
open scoped List

variable [UnicodeDB]

/-! ### Rewriting one piece -/

omit [UnicodeDB] in
theorem rewritten_keep {P : Str → Str → Str → Str → Prop} : ∀ {s t b u : Str}, (∀ a c d, s = a ++ c :: d → ¬ ∃ w r x, c :: d ++ t = w ++ r ∧ P (b ++ a) w r x) →
    Rewritten P (b ++ s) t u → Rewritten P b (s ++ t) (s ++ u)
  | [], t, b, u, _, h => by simpa using h
  | c :: s, t, b, u, hn, h => by
    refine .ch (by simpa using hn [] c s rfl) (rewritten_keep (s := s) ?_ (by simpa using h))
    intro a d e hs
    have := hn (c :: a) d e (by rw [hs]; rfl)
    simpa using this

omit [UnicodeDB] in
/-- One piece is replaced, and no other begins in front of it or behind it. -/
theorem rewritten_one {P : Str → Str → Str → Str → Prop} {pre w tail x : Str} (h1 : ∀ a c d, pre = a ++ c :: d → ¬ ∃ w' r x, c :: d ++ (w ++ tail) = w' ++ r ∧ P a w' r x)
    (hw : w ≠ []) (h2 : P pre w tail x) (h3 : ∀ a c d, tail = a ++ c :: d → ¬ ∃ w' r x, c :: d = w' ++ r ∧ P (pre ++ w ++ a) w' r x) :
    Rewritten P [] (pre ++ (w ++ tail)) (pre ++ (x ++ tail)) := by
  refine rewritten_keep (by simpa using h1) (.hit hw (by simpa using h2) ?_)
  have : Rewritten P ([] ++ pre ++ w) (tail ++ []) (tail ++ []) := rewritten_keep (by simpa using h3) .nil
  simpa using this

omit [UnicodeDB] in
/-- Nothing is replaced. -/
theorem rewritten_same {P : Str → Str → Str → Str → Prop} {s : Str} (h : ∀ a c d, s = a ++ c :: d → ¬ ∃ w r x, c :: d = w ++ r ∧ P a w r x) : Rewritten P [] s s := by
  have : Rewritten P [] (s ++ []) (s ++ []) := rewritten_keep (by simpa using h) .nil
  simpa using this

/-! ### What begins where -/

/-- The word, separators and a digit. -/
def Announced (s : Str) : Prop :=
  ∃ lead sep d rest, s = lead ++ sep ++ d :: rest ∧ FoldsTo lead (py! "ARXIV") ∧ (∀ c ∈ sep, c = ':' ∨ c = '-' ∨ isSpace c = true) ∧ isDec d = true

/-- Four digits, a full stop and a digit. -/
def Dotted (s : Str) : Prop :=
  ∃ ds d rest, s = ds ++ '.' :: d :: rest ∧ ds.length = 4 ∧ (∀ c ∈ ds, isDec c = true) ∧ isDec d = true

theorem two_cons {y : Str} (h : Two y) : ∃ d y', y = d :: y' ∧ isDec d = true := by
  obtain ⟨h1, h2⟩ := h
  cases y with
  | nil => cases h1
  | cons d y' => exact ⟨d, y', rfl, h2 d (by simp)⟩

theorem named_announced {year month : Str → Prop} {n : Nat} {b w r x : Str} (hy : ∀ y, year y → Two y) (h : ArxivNamed year month n b w r x) : Announced (w ++ r) := by
  obtain ⟨l, s, yy, h, mm, s2, num, ver, sp, cat, rfl, h1, h2, h3, -⟩ := h
  obtain ⟨d, y', rfl, hd⟩ := two_cons (hy _ h3)
  exact ⟨l, s, d, _, by simp; rfl, h1, h2, hd⟩

theorem catchup_announced {b w r x : Str} (h : ArxivCatchup b w r x) : Announced (w ++ r) := by
  obtain ⟨l, s, yy, h, mm, s2, num, sp, a, rfl, h1, h2, h3, -⟩ := h
  obtain ⟨d, y', rfl, hd⟩ := two_cons (y := yy) h3
  exact ⟨l, s, d, _, by simp; rfl, h1, h2, hd⟩

theorem bare_dotted {ys : List Str} {n : Nat} (hn : 0 < n) (hy : ∀ y ∈ ys, Two y) {b w r x : Str} (h : ArxivBare (· ∈ ys) n b w r x) : Dotted (w ++ r) := by
  obtain ⟨yy, mm, num, ver, sp, cat, rfl, -, -, h3, h5, h7, -⟩ := h
  obtain ⟨h71, h72⟩ := h7
  cases num with
  | nil => simp at h71; omega
  | cons d num =>
    refine ⟨yy ++ mm, d, num ++ ver ++ sp ++ cat ++ r, by simp, ?_, ?_, h72 d (by simp)⟩
    · rw [List.length_append, (hy _ h3).1, (month2_two h5).1]
    · intro c hc
      rcases List.mem_append.1 hc with hc | hc
      · exact (hy _ h3).2 c hc
      · exact (month2_two h5).2 c hc

theorem dec_mark {c : Char} (hc : c ∈ markChars) (h : isDec c = true) : c ∈ py! "0123456789" := by
  have ha : ∀ c ∈ markChars, isAscii c = true := by decide
  have h1 : CSet.mem ⟨false, false, [.digit]⟩ c = true := digitSet_mem.2 h
  rw [mem_ascii (ha c hc)] at h1
  exact (by decide +kernel : ∀ c ∈ markChars, @CSet.mem asciiDB ⟨false, false, [.digit]⟩ c = true → c ∈ py! "0123456789") c hc h1

theorem dec_not {c : Char} (h : isDec c = true) : c ∉ py! "<>/]. " := by
  intro hc
  simp only [List.mem_cons, List.not_mem_nil, or_false] at hc
  rcases hc with rfl | rfl | rfl | rfl | rfl | rfl <;> exact absurd h Bool.false_ne_true

theorem fold_letter {c d : Char} (hc : c ∈ markChars) (h : d ∈ caseVariants c) : smallLetter c = smallLetter d := by
  have ha : ∀ c ∈ markChars, isAscii c = true := by decide
  have e : caseVariants c = [c, swapCase c] := by simp [caseVariants, ha c hc]
  rw [e] at h
  simp only [List.mem_cons, List.not_mem_nil, or_false] at h
  rcases h with rfl | rfl
  · rfl
  · exact (by decide +kernel : ∀ c ∈ markChars, smallLetter c = smallLetter (swapCase c)) c hc

theorem folds_small {x w : Str} (h : FoldsTo x w) (hx : ∀ c ∈ x, c ∈ markChars) : x.map smallLetter = w.map smallLetter := by
  induction h with
  | nil => rfl
  | cons h _ ih =>
    rw [List.map_cons, List.map_cons, fold_letter (hx _ (by simp)) h, ih fun c hc => hx c (by simp [hc])]

theorem folds_cut {lead : Str} {z : Char} (h : FoldsTo lead (py! "ARXIV")) (hz : z ∈ py! "<>/]. ") : z ∉ lead := by
  intro hm
  have hzm : z ∈ markChars := (by decide : ∀ z ∈ py! "<>/]. ", z ∈ markChars) z hz
  have key : ∀ {x w : Str}, FoldsTo x w → z ∈ x → ∃ d ∈ w, smallLetter z = smallLetter d := by
    intro x w h
    induction h with
    | nil => intro h; cases h
    | @cons c d x w hcd _ ih =>
      intro hm
      rcases List.mem_cons.1 hm with rfl | hm
      · exact ⟨d, by simp, fold_letter hzm hcd⟩
      · obtain ⟨e, he, h⟩ := ih hm
        exact ⟨e, by simp [he], h⟩
  obtain ⟨d, hd, e⟩ := key h hm
  exact (by decide : ∀ z ∈ py! "<>/]. ", ∀ d ∈ py! "ARXIV", smallLetter z ≠ smallLetter d) z hz d hd e

omit [UnicodeDB] in
/-- A text without a character stands in front of it. -/
theorem before_mark {x y p q : Str} {z : Char} (hz : z ∉ x) (e : p ++ z :: q = x ++ y) : ∃ y', p = x ++ y' := by
  rcases List.append_eq_append_iff.1 e with ⟨w, e1, e2⟩ | ⟨w, e1, e2⟩
  · cases w with
    | nil => exact ⟨[], by simpa using e1.symm⟩
    | cons d w =>
      have : z = d := (List.cons.inj e2).1
      subst this
      exact absurd (by rw [e1]; simp) hz
  · exact ⟨w, e1⟩

theorem announced_cut {p q : Str} {z : Char} (hz : z ∈ py! "<>/]") (h : Announced (p ++ z :: q)) : Announced p := by
  obtain ⟨lead, sep, d, rest, e, h1, h2, h3⟩ := h
  have hz' : z ∈ py! "<>/]. " := (by decide : ∀ z ∈ py! "<>/]", z ∈ py! "<>/]. ") z hz
  have hn : z ∉ lead ++ sep ++ [d] := by
    rw [List.mem_append, List.mem_append, List.mem_singleton]
    rintro ((h | h) | rfl)
    · exact folds_cut h1 hz' h
    · have := h2 z h
      simp only [List.mem_cons, List.not_mem_nil, or_false] at hz
      rcases hz with rfl | rfl | rfl | rfl <;> rcases this with h | h | h <;> first | exact absurd h (by decide) | exact absurd h Bool.false_ne_true
    · exact dec_not h3 hz'
  obtain ⟨y', rfl⟩ := before_mark (y := rest) hn (by rw [e]; simp)
  exact ⟨lead, sep, d, y', by simp, h1, h2, h3⟩

theorem dotted_cut {p q : Str} {z : Char} (hz : z ∈ py! "<>/] ") (h : Dotted (p ++ z :: q)) : Dotted p := by
  obtain ⟨ds, d, rest, e, h1, h2, h3⟩ := h
  have hz' : z ∈ py! "<>/]. " := (by decide : ∀ z ∈ py! "<>/] ", z ∈ py! "<>/]. ") z hz
  have hn : z ∉ ds ++ ['.', d] := by
    rw [List.mem_append, List.mem_cons, List.mem_singleton]
    rintro (h | rfl | rfl)
    · exact dec_not (h2 z h) hz'
    · exact absurd hz (by decide)
    · exact dec_not h3 hz'
  obtain ⟨y', rfl⟩ := before_mark (y := rest) hn (by rw [e]; simp)
  exact ⟨ds, d, y', by simp, h1, h2, h3⟩

/-- Where the word is there is the word in small letters. -/
theorem announced_word {s : Str} (h : Announced s) (hs : ∀ c ∈ s, c ∈ markChars) : py! "arxiv" <:+: s.map smallLetter := by
  obtain ⟨lead, sep, d, rest, rfl, h1, -, -⟩ := h
  have := folds_small h1 fun c hc => hs c (by simp [hc])
  refine ⟨[], (sep ++ d :: rest).map smallLetter, ?_⟩
  simp only [List.map_append, this]
  simp [smallLetter, swapCase]
  decide

theorem announced_digit {s : Str} (h : Announced s) : ∃ d ∈ s, isDec d = true := by
  obtain ⟨lead, sep, d, rest, rfl, -, -, h⟩ := h
  exact ⟨d, by simp, h⟩

theorem announced_head {c : Char} {s : Str} (h : Announced (c :: s)) (hc : c ∈ markChars) : c = 'a' ∨ c = 'A' := by
  obtain ⟨lead, sep, d, rest, e, h1, -, -⟩ := h
  cases h1 with
  | cons h1 _ =>
    rename_i c' l _
    obtain rfl : c = c' := (List.cons.inj e).1
    have := fold_letter hc h1
    exact (by decide +kernel : ∀ c ∈ markChars, smallLetter c = smallLetter 'A' → c = 'a' ∨ c = 'A') c hc this

theorem dotted_head {c : Char} {s : Str} (h : Dotted (c :: s)) : isDec c = true := by
  obtain ⟨ds, d, rest, e, h1, h2, -⟩ := h
  cases ds with
  | nil => cases h1
  | cons x ds =>
    obtain rfl : c = x := (List.cons.inj e).1
    exact h2 _ (by simp)

theorem dotted_point {s : Str} (h : Dotted s) (hs : ∀ c ∈ s, c ∈ markChars) : ∃ a ∈ py! "0123456789", ∃ b ∈ py! "0123456789", [a, '.', b] <:+: s := by
  obtain ⟨ds, d, rest, rfl, h1, h2, h3⟩ := h
  rcases List.eq_nil_or_concat ds with rfl | ⟨ds, x, rfl⟩
  · cases h1
  · exact ⟨x, dec_mark (hs x (by simp)) (h2 x (by simp)), d, dec_mark (hs d (by simp)) h3, ds, rest, by simp⟩

omit [UnicodeDB] in
/-- Something begins in front of a character, at it, or behind it. -/
theorem start_at {A B a s : Str} {z : Char} (e : A ++ z :: B = a ++ s) : (∃ A', A = a ++ A' ∧ s = A' ++ z :: B) ∨ ∃ a', a = A ++ z :: a' ∧ B = a' ++ s := by
  rcases List.append_eq_append_iff.1 e with ⟨w, e1, e2⟩ | ⟨w, e1, e2⟩
  · cases w with
    | nil => exact .inl ⟨[], by simpa using e1.symm, by simpa using e2.symm⟩
    | cons d w =>
      rw [List.cons_append, List.cons.injEq] at e2
      exact .inr ⟨w, by rw [e1, e2.1], e2.2⟩
  · exact .inl ⟨w, e1, e2⟩

omit [UnicodeDB] in
/-- Where something begins in a text with one tag. -/
theorem start_tagged {Q : Str → Prop} (hQ : ∀ p z q, z ∈ py! "<>" → Q (p ++ z :: q) → Q p) {N pre i tail a s : Str} (h : Q s) (e : pre ++ (tagged N i ++ tail) = a ++ s) :
    (∃ v, pre = a ++ v ∧ Q v) ∨ (∃ u v, py! "cds." ++ N = u ++ v ∧ Q v) ∨
      (∃ u v, i = u ++ v ∧ a = pre ++ (py! "<cds." ++ N ++ ['>']) ++ u ∧ s = v ++ (py! "</cds." ++ N ++ ['>']) ++ tail ∧ Q v) ∨
      (∃ u v, py! "/cds." ++ N = u ++ v ∧ Q v) ∨ ∃ u, tail = u ++ s := by
  have shape : pre ++ (tagged N i ++ tail) = pre ++ '<' :: ((py! "cds." ++ N) ++ '>' :: (i ++ '<' :: ((py! "/cds." ++ N) ++ '>' :: tail))) := by simp [tagged]
  rw [shape] at e
  rcases start_at e with ⟨v, h1, h2⟩ | ⟨a1, h1, e1⟩
  · exact .inl ⟨v, h1, hQ _ _ _ (by decide) (h2 ▸ h)⟩
  rcases start_at e1 with ⟨v, h3, h2⟩ | ⟨a2, h3, e2⟩
  · exact .inr (.inl ⟨_, v, h3, hQ _ _ _ (by decide) (h2 ▸ h)⟩)
  rcases start_at e2 with ⟨v, h4, h2⟩ | ⟨a3, h4, e3⟩
  · exact .inr (.inr (.inl ⟨_, v, h4, by rw [h1, h3]; simp, by rw [h2]; simp, hQ _ _ _ (by decide) (h2 ▸ h)⟩))
  rcases start_at e3 with ⟨v, h5, h2⟩ | ⟨a4, h5, e4⟩
  · exact .inr (.inr (.inr (.inl ⟨_, v, h5, hQ _ _ _ (by decide) (h2 ▸ h)⟩)))
  exact .inr (.inr (.inr (.inr ⟨_, e4⟩)))

end Py
