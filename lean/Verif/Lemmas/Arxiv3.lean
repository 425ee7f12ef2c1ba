import Verif.Lemmas.Arxiv2

/-!
# Helper lemmas: tagging an arXiv identifier in a calm text
-/

namespace Py
open Spec
open scoped List

variable [UnicodeDB]

/-- The beginning of an identifier: the word, the year, the month and the number. -/
structure IdOpening (l s yy h mm s2 num r : Str) : Prop where
  lead : FoldsTo l (py! "ARXIV")
  sep : ∀ c ∈ s, c = ':' ∨ c = '-' ∨ isSpace c = true
  yearTwo : Two yy
  hyphen : h = [] ∨ h = ['-']
  monthTwo : Two mm
  sep2 : ∀ c ∈ s2, c = '.' ∨ c = '-' ∨ isSpace c = true
  numDec : num ≠ [] ∧ ∀ c ∈ num, isDec c = true
  ends : NotFirst (fun c => isDec c = true) r

/-- Of two openings of a text the numbers are the same. -/
theorem opening_unique {l s yy h mm s2 num r l' s' yy' h' mm' s2' num' r' : Str} (k : IdOpening l s yy h mm s2 num r) (k' : IdOpening l' s' yy' h' mm' s2' num' r')
    (e : l ++ s ++ yy ++ h ++ mm ++ s2 ++ num ++ r = l' ++ s' ++ yy' ++ h' ++ mm' ++ s2' ++ num' ++ r') : num = num' := by
  simp only [List.append_assoc] at e
  obtain ⟨rfl, e1⟩ := List.append_inj e (by rw [foldsTo_length k.lead, foldsTo_length k'.lead])
  obtain ⟨rfl, e2⟩ := span_unique e1 k.sep k'.sep (two_first k.yearTwo fun _ => dec_not_sep) (two_first k'.yearTwo fun _ => dec_not_sep)
  obtain ⟨rfl, e3⟩ := List.append_inj e2 (by rw [k.yearTwo.1, k'.yearTwo.1])
  obtain ⟨rfl, e4⟩ := hyphen_unique e3 k.hyphen k'.hyphen k.monthTwo k'.monthTwo
  obtain ⟨rfl, e5⟩ := List.append_inj e4 (by rw [k.monthTwo.1, k'.monthTwo.1])
  obtain ⟨rfl, e6⟩ := span_unique e5 k.sep2 k'.sep2 (notFirst_append k.numDec.1 fun c hc => dec_not_sep2 (k.numDec.2 c hc))
    (notFirst_append k'.numDec.1 fun c hc => dec_not_sep2 (k'.numDec.2 c hc))
  exact (span_unique e6 k.numDec.2 k'.numDec.2 k.ends k'.ends).1

theorem digits_some {n : Nat} {num : Str} (hn : 0 < n) (h : DigitsOf n num) : num ≠ [] ∧ ∀ c ∈ num, isDec c = true :=
  ⟨fun e => by have := h.1; rw [e] at this; simp at this; omega, h.2⟩

/-- The parts of a cited identifier. -/
theorem named_parts {year month : Str → Prop} {n : Nat} {b w r x : Str} (hn : 0 < n) (hy : ∀ y, year y → Two y) (hm : ∀ y, month y → Two y)
    (h : ArxivNamed year month n b w r x) (hw : ∀ c ∈ w, c ∈ calmChars) :
    ∃ l s yy h mm s2 num rest M cat, IdOpening l s yy h mm s2 num rest ∧ w ++ r = l ++ s ++ yy ++ h ++ mm ++ s2 ++ num ++ rest ∧ num.length = n ∧
      IdParts yy mm num cat ∧ x = tagged (py! "ARXIV") (idText yy mm num cat) ∧
      ∃ c0, w = c0 :: (M ++ cat) ∧ smallLetter c0 = 'a' ∧ ∀ c ∈ M, c ∈ markChars ∧ c ≠ 'a' ∧ c ≠ 'A' := by
  obtain ⟨l, s, yy, h, mm, s2, num, ver, sp, cat, rfl, h1, h2, h3, h4, h5, h6, h7, h8, h9, h10, h11, h12, rfl⟩ := h
  have hl : ∃ c0 l', l = c0 :: l' ∧ smallLetter c0 = 'a' ∧ ∀ c ∈ l', c ∈ markChars ∧ c ≠ 'a' ∧ c ≠ 'A' := by
    have hs := folds_small h1 fun c hc => calm_mark (hw c (by simp [hc]))
    cases l with
    | nil => simp at hs
    | cons c0 l' =>
      rw [List.map_cons] at hs
      have hs1 : smallLetter c0 = 'a' := (List.cons.inj hs).1
      have hs2 : l'.map smallLetter = py! "rxiv" := (List.cons.inj hs).2
      refine ⟨c0, l', rfl, hs1, fun c hc => ⟨calm_mark (hw c (by simp [hc])), ?_⟩⟩
      have : smallLetter c ∈ py! "rxiv" := by rw [← hs2]; exact List.mem_map_of_mem hc
      constructor <;> rintro rfl <;> exact absurd this (by decide)
  obtain ⟨c0, l', rfl, hc0, hl'⟩ := hl
  have sepA : ∀ {c : Char}, (c = ':' ∨ c = '-' ∨ isSpace c = true) ∨ (c = '.' ∨ c = '-' ∨ isSpace c = true) → c ≠ 'a' ∧ c ≠ 'A' := by
    intro c hc
    constructor <;> rintro rfl <;> rcases hc with (hc | hc | hc) | hc | hc | hc <;>
      first | exact absurd hc (by decide) | exact absurd hc Bool.false_ne_true
  have decA : ∀ {c : Char}, isDec c = true → c ≠ 'a' ∧ c ≠ 'A' := by
    intro c hc
    constructor <;> rintro rfl <;> exact absurd hc Bool.false_ne_true
  have hver : ∀ c ∈ ver, c ≠ 'a' ∧ c ≠ 'A' := by
    rcases h9 with ⟨g, v, d, rfl, hg, hv, hd⟩ | ⟨rfl, -⟩
    · intro c hc
      rcases List.mem_append.1 hc with hc | hc
      · exact sepA (.inl (.inr (hg c hc)))
      · simp only [List.mem_cons, List.not_mem_nil, or_false] at hc
        rcases hc with rfl | rfl
        · rcases v_chars (.inl hv) with rfl | rfl <;> decide
        · exact decA hd
    · intro c hc; cases hc
  have hcat : cat = [] ∨ ArxivCategory cat := by
    rcases h12 with h | ⟨h, -⟩
    · exact .inr h
    · exact .inl h
  refine ⟨c0 :: l', s, yy, h, mm, s2, num, ver ++ sp ++ cat ++ r, l' ++ s ++ yy ++ h ++ mm ++ s2 ++ num ++ ver ++ sp, cat,
    ⟨h1, h2, hy _ h3, h4, hm _ h5, h6, digits_some hn h7, h8⟩, by simp, h7.1, ⟨hy _ h3, hm _ h5, digits_some hn h7, hcat, ?_⟩, rfl, c0, by simp, hc0, ?_⟩
  · intro c hc
    refine hw c ?_
    simp only [List.mem_append] at hc ⊢
    rcases hc with ((hc | hc) | hc) | hc <;> simp [hc]
  · intro c hc
    have hm' : c ∈ markChars := by
      refine calm_mark (hw c ?_)
      simp only [List.mem_append, List.cons_append, List.mem_cons] at hc ⊢
      rcases hc with (((((((hc | hc) | hc) | hc) | hc) | hc) | hc) | hc) | hc <;> simp [hc]
    refine ⟨hm', ?_⟩
    simp only [List.mem_append] at hc
    rcases hc with (((((((hc | hc) | hc) | hc) | hc) | hc) | hc) | hc) | hc
    · exact (hl' c hc).2
    · exact sepA (.inl (h2 c hc))
    · exact decA ((hy _ h3).2 c hc)
    · rcases h4 with rfl | rfl
      · cases hc
      · rw [List.mem_singleton.1 hc]; decide
    · exact decA ((hm _ h5).2 c hc)
    · exact sepA (.inr (h6 c hc))
    · exact decA (h7.2 c hc)
    · exact hver c hc
    · exact sepA (.inl (.inr (.inr (h10 c hc))))

/-- The word does not begin in the text in front of the identifier. -/
theorem announced_before {pre a d w tail : Str} {c c0 : Char} (hp : Calm pre) (e : pre = a ++ c :: d) (hw : w = c0 :: tail) (h0 : smallLetter c0 = 'a') (hc0 : c0 ∈ markChars) :
    ¬ Announced (c :: d ++ w) := by
  rintro ⟨lead, sep, x, rest, e1, h1, -⟩
  have hcd : Calm (c :: d) := calm_suffix (a := a) (by rw [← e]; exact hp)
  rw [List.append_assoc] at e1
  rcases List.append_eq_append_iff.1 e1 with ⟨y, h2, h3⟩ | ⟨y, h2, h3⟩
  · cases y with
    | nil =>
      rw [List.append_nil] at h2
      have := folds_small h1 fun z hz => calm_mark (hcd.chars z (by rw [← h2]; exact hz))
      exact hcd.words (py! "arxiv") (by simp) ⟨[], [], by rw [← h2, this]; decide⟩
    | cons z y =>
      rw [hw, List.cons_append, List.cons.injEq] at h3
      rw [h2, ← h3.1] at h1
      have key : ∀ {p q v : Str} {z : Char}, FoldsTo (p ++ z :: q) v → ∃ v1 v2 d, v = v1 ++ d :: v2 ∧ v1.length = p.length ∧ d ∈ caseVariants z := by
        intro p
        induction p with
        | nil =>
          intro q v z h
          cases h with
          | cons h _ => exact ⟨[], _, _, rfl, rfl, h⟩
        | cons x p ih =>
          intro q v z h
          cases h with
          | cons h h' =>
            obtain ⟨v1, v2, d, rfl, h2, h3⟩ := ih h'
            exact ⟨_ :: v1, v2, d, rfl, by simp [h2], h3⟩
      obtain ⟨v1, v2, g, hv, hl, hg⟩ := key h1
      have hsm := fold_letter hc0 hg
      rw [h0] at hsm
      cases v1 with
      | nil => simp at hl
      | cons b v1 =>
        have : g ∈ py! "RXIV" := by
          have := (List.cons.inj hv).2
          rw [this]; simp
        exact (by decide : ∀ g ∈ py! "RXIV", 'a' ≠ smallLetter g) g this hsm
  · have := folds_small h1 fun z hz => calm_mark (hcd.chars z (by rw [h2]; simp [hz]))
    exact hcd.words (py! "arxiv") (by simp) ⟨[], y.map smallLetter, by rw [h2, List.map_append, this]; simp; decide⟩

/-- Nor inside the identifier. -/
theorem announced_inside {yy mm num M cat tail u v : Str} (hid : IdParts yy mm num cat) (hM : ∀ c ∈ M, c ∈ markChars ∧ c ≠ 'a' ∧ c ≠ 'A') (ht : Calm tail)
    (e : M ++ cat ++ tail = u ++ v) : ¬ Announced v := by
  intro h
  rw [List.append_assoc] at e
  have tailNo : ∀ {x y : Str}, tail = x ++ y → ¬ Announced y := fun h1 => calm_word (calm_suffix (a := _) (by rw [← h1]; exact ht))
  have hcat : ∀ {x y : Str}, cat ++ tail = x ++ y → ¬ Announced y := by
    intro x y e h
    rcases hid.catOk with rfl | ⟨a, rfl, -, -⟩
    · exact tailNo e h
    · have e' : ('[' :: a) ++ ']' :: tail = x ++ y := by rw [← e]; simp
      rcases start_at e' with ⟨z, h1, h2⟩ | ⟨z, -, h1⟩
      · rw [h2] at h
        refine (no_digit (s := '[' :: a) ?_ h1).1 (announced_cut (by decide) h)
        intro c hc
        refine hid.cat_dec c ?_
        unfold catText
        rw [if_neg (by simp)]
        simp only [List.mem_cons, List.mem_append] at hc ⊢
        exact .inr (.inl hc)
      · exact tailNo h1 h
  rcases List.append_eq_append_iff.1 e with ⟨x, rfl, h1⟩ | ⟨x, h1, h2⟩
  · exact hcat h1 h
  · cases x with
    | nil => exact hcat (x := []) (y := v) (by rw [h2]; simp) h
    | cons d x =>
      rw [h2] at h
      have := hM d (by rw [h1]; simp)
      rcases announced_head h this.1 with h | h
      · exact this.2.1 h
      · exact this.2.2 h

/-- The number of the identifier, in the tagged line. -/
theorem tagged_opening {yy mm num cat rest : Str} (hid : IdParts yy mm num cat) :
    ∃ r, IdOpening (py! "arXiv") [':'] yy [] mm ['.'] num r ∧ idText yy mm num cat ++ py! "</cds.ARXIV>" ++ rest = py! "arXiv" ++ [':'] ++ yy ++ [] ++ mm ++ ['.'] ++ num ++ r := by
  refine ⟨catText cat ++ py! "</cds.ARXIV>" ++ rest, ⟨?_, by simp, hid.yearTwo, .inl rfl, hid.monthTwo, by simp, hid.numDec, ?_⟩, by simp [idText]⟩
  · refine .cons ?_ (.cons ?_ (.cons ?_ (.cons ?_ (.cons ?_ .nil)))) <;> unfold caseVariants <;> rw [if_pos (by decide)] <;> decide
  · intro c hc hd
    unfold catText at hc
    split at hc
    · have : c = '<' := by simpa using hc.symm
      subst this
      exact absurd hd Bool.false_ne_true
    · have : c = ' ' := by simpa using hc.symm
      subst this
      exact absurd hd Bool.false_ne_true

omit [UnicodeDB] in
theorem cons_word {pre w tail x : Str} (h : pre ++ (w ++ tail) = x) : pre ++ w ++ tail = x := by simpa using h

/-- In a calm text the identifier is tagged, and nothing else. -/
theorem tagArxiv_calm {lib : Lib} {ys ys5 : List Str} (hy : lib.years = Re.alts (ys.map Re.str)) (hy5 : lib.years5 = Re.alts (ys5.map Re.str))
    (hys : ∀ y ∈ ys, Two y) (hys5 : ∀ y ∈ ys5, Two y) {pre w tail i : Str} (hp : Calm pre) (ht : Calm tail) (hw : ∀ c ∈ w, c ∈ calmChars) (h : ArxivCited w tail i) :
    tagArxiv lib (pre ++ (w ++ tail)) = pre ++ (tagged (py! "ARXIV") i ++ tail) ∧ ∃ yy mm num cat, IdParts yy mm num cat ∧ i = idText yy mm num cat ∧ 4 ≤ num.length ∧ cat <:+: w ∧ num.length ≤ 5 := by
  have det : ∀ P ∈ [ArxivNamed Year13 Month2 5, ArxivNamed (DigitsOf 2) (DigitsOf 2) 4, ArxivBare (· ∈ ys5) 5, ArxivBare (· ∈ ys) 4], Determined P := by
    intro P hP
    simp only [List.mem_cons, List.not_mem_nil, or_false] at hP
    rcases hP with rfl | rfl | rfl | rfl
    · exact named_determined (by decide) (fun _ => year13_two) (fun _ => month2_two)
    · exact named_determined (by decide) (fun _ h => h) (fun _ h => h)
    · exact bare_determined fun y h => (hys5 y h).1
    · exact bare_determined fun y h => (hys y h).1
  have bare : ∀ {yy mm num cat : Str} {l : List Str} {n : Nat}, 0 < n → IdParts yy mm num cat → (∀ y ∈ l, Two y) →
      Rewritten (ArxivBare (· ∈ l) n) [] (pre ++ (tagged (py! "ARXIV") (idText yy mm num cat) ++ tail)) (pre ++ (tagged (py! "ARXIV") (idText yy mm num cat) ++ tail)) := by
    intro yy mm num cat l n hn hid hl
    refine rewritten_same ?_
    rintro a c d e ⟨w', r, x, e1, hb⟩
    have hd := bare_dotted hn hl hb
    rw [← e1] at hd
    obtain ⟨_, _, _, _, _, _, -, hb1, hb2, -⟩ := hb
    rcases dotted_start hid hp ht e hd with h | ⟨a', z, h, hz⟩
    · refine hb1 ⟨pre ++ py! "<cds.ARXIV>", py! "arXiv:", by rw [h]; simp, ?_⟩
      refine .cons ?_ (.cons ?_ (.cons ?_ (.cons ?_ (.cons ?_ (.cons ?_ .nil))))) <;> unfold caseVariants <;> rw [if_pos (by decide)] <;> decide
    · refine hb2 z ?_ hz
      rw [h]; simp
  have tailNo : ∀ {a : Str} {c : Char} {d : Str}, tail = a ++ c :: d → ¬ Announced (c :: d) := fun h1 => calm_word (calm_suffix (a := _) (by rw [← h1]; exact ht))
  rcases h with h | h
  · have hpre : ∀ b, ArxivNamed Year13 Month2 5 b w tail (tagged (py! "ARXIV") i) := fun _ => h
    obtain ⟨l, s, yy, hh, mm, s2, num, rest, M, cat, hop, hsh, hlen, hid, hx, c0, hw0, hc0, hM⟩ := named_parts (by decide) (fun _ => year13_two) (fun _ => month2_two) h hw
    obtain rfl := tagged_inj hx
    refine ⟨?_, yy, mm, num, cat, hid, rfl, by omega, ⟨c0 :: M, [], by rw [hw0]; simp⟩, by omega⟩
    refine rewrittenBy_unique det (tagArxiv_rewritten hy hy5 _) ?_
    refine .cons (t := pre ++ (tagged (py! "ARXIV") (idText yy mm num cat) ++ tail)) ?_ (.cons (t := pre ++ (tagged (py! "ARXIV") (idText yy mm num cat) ++ tail)) ?_
      (.cons (bare (by decide) hid hys5) (.cons (bare (by decide) hid hys) .nil)))
    · refine rewritten_one ?_ (by rw [hw0]; simp) (hpre _) ?_
      · rintro a c d e ⟨w', r, x, e1, hb⟩
        have := named_announced (fun _ => year13_two) hb
        rw [← e1] at this
        refine announced_before (w := w ++ tail) (c0 := c0) hp e (by rw [hw0]; rfl) hc0 (calm_mark (hw c0 (by rw [hw0]; simp))) this
      · rintro a c d e ⟨w', r, x, e1, hb⟩
        have := named_announced (fun _ => year13_two) hb
        rw [← e1] at this
        exact tailNo e this
    · refine rewritten_same ?_
      rintro a c d e ⟨w', r, x, e1, hb⟩
      have han := named_announced (fun _ h => h) hb
      rw [← e1] at han
      have hs := announced_start hid hp ht e han
      obtain ⟨r2, hop2, e2⟩ := tagged_opening (rest := tail) hid
      obtain ⟨l3, s3, yy3, h3, mm3, s23, num3, ver, sp, cat3, rfl, k1, k2, k3, k4, k5, k6, k7, k8, -⟩ := hb
      have hop3 : IdOpening l3 s3 yy3 h3 mm3 s23 num3 (ver ++ sp ++ cat3 ++ r) := ⟨k1, k2, k3, k4, k5, k6, digits_some (by decide) k7, k8⟩
      have := opening_unique hop2 hop3 (by rw [← e2, ← hs, e1]; simp)
      rw [this, k7.1] at hlen
      cases hlen
  · have hpre : ∀ b, ArxivNamed (DigitsOf 2) (DigitsOf 2) 4 b w tail (tagged (py! "ARXIV") i) := fun _ => h
    obtain ⟨l, s, yy, hh, mm, s2, num, rest, M, cat, hop, hsh, hlen, hid, hx, c0, hw0, hc0, hM⟩ := named_parts (by decide) (fun _ h => h) (fun _ h => h) h hw
    obtain rfl := tagged_inj hx
    refine ⟨?_, yy, mm, num, cat, hid, rfl, by omega, ⟨c0 :: M, [], by rw [hw0]; simp⟩, by omega⟩
    refine rewrittenBy_unique det (tagArxiv_rewritten hy hy5 _) ?_
    refine .cons (t := pre ++ (w ++ tail)) ?_ (.cons (t := pre ++ (tagged (py! "ARXIV") (idText yy mm num cat) ++ tail)) ?_
      (.cons (bare (by decide) hid hys5) (.cons (bare (by decide) hid hys) .nil)))
    · refine rewritten_same ?_
      rintro a c d e ⟨w', r, x, e1, hb⟩
      have han := named_announced (fun _ => year13_two) hb
      rw [← e1] at han
      rcases List.append_eq_append_iff.1 e with ⟨z, rfl, h2⟩ | ⟨z, h2, h3⟩
      · cases z with
        | nil =>
          rw [List.nil_append] at h2
          obtain ⟨l3, s3, yy3, h3, mm3, s23, num3, ver, sp, cat3, rfl, k1, k2, k3, k4, k5, k6, k7, k8, -⟩ := hb
          have hop3 : IdOpening l3 s3 yy3 h3 mm3 s23 num3 (ver ++ sp ++ cat3 ++ r) :=
            ⟨k1, k2, year13_two k3, k4, month2_two k5, k6, digits_some (by decide) k7, k8⟩
          have := opening_unique hop hop3 (by rw [← hsh, h2, e1]; simp)
          rw [this, k7.1] at hlen
          cases hlen
        | cons y z =>
          rw [hw0, List.cons_append, List.cons_append, List.cons.injEq] at h2
          exact announced_inside hid hM ht h2.2 han
      · cases z with
        | nil =>
          rw [List.append_nil] at h2
          rw [List.nil_append] at h3
          obtain ⟨l3, s3, yy3, k0, mm3, s23, num3, ver, sp, cat3, rfl, k1, k2, k3, k4, k5, k6, k7, k8, -⟩ := hb
          have hop3 : IdOpening l3 s3 yy3 k0 mm3 s23 num3 (ver ++ sp ++ cat3 ++ r) :=
            ⟨k1, k2, year13_two k3, k4, month2_two k5, k6, digits_some (by decide) k7, k8⟩
          have := opening_unique hop hop3 (by rw [← hsh, ← h3, e1]; simp)
          rw [this, k7.1] at hlen
          cases hlen
        | cons y z =>
          rw [List.cons_append, List.cons.injEq] at h3
          obtain ⟨rfl, rfl⟩ := h3
          refine announced_before (w := w ++ tail) (c0 := c0) hp h2 (by rw [hw0]; rfl) hc0 (calm_mark (hw c0 (by rw [hw0]; simp))) han
    · refine rewritten_one ?_ (by rw [hw0]; simp) (hpre _) ?_
      · rintro a c d e ⟨w', r, x, e1, hb⟩
        have := named_announced (fun _ h => h) hb
        rw [← e1] at this
        refine announced_before (w := w ++ tail) (c0 := c0) hp e (by rw [hw0]; rfl) hc0 (calm_mark (hw c0 (by rw [hw0]; simp))) this
      · rintro a c d e ⟨w', r, x, e1, hb⟩
        have := named_announced (fun _ h => h) hb
        rw [← e1] at this
        exact tailNo e this

/-- The catch-up form is not in the tagged line. -/
theorem catchup_calm {yy mm num cat pre tail : Str} (hid : IdParts yy mm num cat) (hn : 4 ≤ num.length) (hp : Calm pre) (ht : Calm tail) :
    sub Rx.RE_ARXIV_CATCHUP (fun m => m.tgroup G.suffix ++ ['/'] ++ m.tgroup G.year ++ m.tgroup G.month ++ m.tgroup G.num)
      (pre ++ (tagged (py! "ARXIV") (idText yy mm num cat) ++ tail)) = pre ++ (tagged (py! "ARXIV") (idText yy mm num cat) ++ tail) := by
  refine rewritten_unique catchup_determined (catchup_rewritten _) (rewritten_same ?_)
  rintro a c d e ⟨w', r, x, e1, hb⟩
  have han := catchup_announced hb
  rw [← e1] at han
  have hs := announced_start hid hp ht e han
  obtain ⟨r2, hop2, e2⟩ := tagged_opening (rest := tail) hid
  obtain ⟨l3, s3, yy3, h3, mm3, s23, num3, sp, a3, rfl, k1, k2, k3, k4, k5, k6, k7, k8, -⟩ := hb
  have hop3 : IdOpening l3 s3 yy3 h3 mm3 s23 num3 (sp ++ ['['] ++ a3 ++ [']'] ++ r) := by
    refine ⟨k1, k2, k3, k4, k5, k6, digits_some (by decide) k7, ?_⟩
    intro c hc hd
    cases sp with
    | nil =>
      have : c = '[' := by simpa using hc.symm
      subst this
      exact absurd hd Bool.false_ne_true
    | cons y sp =>
      have : c = y := by simpa using hc.symm
      subst this
      have := k8 c (by simp)
      rw [isDec_not_space hd] at this
      cases this
  have := opening_unique hop2 hop3 (by rw [← e2, ← hs, e1]; simp)
  rw [this, k7.1] at hn
  omega

end Py
