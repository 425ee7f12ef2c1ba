import Verif.Lemmas.Built
import Verif.Lemmas.Tag

/-!
# The fixed identifiers keep tags whole
-/

open Py Spec
open scoped List

namespace Py

variable [UnicodeDB] {uni : Str → Str} {spell : Char → Str}

/-- No angle brackets. -/
def Clean (s : Str) : Prop := ∀ c ∈ s, c ≠ '<' ∧ c ≠ '>'

omit [UnicodeDB] in
theorem Clean.append {a b : Str} (ha : Clean a) (hb : Clean b) : Clean (a ++ b) := by
  intro c hc
  rw [List.mem_append] at hc
  exact hc.elim (ha c) (hb c)
omit [UnicodeDB] in
theorem Clean.nil : Clean [] := by intro c hc; cases hc
omit [UnicodeDB] in
theorem Clean.cons {c : Char} {s : Str} (h1 : c ≠ '<') (h2 : c ≠ '>') (hs : Clean s) : Clean (c :: s) := by
  intro d hd
  rw [List.mem_cons] at hd
  rcases hd with rfl | hd
  · exact ⟨h1, h2⟩
  · exact hs d hd
omit [UnicodeDB] in
theorem Clean.one {c : Char} (h1 : c ≠ '<') (h2 : c ≠ '>') : Clean [c] := Clean.nil.cons h1 h2
omit [UnicodeDB] in
theorem clean_all {s : Str} (h : s.all (fun c => c != '<' && c != '>') = true) : Clean s := by
  intro c hc
  have := List.all_eq_true.1 h c hc
  simpa using this
omit [UnicodeDB] in
theorem clean_of {s : Str} {p : Char → Bool} (hs : ∀ c ∈ s, p c = true) (h1 : p '<' = false) (h2 : p '>' = false) : Clean s := by
  intro c hc
  have := hs c hc
  refine ⟨?_, ?_⟩ <;> rintro rfl
  · rw [h1] at this; cases this
  · rw [h2] at this; cases this
omit [UnicodeDB] in
theorem clean_mem {s : Str} {l : Str} (hs : ∀ c ∈ s, c ∈ l) (h1 : '<' ∉ l) (h2 : '>' ∉ l) : Clean s := by
  intro c hc
  have := hs c hc
  refine ⟨?_, ?_⟩ <;> rintro rfl
  · exact h1 this
  · exact h2 this

omit [UnicodeDB] in
theorem clean_in {c : Char} {l : Str} (h : c ∈ l) (h1 : '<' ∉ l) (h2 : '>' ∉ l) : Clean [c] :=
  clean_mem (l := l) (fun d hd => by rw [List.mem_singleton.1 hd]; exact h) h1 h2

theorem isDec_lt : isDec '<' = false := rfl
theorem isDec_gt : isDec '>' = false := rfl

theorem clean_digits {n : Nat} {x : Str} (h : DigitsOf n x) : Clean x := clean_of h.2 isDec_lt isDec_gt

omit [UnicodeDB] in
theorem clean_spaces {x : Str} (h : Spaces x) : Clean x := clean_of h (by decide) (by decide)

theorem clean_folds {x y : Str} (h : FoldsTo x y) (hy : Clean y) : Clean x := by
  induction h with
  | nil => exact Clean.nil
  | @cons c d x y h _ ih =>
    refine Clean.cons ?_ ?_ (ih fun e he => hy e (by simp [he]))
    · rintro rfl
      have : d = '<' := by
        have e : caseVariants '<' = ['<', '<'] := rfl
        rw [e] at h; simpa using h
      exact (hy d (by simp)).1 this
    · rintro rfl
      have : d = '>' := by
        have e : caseVariants '>' = ['>', '>'] := rfl
        rw [e] at h; simpa using h
      exact (hy d (by simp)).2 this


theorem clean_words {x : Str} (h : ∀ c ∈ x, isWord c = true) : Clean x := clean_of h rfl rfl

/-- Tags have no decimal digits. -/
theorem foreign_digit {w : Str} {c : Char} (hc : c ∈ w) (hd : isDec c = true) : ∀ t ∈ wholeTags, ¬ w <:+: t := by
  intro t ht hi
  have h1 : ∀ t ∈ wholeTags, t.all (fun c => isAscii c && !isAsciiDigit c) = true := by decide
  have h2 := List.all_eq_true.1 (h1 t ht) c (hi.subset hc)
  simp only [Bool.and_eq_true, Bool.not_eq_true'] at h2
  rw [isDec, decVal, if_pos h2.1, h2.2] at hd
  simp at hd

theorem foreign_digits {n : Nat} {num w : Str} (h : DigitsOf (n + 1) num) (hs : ∀ c ∈ num, c ∈ w) : ∀ t ∈ wholeTags, ¬ w <:+: t := by
  obtain ⟨h1, h2⟩ := h
  cases num with
  | nil => simp at h1
  | cons c r => exact foreign_digit (hs c (by simp)) (h2 c (by simp))

omit [UnicodeDB] in
theorem neutral_tagged {name x : Str} (hn : name ∈ [py! "QUOTED", py! "ISBN", py! "ARXIV", py! "REPORTNUMBER", py! "JOURNAL", py! "VOL", py! "YR", py! "PG"])
    (hx : Neutral spell x) : Neutral spell (tagged name x) := by
  have e : tagged name x = (py! "<cds." ++ name ++ ['>']) ++ x ++ (py! "</cds." ++ name ++ ['>']) := by simp [tagged]
  rw [e]
  have h : ∀ n ∈ [py! "QUOTED", py! "ISBN", py! "ARXIV", py! "REPORTNUMBER", py! "JOURNAL", py! "VOL", py! "YR", py! "PG"],
      (py! "<cds." ++ n ++ ['>'] ∈ wholeTags ∧ py! "<cds." ++ n ++ ['>'] ≠ py! "<cds.DOI />" ∧ py! "<cds." ++ n ++ ['>'] ≠ py! "<cds.URL />") ∧
      (py! "</cds." ++ n ++ ['>'] ∈ wholeTags ∧ py! "</cds." ++ n ++ ['>'] ≠ py! "<cds.DOI />" ∧ py! "</cds." ++ n ++ ['>'] ≠ py! "<cds.URL />") := by decide
  obtain ⟨⟨a1, a2, a3⟩, b1, b2, b3⟩ := h name hn
  exact ((built_tag a1 a2 a3).append hx).append (built_tag b1 b2 b3)

omit [UnicodeDB] in
/-- Replacing pieces as described keeps tags whole. -/
def Fits (spell : Char → Str) (P : Str → Str → Str → Str → Prop) : Prop :=
  ∀ {d u b w r x}, P b w r x → ∀ a, Built spell d u (a ++ w ++ r) → Built spell d u (a ++ x ++ r)

omit [UnicodeDB] in
theorem fits_of {P : Str → Str → Str → Str → Prop}
    (h : ∀ {b w r x}, P b w r x → Clean w ∧ (∀ t ∈ wholeTags, ¬ w <:+: t) ∧ (NoAngle spell w → Neutral spell x)) : Fits spell P := by
  intro d u b w r x hp a hb
  obtain ⟨h1, h2, h3⟩ := h hp
  exact hb.replace (fun hc => (h1 _ hc).1 rfl) (fun hc => (h1 _ hc).2 rfl) h2 h3

omit [UnicodeDB] in
theorem fits_quoted : Fits spell QuotedTitle := by
  rintro d u b w r x ⟨t, rfl, hne, hq, rfl⟩ a hb
  obtain ⟨ps, e, hok, c1, c2⟩ := hb.parts
  have hin : ∀ t ∈ wholeTags, ¬ ['"'] <:+: t := by
    intro t ht hi
    have : ∀ t ∈ wholeTags, '"' ∉ t := by decide
    exact this t ht (hi.subset (by simp))
  obtain ⟨pa, pr, rfl, ea, er⟩ := render_piece (a := a) (w := ['"']) (r := t ++ ['"'] ++ r) hok (by rw [e]; simp) (by decide) (by decide) hin
  obtain ⟨pt, pr', rfl, et, er'⟩ := render_piece (ps := pr) (a := t) (w := ['"']) (r := r) (fun p hp => hok p (by simp [hp])) (by rw [er]) (by decide) (by decide) hin
  have h1 : Built spell _ _ a := ⟨pa, ea, fun p hp => hok p (by simp [hp]), rfl, rfl⟩
  have h2 : Built spell _ _ r := ⟨pr', er', fun p hp => hok p (by simp [hp]), rfl, rfl⟩
  have h3 : Built spell (tally (py! "<cds.DOI />") pt) (tally (py! "<cds.URL />") pt) t := ⟨pt, et, fun p hp => hok p (by simp [hp]), rfl, rfl⟩
  have e1 : tagged (py! "QUOTED") t = py! "<cds.QUOTED>" ++ t ++ py! "</cds.QUOTED>" := by simp [tagged]
  have h4 := (h1.append ((Built.append (built_tag (spell := spell) (t := py! "<cds.QUOTED>") (by decide) (by decide) (by decide)) h3).append
    (built_tag (spell := spell) (t := py! "</cds.QUOTED>") (by decide) (by decide) (by decide)))).append h2
  rw [e1]
  simp only [tally_append, tally_chars] at c1 c2
  have : tally (py! "<cds.DOI />") pa + (0 + tally (py! "<cds.DOI />") pt + 0) + tally (py! "<cds.DOI />") pr' = d := by omega
  rw [this] at h4
  have : tally (py! "<cds.URL />") pa + (0 + tally (py! "<cds.URL />") pt + 0) + tally (py! "<cds.URL />") pr' = u := by omega
  rw [this] at h4
  exact h4

omit [UnicodeDB] in
theorem fits_isbn : Fits spell IsbnText := by
  refine fits_of ?_
  rintro b w r x ⟨l, k, code, rfl, hl, hk, h10, -, hc, -, rfl⟩
  have cl : Clean l := by
    rcases hl with ⟨s, n, rfl, hs, hn, -⟩ | rfl
    · refine ((clean_all (by decide)).append (clean_mem hs (by decide) (by decide))).append ?_
      rcases hn with rfl | rfl | rfl <;> exact clean_all (by decide)
    · exact clean_all (by decide)
  have ck : Clean k := by
    intro c h
    rcases hk c h with rfl | h
    · decide
    · refine ⟨?_, ?_⟩ <;> rintro rfl <;> revert h <;> decide
  have cc : Clean code := clean_mem hc (by decide) (by decide)
  refine ⟨(cl.append ck).append cc, ?_, fun hw => neutral_tagged (by decide) (built_text (hw.of_sub fun c h => by simp [h]))⟩
  have hcount : 1 < (l ++ k ++ code).countP (fun c => (py! "-–0123456789Xx").contains c) := by
    rw [List.countP_append]
    have : code.countP (fun c => (py! "-–0123456789Xx").contains c) = code.length := by
      rw [List.countP_eq_length]
      intro c h
      exact List.contains_iff_mem.2 (hc c h)
    omega
  exact piece_of_char 1 hcount (by decide)

theorem clean_fold {x y : Str} (h : FoldsTo x y) (hy : y.all (fun c => c != '<' && c != '>') = true) : Clean x := clean_folds h (clean_all hy)

omit [UnicodeDB] in
theorem clean_or {s : Str} {p q : Char} (h : ∀ c ∈ s, c = p ∨ c = q ∨ isSpace c = true) (hp : p ≠ '<' ∧ p ≠ '>') (hq : q ≠ '<' ∧ q ≠ '>') : Clean s := by
  intro c hc
  rcases h c hc with rfl | rfl | h
  · exact hp
  · exact hq
  · refine ⟨?_, ?_⟩ <;> rintro rfl <;> revert h <;> decide

theorem clean_category {s : Str} (h : ArxivCategory s) : Clean s := by
  obtain ⟨a, rfl, -, ha⟩ := h
  refine ((Clean.one (by decide) (by decide)).append (?_ : Clean a)).append (Clean.one (by decide) (by decide))
  intro c hc
  rcases ha c hc with rfl | rfl | ⟨d, hd, hu⟩
  · decide
  · decide
  · refine ⟨?_, ?_⟩ <;> rintro rfl
    · have : d = '<' := by simpa [show caseVariants '<' = ['<', '<'] from rfl] using hd
      subst this; revert hu; decide
    · have : d = '>' := by simpa [show caseVariants '>' = ['>', '>'] from rfl] using hd
      subst this; revert hu; decide

theorem clean_version {v : Str} (h : ArxivVersion v) : Clean v := by
  obtain ⟨g, c, d, rfl, hg, hc, hd⟩ := h
  refine Clean.append ?_ ?_
  · intro a ha
    rcases hg a ha with rfl | h
    · decide
    · refine ⟨?_, ?_⟩ <;> rintro rfl <;> revert h <;> decide
  · have h1 := clean_fold hc (by decide)
    have h2 : Clean [d] := clean_of (p := isDec) (by simpa using hd) isDec_lt isDec_gt
    exact h1.append h2

omit [UnicodeDB] in
theorem clean_opt {p : Str → Str → Prop} {x r : Str} (h : Optionally p x r) (hp : ∀ {y z}, p y z → Clean y) : Clean x := by
  rcases h with h | ⟨rfl, -⟩
  · exact hp h
  · exact Clean.nil

omit [UnicodeDB] in
theorem clean_month {m : Str} (h : Month2 m) : Clean m := by
  obtain ⟨a, b, rfl, ⟨rfl, hb⟩ | ⟨rfl, hb⟩⟩ := h
  · exact Clean.cons (by decide) (by decide) (clean_in hb (by decide) (by decide))
  · exact Clean.cons (by decide) (by decide) (clean_in hb (by decide) (by decide))

omit [UnicodeDB] in
theorem clean_year13 {m : Str} (h : Year13 m) : Clean m := by
  obtain ⟨a, b, rfl, ⟨rfl, hb⟩ | ⟨ha, hb⟩⟩ := h
  · exact Clean.cons (by decide) (by decide) (clean_in hb (by decide) (by decide))
  · exact (clean_in ha (by decide) (by decide)).append (clean_in hb (by decide) (by decide))

omit [UnicodeDB] in
theorem clean_year91 {m : Str} (h : Year91 m) : Clean m := by
  obtain ⟨a, b, rfl, ⟨rfl, hb⟩ | ⟨rfl, hb⟩⟩ := h
  · exact Clean.cons (by decide) (by decide) (clean_in hb (by decide) (by decide))
  · exact Clean.cons (by decide) (by decide) (clean_in hb (by decide) (by decide))

theorem neutral_arxivId (S : Spelled uni spell) {yy mm num cat : Str} (h : NoAngle spell (yy ++ mm ++ num ++ cat)) : Neutral spell (arxivId yy mm num cat) := by
  refine neutral_tagged (by decide) (built_text ?_)
  have h1 : NoAngle spell (py! "arXiv:") := plain_ascii S (by decide) (by decide)
  have h2 : NoAngle spell ['.'] := plain_ascii S (by decide) (by decide)
  have h3 : NoAngle spell [' '] := plain_ascii S (by decide) (by decide)
  refine ((((h1.append (h.of_sub (by simp +contextual))).append (h.of_sub (by simp +contextual))).append h2).append (h.of_sub (by simp +contextual))).append ?_
  split
  · intro c hc; cases hc
  · exact h3.append (h.of_sub (by simp +contextual))

theorem fits_named (S : Spelled uni spell) {year month : Str → Prop} {n : Nat} (hy : ∀ {y}, year y → Clean y) (hm : ∀ {y}, month y → Clean y) :
    Fits spell (ArxivNamed year month (n + 1)) := by
  refine fits_of ?_
  rintro b w r x ⟨lead, sep, yy, h, mm, sep2, num, ver, sp, cat, rfl, h1, h2, h3, h4, h5, h6, h7, -, h8, h9, -, h10, rfl⟩
  refine ⟨?_, foreign_digits h7 (fun c hc => by simp [hc]), fun hw => neutral_arxivId S (hw.of_sub fun c hc => ?_)⟩
  · have c4 : Clean h := by rcases h4 with rfl | rfl <;> exact clean_all (by decide)
    exact (((((((((clean_fold h1 (by decide)).append (clean_or h2 (by decide) (by decide))).append (hy h3)).append c4).append (hm h5)).append
      (clean_or h6 (by decide) (by decide))).append (clean_digits h7)).append (clean_opt h8 clean_version)).append (clean_spaces h9)).append
      (clean_opt h10 clean_category)
  · simp only [List.mem_append] at hc ⊢
    rcases hc with ((hc | hc) | hc) | hc <;> simp [hc]

theorem fits_bare (S : Spelled uni spell) {year : Str → Prop} {n : Nat} (hy : ∀ {y}, year y → Clean y) : Fits spell (ArxivBare year (n + 1)) := by
  refine fits_of ?_
  rintro b w r x ⟨yy, mm, num, ver, sp, cat, rfl, -, -, h3, h5, h7, h8, -, h9, -, h10, rfl⟩
  refine ⟨?_, foreign_digits h7 (fun c hc => by simp [hc]), fun hw => neutral_arxivId S (hw.of_sub fun c hc => ?_)⟩
  · exact ((((((hy h3).append (clean_month h5)).append (clean_all (by decide))).append (clean_digits h7)).append
      (clean_opt h8 fun h => clean_version h.1)).append (clean_spaces h9)).append (clean_opt h10 clean_category)
  · simp only [List.mem_append] at hc ⊢
    rcases hc with ((hc | hc) | hc) | hc <;> simp [hc]

theorem fits_catchup (S : Spelled uni spell) : Fits spell ArxivCatchup := by
  refine fits_of ?_
  rintro b w r x ⟨lead, sep, yy, h, mm, sep2, num, sp, a, rfl, h1, h2, h3, h4, h5, h6, h7, h8, h9, rfl⟩
  refine ⟨?_, foreign_digits h7 (fun c hc => by simp [hc]), fun hw => built_text ?_⟩
  · have c4 : Clean h := by rcases h4 with rfl | rfl <;> exact clean_all (by decide)
    have := ((((((((clean_fold h1 (by decide)).append (clean_or h2 (by decide) (by decide))).append (clean_digits h3)).append c4).append (clean_digits h5)).append
      (clean_or h6 (by decide) (by decide))).append (clean_digits h7)).append (clean_spaces h8)).append (clean_category h9)
    simpa using this
  · have h2 : NoAngle spell ['/'] := plain_ascii S (by decide) (by decide)
    exact ((((hw.of_sub fun c hc => by simp [hc]).append h2).append (hw.of_sub fun c hc => by simp [hc])).append (hw.of_sub fun c hc => by simp [hc])).append
      (hw.of_sub fun c hc => by simp [hc])

theorem fits_old (S : Spelled uni spell) {name : Str} {two : Bool} {repl : Option Str} (hn : name.all (fun c => c != '<' && c != '>') = true)
    (hr : (repl.getD []).all (fun c => isAscii c && c != '<') = true) : Fits spell (OldArxiv name two repl) := by
  refine fits_of ?_
  rintro b w r x ⟨n, sep, yy, mm, num, ver, rfl, -, -, h1, h2, h3, h4, h5, h6, -, rfl⟩
  refine ⟨?_, foreign_digits h5 (fun c hc => by simp [hc]), fun hw => neutral_tagged (by decide) (built_text ?_)⟩
  · have c1 : Clean n := by
      obtain ⟨u, v, rfl, hu, hv⟩ := h1
      refine (clean_fold hu hn).append ?_
      cases two with
      | false => rw [if_neg (by simp)] at hv; subst hv; exact Clean.nil
      | true =>
        rw [if_pos rfl] at hv
        intro c hc
        obtain ⟨d, hd, hl⟩ := hv.2 c hc
        refine ⟨?_, ?_⟩ <;> rintro rfl
        · have : d = '<' := by simpa [show caseVariants '<' = ['<', '<'] from rfl] using hd
          subst this; revert hl; decide
        · have : d = '>' := by simpa [show caseVariants '>' = ['>', '>'] from rfl] using hd
          subst this; revert hl; decide
    have c2 : Clean sep := by
      rcases h2 with rfl | ⟨c, rfl, hc | hc⟩
      · exact Clean.nil
      · exact clean_in hc (by decide) (by decide)
      · exact clean_spaces (by simpa [Spaces] using hc)
    have c6 : Clean ver := by
      rcases h6 with rfl | ⟨c, d, rfl, hc, -, -, hd⟩
      · exact Clean.nil
      · have h1 := clean_fold hc (by decide)
        have h2 : Clean d := clean_of hd isDec_lt isDec_gt
        exact h1.append h2
    exact ((((c1.append c2).append (clean_year91 h3)).append (clean_month h4)).append (clean_digits h5)).append c6
  · have h2 : NoAngle spell ['/'] := plain_ascii S (by decide) (by decide)
    have h0 : NoAngle spell (repl.getD n) := by
      cases repl with
      | none => exact hw.of_sub fun c hc => by simp only [Option.getD_none] at hc; simp [hc]
      | some v =>
        simp only [Option.getD_some, List.all_eq_true, Bool.and_eq_true, bne_iff_ne] at hr ⊢
        exact plain_ascii S (List.all_eq_true.2 fun c hc => (hr c hc).1) fun hm => (hr _ hm).2 rfl
    exact (((h0.append h2).append (hw.of_sub fun c hc => by simp [hc])).append (hw.of_sub fun c hc => by simp [hc])).append
      (hw.of_sub fun c hc => by simp [hc])

theorem fits_atlas (S : Spelled uni spell) {code : Str → Prop} {name : Str} (hcode : ∀ {c}, code c → Clean c ∧ ∃ d ∈ c, isDec d = true)
    (hn : name.all (fun c => isAscii c && c != '<') = true) : Fits spell (AtlasNote code name) := by
  refine fits_of ?_
  rintro b w r x ⟨k, c, rfl, -, hk, hc, -, rfl⟩
  obtain ⟨h1, d, hd, hd'⟩ := hcode hc
  refine ⟨Clean.append ?_ h1, foreign_digit (by simp [hd]) hd', fun hw => neutral_tagged (by decide) (built_text ?_)⟩
  · rcases hk with rfl | rfl <;> exact clean_all (by decide)
  · refine NoAngle.append ?_ (hw.of_sub fun c hc => by simp [hc])
    simp only [List.all_eq_true, Bool.and_eq_true, bne_iff_ne] at hn
    exact plain_ascii S (List.all_eq_true.2 fun c hc => (hn c hc).1) fun hm => (hn _ hm).2 rfl

theorem code_before {c : Str} (h : CodeBefore2010 c) : Clean c ∧ ∃ d ∈ c, isDec d = true := by
  obtain ⟨y, n, rfl, hy, hn⟩ := h
  refine ⟨((?_ : Clean y).append (clean_all (by decide))).append (clean_digits hn), ?_⟩
  · rcases hy with rfl | ⟨d, rfl, hd⟩
    · exact clean_all (by decide)
    · exact (clean_all (by decide)).append (clean_of (p := isDec) (by simpa using hd) isDec_lt isDec_gt)
  · obtain ⟨h1, h2⟩ := hn
    cases n with
    | nil => simp at h1
    | cons a n => exact ⟨a, by simp, h2 a (by simp)⟩

theorem code_since {c : Str} (h : CodeSince2010 c) : Clean c ∧ ∃ d ∈ c, isDec d = true := by
  obtain ⟨a, d, n, rfl, ha, hd, hn⟩ := h
  refine ⟨?_, d, by simp, hd⟩
  have h1 : Clean [a] := clean_in ha (by decide) (by decide)
  have h2 : Clean [d] := clean_of (p := isDec) (by simpa using hd) isDec_lt isDec_gt
  have := (((clean_all (s := py! "20") (by decide)).append (h1.append h2)).append (clean_all (s := ['-']) (by decide))).append (clean_digits hn)
  simpa using this

/-! ### Proceedings of Science -/

omit [UnicodeDB] in
theorem clean_sep {s : Str} (h : PosSep s) : Clean s := by
  obtain ⟨a, c, b, rfl, ha, hc, hb⟩ := h
  refine ((clean_spaces ha).append ?_).append (clean_spaces hb)
  rcases hc with hc | hc
  · exact clean_in hc (by decide) (by decide)
  · exact clean_spaces (by simpa [Spaces] using hc)

omit [UnicodeDB] in
theorem clean_gap {s : Str} (h : PosGap s) : Clean s := h.elim clean_sep clean_spaces

theorem clean_year4 {s : Str} (h : Year4 s) : Clean s := by
  obtain ⟨p, d, rfl, hp, hd⟩ := h
  refine Clean.append ?_ (clean_digits hd)
  rcases hp with rfl | rfl <;> exact clean_all (by decide)

theorem clean_posYear {s y : Str} (h : PosYear s y) : Clean s := by
  obtain ⟨hy, rfl | ⟨a, b, rfl, ha, hb⟩⟩ := h
  · exact ((clean_all (s := ['(']) (by decide)).append (clean_year4 hy)).append (clean_all (by decide))
  · have h1 : Clean [a] := clean_spaces (by simpa [Spaces] using ha)
    have h2 : Clean [b] := clean_spaces (by simpa [Spaces] using hb)
    exact (h1.append (clean_year4 hy)).append h2

theorem clean_volume {s v : Str} (h : PosVolume s v) : Clean s := by
  obtain ⟨name, g, y, rfl, -, -, -, h1, h2, h3⟩ := h
  exact ((clean_words h1).append (clean_gap h2)).append (clean_year4 h3)

theorem clean_page {p r : Str} (h : PosPage p r) : Clean p := clean_of h.2.2.1 isDec_lt isDec_gt

theorem page_digit {p r w : Str} (h : PosPage p r) (hs : ∀ c ∈ p, c ∈ w) : ∀ t ∈ wholeTags, ¬ w <:+: t := by
  obtain ⟨h1, -, h2, -⟩ := h
  cases p with
  | nil => simp at h1
  | cons c p => exact foreign_digit (hs c (by simp)) (h2 c (by simp))

theorem posYear_sub {s y : Str} (h : PosYear s y) : ∀ c ∈ y, c ∈ s := by
  obtain ⟨-, rfl | ⟨a, b, rfl, -, -⟩⟩ := h <;> intro c hc <;> simp [hc]

theorem volume_sub {s v : Str} (h : PosVolume s v) : ∀ c ∈ v, c ∈ s := by
  obtain ⟨name, g, y, rfl, rfl, -⟩ := h
  intro c hc
  rw [List.mem_append] at hc
  rcases hc with hc | hc <;> simp [hc]

theorem neutral_pos (S : Spelled uni spell) {v y p : Str} (hv : NoAngle spell v) (hy : NoAngle spell y) (hp : NoAngle spell p) :
    Neutral spell (posCitation v y p) := by
  have lit : ∀ {s : Str}, s.all (fun c => isAscii c && c != '<') = true → NoAngle spell s := by
    intro s hs
    simp only [List.all_eq_true, Bool.and_eq_true, bne_iff_ne] at hs
    exact plain_ascii S (List.all_eq_true.2 fun c hc => (hs c hc).1) fun hm => (hs _ hm).2 rfl
  have b : Neutral spell [' '] := built_text (lit (by decide))
  unfold posCitation
  refine ((((((neutral_tagged (by decide) (built_text (lit (by decide)))).append b).append (neutral_tagged (by decide) (built_text hv))).append b).append
    (neutral_tagged (by decide) (built_text ?_))).append b).append (neutral_tagged (by decide) (built_text hp))
  exact ((lit (s := ['(']) (by decide)).append hy).append (lit (by decide))

theorem fits_posFirst (S : Spelled uni spell) : Fits spell PosYearFirst := by
  refine fits_of ?_
  rintro b w r x ⟨t, g, ys, g2, vs, g3, p, y, v, rfl, h1, h2, h3, h4, h5, h6, h7, rfl⟩
  refine ⟨?_, page_digit h7 (fun c hc => by simp [hc]), fun hw => neutral_pos S (hw.of_sub fun c hc => ?_) (hw.of_sub fun c hc => ?_) (hw.of_sub fun c hc => ?_)⟩
  · exact ((((((clean_fold h1 (by decide)).append (clean_gap h2)).append (clean_posYear h3)).append (clean_sep h4)).append (clean_volume h5)).append
      (clean_sep h6)).append (clean_page h7)
  · simp [volume_sub h5 c hc]
  · simp [posYear_sub h3 c hc]
  · simp [hc]

theorem fits_posMiddle (S : Spelled uni spell) : Fits spell PosYearMiddle := by
  refine fits_of ?_
  rintro b w r x ⟨t, g, vs, g2, ys, g3, p, y, v, rfl, h1, h2, h3, h4, h5, h6, h7, rfl⟩
  refine ⟨?_, page_digit h7 (fun c hc => by simp [hc]), fun hw => neutral_pos S (hw.of_sub fun c hc => ?_) (hw.of_sub fun c hc => ?_) (hw.of_sub fun c hc => ?_)⟩
  · exact ((((((clean_fold h1 (by decide)).append (clean_sep h2)).append (clean_volume h3)).append (clean_gap h4)).append (clean_posYear h5)).append
      (clean_gap h6)).append (clean_page h7)
  · simp [volume_sub h3 c hc]
  · simp [posYear_sub h5 c hc]
  · simp [hc]

theorem fits_posLast (S : Spelled uni spell) : Fits spell PosYearLast := by
  refine fits_of ?_
  rintro b w r x ⟨t, g, vs, g2, p, g3, ys, y, v, rfl, h1, h2, h3, h4, h5, h6, h7, rfl⟩
  refine ⟨?_, page_digit h5 (fun c hc => by simp [hc]), fun hw => neutral_pos S (hw.of_sub fun c hc => ?_) (hw.of_sub fun c hc => ?_) (hw.of_sub fun c hc => ?_)⟩
  · exact ((((((clean_fold h1 (by decide)).append (clean_sep h2)).append (clean_volume h3)).append (clean_sep h4)).append (clean_page h5)).append
      (clean_gap h6)).append (clean_posYear h7)
  · simp [volume_sub h3 c hc]
  · simp [posYear_sub h7 c hc]
  · simp [hc]

theorem fits_posBrackets (S : Spelled uni spell) : Fits spell PosBrackets := by
  refine fits_of ?_
  rintro b w r x ⟨t, g, vs, g2, p, name, gap, y, rfl, h1, h2, rfl, -, -, h3, h4, h5, h6, h7, rfl⟩
  refine ⟨?_, page_digit h7 (fun c hc => by simp [hc]), fun hw => neutral_pos S (hw.of_sub fun c hc => ?_) (hw.of_sub fun c hc => ?_) (hw.of_sub fun c hc => ?_)⟩
  · exact ((((((clean_fold h1 (by decide)).append (clean_gap h2)).append (clean_all (by decide))).append
      (((clean_words h3).append (clean_gap h4)).append (clean_year4 h5))).append (clean_all (by decide))).append (clean_gap h6)).append (clean_page h7)
  · rw [List.mem_append] at hc
    rcases hc with hc | hc <;> simp [hc]
  · simp [hc]
  · simp [hc]

end Py
