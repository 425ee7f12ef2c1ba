import Verif.Lemmas.Transform

/-!
# Lemmas about special journals and about cutting at a separator
-/

namespace Py
open Spec

/-! ### Numbers as strings -/

theorem isDec_not_space [U : UnicodeDB] {c : Char} (h : isDec c = true) : isSpace c = false := by
  by_cases ha : isAscii c = true
  · rw [isDec_ascii ha] at h
    simp [isAsciiDigit] at h
    simp [isSpace]
    omega
  · have ha' : isAscii c = false := by simpa using ha
    apply U.digit_nspace
    apply U.dec_digit
    simpa [isDec, decVal, ha'] using h

theorem isDec_isDigit [U : UnicodeDB] {c : Char} (h : isDec c = true) : isDigitC c = true := by
  by_cases ha : isAscii c = true
  · rw [isDec_ascii ha] at h; simp [isDigitC, ha, h]
  · have ha' : isAscii c = false := by simpa using ha
    simp only [isDigitC, ha']
    apply U.dec_digit
    simpa [isDec, decVal, ha'] using h

theorem stripP_none {p : Char → Bool} {s : Str} (h : ∀ c ∈ s, p c = false) : stripP p s = s := by
  have h1 : lstripP p s = s := by
    unfold lstripP
    cases s with
    | nil => rfl
    | cons c t => simp [h c (by simp)]
  rw [stripP, h1, rstripP]
  cases hr : s.reverse with
  | nil => simp at hr; simp [hr]
  | cons c t =>
    have : c ∈ s := by rw [← List.mem_reverse, hr]; simp
    rw [List.dropWhile_cons, h c this, if_neg (by simp), ← hr, List.reverse_reverse]

theorem strip_dec [UnicodeDB] {s : Str} (h : ∀ c ∈ s, isDec c = true) : strip s = s :=
  stripP_none fun c hc => isDec_not_space (h c hc)

theorem strip_dec_nl [UnicodeDB] {s : Str} (h : ∀ c ∈ s, isDec c = true) : strip (s ++ ['\n']) = s := by
  cases s with
  | nil => rfl
  | cons c t =>
    have h1 : lstripP isSpace (c :: t ++ ['\n']) = c :: t ++ ['\n'] := by
      simp [lstripP, isDec_not_space (h c (by simp))]
    have hn : isSpace '\n' = true := by decide
    rw [strip, stripP, h1, rstripP, List.reverse_append]
    simp only [List.reverse_cons, List.reverse_nil, List.nil_append, List.singleton_append, List.dropWhile_cons, hn,
      if_true]
    have := strip_dec h
    rw [strip, stripP] at this
    have h2 : lstripP isSpace (c :: t) = c :: t := by
      simp [lstripP, isDec_not_space (h c (by simp))]
    rw [h2, rstripP] at this
    simpa using this

theorem decFold_value [UnicodeDB] (s : Str) (n : Nat) (h : ∀ c ∈ s, isDec c = true) :
    decFold n s = some (s.foldl (fun n c => n * 10 + (decVal c).getD 0) n) := by
  induction s generalizing n with
  | nil => rfl
  | cons c t ih =>
    have hc := h c (by simp)
    obtain ⟨d, hd⟩ := Option.isSome_iff_exists.1 hc
    simp only [decFold, hd, List.foldl_cons, Option.getD_some]
    exact ih _ fun x hx => h x (by simp [hx])

theorem pyInt_dec [UnicodeDB] {s : Str} (h : Decimals s) (hl : s.length ≤ 4300) : pyInt s = .ok (value s) := by
  have he : s.isEmpty = false := by simpa using h.1
  simp only [pyInt, strip_dec h.2, he, Bool.false_eq_true, if_false, decFold_value s 0 h.2]
  rw [if_neg (by omega)]
  rfl

theorem pyInt_dec_nl [UnicodeDB] {s : Str} (h : Decimals s) (hl : s.length ≤ 4300) :
    pyInt (s ++ ['\n']) = .ok (value s) := by
  have he : s.isEmpty = false := by simpa using h.1
  simp only [pyInt, strip_dec_nl h.2, he, Bool.false_eq_true, if_false, decFold_value s 0 h.2]
  rw [if_neg (by omega)]
  rfl

theorem decVal_lt [U : UnicodeDB] (c : Char) : (decVal c).getD 0 < 10 := by
  unfold decVal
  split
  · split
    · rename_i h; simp [isAsciiDigit] at h; simp; omega
    · simp
  · cases h : U.dec c with
    | none => simp
    | some d => simpa using U.dec_lt c d h

theorem foldl_value_lt [UnicodeDB] (s : Str) (n : Nat) :
    s.foldl (fun n c => n * 10 + (decVal c).getD 0) n < (n + 1) * 10 ^ s.length := by
  induction s generalizing n with
  | nil => simp
  | cons c t ih =>
    refine Nat.lt_of_lt_of_le (ih _) ?_
    rw [List.length_cons, Nat.pow_succ, Nat.mul_comm (10 ^ t.length) 10, ← Nat.mul_assoc]
    apply Nat.mul_le_mul_right
    have := decVal_lt c
    show n * 10 + (decVal c).getD 0 + 1 ≤ (n + 1) * 10
    omega

theorem value_lt [UnicodeDB] (s : Str) : value s < 10 ^ s.length := by
  have := foldl_value_lt s 0
  simpa [value] using this

theorem decVal_digit [UnicodeDB] {c : Char} (h : c.isDigit = true) : decVal c = some (c.toNat - 48) := by
  have h' : 48 ≤ c.toNat ∧ c.toNat ≤ 57 := by
    simp only [Char.isDigit, Bool.and_eq_true, decide_eq_true_eq, ge_iff_le, UInt32.le_iff_toNat_le] at h
    exact h
  have ha : isAscii c = true := by simp [isAscii]; omega
  have hd : isAsciiDigit c = true := by simp [isAsciiDigit]; omega
  simp [decVal, ha, hd]

theorem foldl_ofDigitChars [UnicodeDB] (s : Str) (n : Nat) (h : ∀ c ∈ s, c.isDigit = true) :
    s.foldl (fun n c => n * 10 + (decVal c).getD 0) n = Nat.ofDigitChars 10 s n := by
  induction s generalizing n with
  | nil => simp
  | cons c t ih =>
    rw [List.foldl_cons, Nat.ofDigitChars_cons, ih _ fun x hx => h x (by simp [hx]), decVal_digit (h c (by simp))]
    simp [Nat.mul_comm]

theorem value_digits [UnicodeDB] {s : Str} (h : ∀ c ∈ s, c.isDigit = true) : value s = Nat.ofDigitChars 10 s 0 :=
  foldl_ofDigitChars s 0 h

theorem padNat_digits (w n : Nat) : Digits (padNat w n) := by
  constructor
  · simp [padNat, natStr]
  · intro c hc
    simp only [padNat, natStr, List.mem_append, List.mem_replicate] at hc
    rcases hc with ⟨_, rfl⟩ | hc
    · rfl
    · exact Nat.isDigit_of_mem_toDigits (by omega) (by omega) hc

theorem padNat_value [UnicodeDB] (w n : Nat) : value (padNat w n) = n := by
  rw [value_digits (padNat_digits w n).2, padNat, Nat.ofDigitChars_append, Nat.ofDigitChars_replicate_zero]
  simp only [Nat.mul_zero, natStr, Nat.ofDigitChars_ten_toDigits]

theorem padNat_length (w n : Nat) : (padNat w n).length = max w (natStr n).length := by
  simp [padNat]; omega

theorem natStr_length_le {n k : Nat} (hk : 0 < k) (h : n < 10 ^ k) : (natStr n).length ≤ k :=
  (Nat.length_toDigits_le_iff (by omega) hk).2 h

theorem padNat_value_length [UnicodeDB] {s : Str} (hs : s ≠ []) (w : Nat) :
    (s.length ≤ w → (padNat w (value s)).length = w) ∧ (padNat w (value s)).length ≤ max w s.length := by
  have h1 : 0 < s.length := List.length_pos_iff.2 hs
  have := natStr_length_le h1 (value_lt s)
  rw [padNat_length]
  constructor
  · intro; omega
  · omega

/-! ### Patterns of special journals -/

theorem two_digits [UnicodeDB] (v : Str) :
    (reMatch Rx.two_digits_end v).isSome = true ↔
      ∃ w, Decimals w ∧ w.length ≤ 2 ∧ (v = w ∨ v = w ++ ['\n']) := by
  rw [reMatch_eq]
  have hn : isDec '\n' = false := by rw [isDec_ascii (by decide)]; decide
  constructor
  · intro h
    rcases v with _ | ⟨a, _ | ⟨b, _ | ⟨c, t⟩⟩⟩
    · simp [Rx.two_digits_end, Re.rep, Re.times, Re.upTo, Re.digit, runK] at h
    · by_cases ha : isDec a = true
      · exact ⟨[a], ⟨by simp, by simpa using ha⟩, by simp, .inl rfl⟩
      · simp [Rx.two_digits_end, Re.rep, Re.times, Re.upTo, Re.digit, runK, mem_digitSet, ha] at h
    · by_cases ha : isDec a = true
      · by_cases hb : isDec b = true
        · exact ⟨[a, b], ⟨by simp, by simp [ha, hb]⟩, by simp, .inl rfl⟩
        · simp [Rx.two_digits_end, Re.rep, Re.times, Re.upTo, Re.digit, runK, mem_digitSet, ha, hb] at h
          exact ⟨[a], ⟨by simp, by simpa using ha⟩, by simp, .inr (by simp [h])⟩
      · simp [Rx.two_digits_end, Re.rep, Re.times, Re.upTo, Re.digit, runK, mem_digitSet, ha] at h
    · by_cases ha : isDec a = true
      · by_cases hb : isDec b = true
        · simp [Rx.two_digits_end, Re.rep, Re.times, Re.upTo, Re.digit, runK, mem_digitSet, ha, hb] at h
          have h' : c = '\n' ∧ t = [] := by
            by_cases hc : c = '\n' ∧ t = []
            · exact hc
            · rw [if_neg hc] at h; simp at h
          exact ⟨[a, b], ⟨by simp, by simp [ha, hb]⟩, by simp, .inr (by simp [h'])⟩
        · simp [Rx.two_digits_end, Re.rep, Re.times, Re.upTo, Re.digit, runK, mem_digitSet, ha, hb] at h
      · simp [Rx.two_digits_end, Re.rep, Re.times, Re.upTo, Re.digit, runK, mem_digitSet, ha] at h
  · rintro ⟨w, ⟨h1, h2⟩, h3, h4⟩
    rcases w with _ | ⟨a, _ | ⟨b, _ | ⟨c, t⟩⟩⟩
    · simp at h1
    · have ha := h2 a (by simp)
      rcases h4 with rfl | rfl <;>
        simp [Rx.two_digits_end, Re.rep, Re.times, Re.upTo, Re.digit, runK, mem_digitSet, ha, hn]
    · have ha := h2 a (by simp)
      have hb := h2 b (by simp)
      rcases h4 with rfl | rfl <;>
        simp [Rx.two_digits_end, Re.rep, Re.times, Re.upTo, Re.digit, runK, mem_digitSet, ha, hb]
    · simp at h3

theorem nl_not_dec [UnicodeDB] : isDec '\n' = false := by rw [isDec_ascii (by decide)]; decide

theorem year_end_iff [UnicodeDB] (p : Str) :
    (reMatch Rx.year_end p).isSome = true ↔
      ∃ a c d, (a = py! "19" ∨ a = py! "20") ∧ isDec c = true ∧ isDec d = true ∧
        (p = a ++ [c, d] ∨ p = a ++ [c, d] ++ ['\n']) := by
  rw [reMatch_eq]
  have h19 : ∀ (w : Str) (f : St → Option Match), runK (.str w) ⟨[], p, []⟩ f =
      if w.isPrefixOf p then f ⟨w.reverse, p.drop w.length, []⟩ else none := by
    intro w f; simp [runK]
  have key : ∀ (pre t : Str), (runK (Re.times 2 Re.digit ⬝ .eos) ⟨pre, t, []⟩ fun t => some (mkMatch [] t)).isSome = true ↔
      ∃ c d, isDec c = true ∧ isDec d = true ∧ (t = [c, d] ∨ t = [c, d, '\n']) := by
    intro pre t
    rcases t with _ | ⟨a, _ | ⟨b, t⟩⟩
    · simp [Re.times, Re.digit, runK]
    · by_cases ha : isDec a = true <;> simp [Re.times, Re.digit, runK, mem_digitSet, ha]
    · by_cases ha : isDec a = true
      · by_cases hb : isDec b = true
        · simp only [Re.times, Re.digit, runK, mem_digitSet, ha, hb, if_true]
          constructor
          · intro h
            split at h
            · rename_i hh
              simp at hh
              refine ⟨a, b, ha, hb, ?_⟩
              rcases hh with rfl | rfl <;> simp
            · simp at h
          · rintro ⟨c, d, hc, hd, h | h⟩ <;> · simp at h; simp [h]
        · simp [Re.times, Re.digit, runK, mem_digitSet, ha, hb]
          intro c hc d hd
          constructor <;> · rintro rfl rfl; simp [hd] at hb
      · simp [Re.times, Re.digit, runK, mem_digitSet, ha]
        intro c hc d hd
        constructor <;> · rintro rfl; simp [hc] at ha
  have pfx : ∀ w : Str, w.isPrefixOf p = true ↔ ∃ t, p = w ++ t := by
    intro w
    rw [List.isPrefixOf_iff_prefix]
    exact ⟨fun ⟨t, h⟩ => ⟨t, h.symm⟩, fun ⟨t, h⟩ => ⟨t, h.symm⟩⟩
  rw [Rx.year_end, runK_seq_eq, Re.alts, Re.alts]
  rw [runK_alt_eq, h19, h19]
  constructor
  · intro h
    by_cases p1 : (py! "19").isPrefixOf p = true
    · obtain ⟨t, rfl⟩ := (pfx _).1 p1
      have p2 : (py! "20").isPrefixOf (py! "19" ++ t) = false := rfl
      rw [if_pos p1, p2] at h
      have h' : (runK (Re.times 2 Re.digit ⬝ .eos) ⟨(py! "19").reverse, t, []⟩ fun t => some (mkMatch [] t)).isSome = true := by
        revert h
        show _ → _
        simp only [List.length_cons, List.length_nil, List.cons_append, List.nil_append, List.drop_succ_cons, List.drop_zero]
        cases runK (Re.times 2 Re.digit ⬝ .eos) ⟨(py! "19").reverse, t, []⟩ fun t => some (mkMatch [] t) <;> simp
      obtain ⟨c, d, hc, hd, ht⟩ := (key _ _).1 h'
      exact ⟨_, c, d, .inl rfl, hc, hd, by rcases ht with rfl | rfl <;> simp⟩
    · rw [if_neg p1] at h
      by_cases p2 : (py! "20").isPrefixOf p = true
      · obtain ⟨t, rfl⟩ := (pfx _).1 p2
        rw [if_pos p2] at h
        have h' : (runK (Re.times 2 Re.digit ⬝ .eos) ⟨(py! "20").reverse, t, []⟩ fun t => some (mkMatch [] t)).isSome = true := h
        obtain ⟨c, d, hc, hd, ht⟩ := (key _ _).1 h'
        exact ⟨_, c, d, .inr rfl, hc, hd, by rcases ht with rfl | rfl <;> simp⟩
      · rw [if_neg p2] at h; simp at h
  · rintro ⟨a, c, d, ha, hc, hd, hp⟩
    have ht : ∃ t, p = a ++ t ∧ (t = [c, d] ∨ t = [c, d, '\n']) := by
      rcases hp with rfl | rfl
      · exact ⟨_, rfl, .inl rfl⟩
      · exact ⟨[c, d, '\n'], by simp, .inr rfl⟩
    obtain ⟨t, rfl, ht⟩ := ht
    rcases ha with rfl | rfl
    · have := (key (py! "19").reverse t).2 ⟨c, d, hc, hd, ht⟩
      have p1 : (py! "19").isPrefixOf (py! "19" ++ t) = true := rfl
      rw [if_pos p1]
      obtain ⟨x, hx⟩ := Option.isSome_iff_exists.1 this
      have hx' : runK (Re.times 2 Re.digit ⬝ .eos) ⟨(py! "19").reverse, List.drop (py! "19").length (py! "19" ++ t), []⟩ (fun t => some (mkMatch [] t)) = some x := hx
      rw [hx']; rfl
    · have := (key (py! "20").reverse t).2 ⟨c, d, hc, hd, ht⟩
      have p1 : (py! "19").isPrefixOf (py! "20" ++ t) = false := rfl
      have p2 : (py! "20").isPrefixOf (py! "20" ++ t) = true := rfl
      rw [p1, if_pos p2]
      exact this

/-! ### Report numbers -/

theorem report_cases [UnicodeDB] (s : Str) :
    formatReport s = s ∨ ∃ name nums, formatReport s = name ++ '-' :: nums ∧ name ≠ [] ∧ nums ≠ [] ∧
      (∀ c ∈ name, nameSet.mem c = true) ∧ (∀ c ∈ nums, numSet.mem c = true) ∧
      (s = name ++ nums ∨ s = name ++ nums ++ ['\n']) := by
  unfold formatReport
  cases h : reMatch Rx.re_report s with
  | none => exact .inl rfl
  | some m =>
    obtain ⟨name, nums, h1, h2, h3, h4, h5, h6, h7, -⟩ := report_match h
    simp only [h1, h2]
    split
    · exact .inl rfl
    · exact .inr ⟨name, nums, by simp, h3, h4, h5, h6, h7⟩

theorem endsWith_snoc (s : Str) (c : Char) : endsWith (s ++ [c]) [c] = true := by
  simp [endsWith, List.isPrefixOf]

theorem nl_not_num [UnicodeDB] : numSet.mem '\n' = false := by
  cases h : numSet.mem '\n' with
  | false => rfl
  | true =>
    rw [mem_numSet, nl_not_dec] at h
    rcases h with h | h
    · cases h
    · exact absurd h (by decide)

theorem report_idem [UnicodeDB] (s : Str) : formatReport (formatReport s) = formatReport s := by
  rcases report_cases s with h | ⟨name, nums, h, h1, h2, h3, h4, -⟩
  · rw [h, h]
  · rw [h]
    generalize ht : name ++ '-' :: nums = t
    unfold formatReport
    cases hm : reMatch Rx.re_report t with
    | none => rfl
    | some m =>
      obtain ⟨name', nums', g1, g2, g3, g4, g5, g6, g7, g8⟩ := report_match hm
      simp only [g1, g2]
      rw [if_pos]
      have hlen := g8 (name ++ ['-']) nums (.inl (by simp [← ht])) h2
        (fun c hc => by
          rw [List.mem_append] at hc
          rcases hc with hc | hc
          · exact h3 c hc
          · simp at hc; rw [mem_nameSet]; exact .inr hc) h4
      have hpre : name ++ ['-'] <+: name' := by
        have : ∃ tail, t = name' ++ tail := by
          rcases g7 with g7 | g7
          · exact ⟨_, g7⟩
          · exact ⟨nums' ++ ['\n'], by rw [g7]; simp⟩
        obtain ⟨tail, e⟩ := this
        have p1 : name ++ ['-'] <+: t := ⟨nums, by simp [← ht]⟩
        have p2 : name' <+: t := ⟨tail, e.symm⟩
        exact List.prefix_of_prefix_length_le p1 p2 hlen
      obtain ⟨u, hu⟩ := hpre
      have hsub : ∀ c ∈ u, c ∈ nums := by
        intro c hc
        have e : t = name' ++ nums' ∨ t = name' ++ nums' ++ ['\n'] := g7
        rw [← ht, ← hu] at e
        have : nums = u ++ nums' ∨ nums = u ++ nums' ++ ['\n'] := by simpa using e
        rcases this with e | e <;> (rw [e]; simp [hc])
      rcases List.eq_nil_or_concat u with rfl | ⟨u', c, rfl⟩
      · rw [← hu]; simp only [List.append_nil]; exact endsWith_snoc _ _
      · have c1 : numSet.mem c = true := h4 c (hsub c (by simp))
        have c2 : nameSet.mem c = true := g5 c (by rw [← hu]; simp)
        have : c = '-' := by
          rw [mem_numSet] at c1
          rw [mem_nameSet] at c2
          rcases c2 with c2 | c2
          · rcases c1 with c1 | c1
            · rw [upper_not_dec c2] at c1; cases c1
            · exact c1
          · exact c2
        rw [← hu, this, List.concat_eq_append, ← List.append_assoc]
        exact endsWith_snoc _ _

theorem hep1_hit (a b : Str) : formatHep1 (a ++ '-' :: b) (a ++ ['-']) = a ++ '/' :: b := by
  have : startsWith (a ++ '-' :: b) (a ++ ['-']) = true := by
    rw [startsWith, List.isPrefixOf_iff_prefix]; exact ⟨b, by simp⟩
  simp [formatHep1, this]

theorem hep1_miss {s p : Str} (h : startsWith s p = false) : formatHep1 s p = s := by simp [formatHep1, h]

theorem hep1_hit' {s p : Str} (h : startsWith s (p ++ ['-']) = true) : ∃ b, s = p ++ '-' :: b := by
  rw [startsWith, List.isPrefixOf_iff_prefix] at h
  obtain ⟨b, h⟩ := h
  exact ⟨b, by simp [← h]⟩

theorem hep_fixed : ∀ p ∈ hepPrefixes, ∀ a ∈ archives, ∀ b, startsWith (a ++ '/' :: b) p = false := by
  intro p hp a ha b
  simp only [hepPrefixes, List.mem_cons, List.not_mem_nil, or_false] at hp
  simp only [archives, List.mem_cons, List.not_mem_nil, or_false] at ha
  rcases hp with rfl | rfl | rfl | rfl | rfl | rfl <;> rcases ha with rfl | rfl | rfl | rfl | rfl | rfl <;> rfl

theorem hepPrefixes_eq : hepPrefixes = archives.map (· ++ ['-']) := rfl

theorem hep_fold_none (ps : List Str) (s : Str) (h : ∀ p ∈ ps, startsWith s p = false) : ps.foldl formatHep1 s = s := by
  induction ps with
  | nil => rfl
  | cons p ps ih =>
    rw [List.foldl_cons, hep1_miss (h p (by simp))]
    exact ih fun q hq => h q (by simp [hq])

theorem hep_cases (s : Str) :
    (formatHepStr s = s ∧ ∀ p ∈ hepPrefixes, startsWith s p = false) ∨ SlashForHyphen s (formatHepStr s) := by
  have : ∀ ps : List Str, (∀ p ∈ ps, p ∈ hepPrefixes) →
      (ps.foldl formatHep1 s = s ∧ ∀ p ∈ ps, startsWith s p = false) ∨ SlashForHyphen s (ps.foldl formatHep1 s) := by
    intro ps
    induction ps with
    | nil => intro _; left; simp
    | cons p ps ih =>
      intro hp
      cases hs : startsWith s p with
      | false =>
        rw [List.foldl_cons, hep1_miss hs]
        rcases ih (fun q hq => hp q (by simp [hq])) with ⟨h1, h2⟩ | h
        · left
          refine ⟨h1, ?_⟩
          intro q hq
          rcases List.mem_cons.1 hq with rfl | hq
          · exact hs
          · exact h2 q hq
        · exact .inr h
      | true =>
        right
        have hm := hp p (by simp)
        rw [hepPrefixes_eq, List.mem_map] at hm
        obtain ⟨a, ha, rfl⟩ := hm
        obtain ⟨b, rfl⟩ := hep1_hit' hs
        rw [List.foldl_cons, hep1_hit, hep_fold_none _ _ fun q hq => hep_fixed q (hp q (by simp [hq])) a ha b]
        exact ⟨a, ha, b, rfl, rfl⟩
  exact this hepPrefixes fun p hp => hp

theorem slash_fixed {s t : Str} (h : SlashForHyphen s t) : formatHepStr t = t := by
  obtain ⟨a, ha, b, rfl, rfl⟩ := h
  exact hep_fold_none _ _ fun p hp => hep_fixed p hp a ha b

theorem hep_name [UnicodeDB] {c : Char} {s : Str} (h : nameSet.mem c = true) : formatHepStr (c :: s) = c :: s := by
  apply hep_fold_none
  intro p hp
  have hc : c ≠ 'a' ∧ c ≠ 'h' ∧ c ≠ 'm' := by
    rw [mem_nameSet] at h
    refine ⟨?_, ?_, ?_⟩ <;> (rintro rfl; revert h; decide)
  simp only [hepPrefixes, List.mem_cons, List.not_mem_nil, or_false] at hp
  rcases hp with rfl | rfl | rfl | rfl | rfl | rfl <;>
    simp [startsWith, List.isPrefixOf, Ne.symm hc.1, Ne.symm hc.2.1, Ne.symm hc.2.2]

theorem report_slash [UnicodeDB] {s t : Str} (h : SlashForHyphen s t) : formatReport t = t := by
  rcases report_cases t with h1 | ⟨name, nums, h1, h2, -, h4, -, h5⟩
  · exact h1
  · exfalso
    obtain ⟨c, name, rfl⟩ := List.exists_cons_of_ne_nil h2
    have hc := h4 c (by simp)
    obtain ⟨a, ha, b, -, rfl⟩ := h
    rw [mem_nameSet] at hc
    simp only [archives, List.mem_cons, List.not_mem_nil, or_false] at ha
    have : ∃ r, a ++ '/' :: b = c :: r := by
      rcases h5 with h5 | h5
      · exact ⟨_, h5⟩
      · exact ⟨name ++ nums ++ ['\n'], by rw [h5]; simp⟩
    obtain ⟨r, hr⟩ := this
    rcases ha with rfl | rfl | rfl | rfl | rfl | rfl <;>
    · simp at hr
      rw [← hr.1] at hc
      revert hc; decide

/-! ### Cutting at a separator -/

theorem split1_none {c : Char} {s : Str} (h : split1 c s = none) : c ∉ s := by
  induction s with
  | nil => simp
  | cons x t ih =>
    simp only [split1] at h
    split at h
    · cases h
    · rename_i hx
      simp at h
      simp [Ne.symm hx, ih h]

theorem split1_some {c : Char} {s a b : Str} (h : split1 c s = some (a, b)) : s = a ++ c :: b ∧ c ∉ a := by
  induction s generalizing a with
  | nil => simp [split1] at h
  | cons x t ih =>
    simp only [split1] at h
    split at h
    · rename_i hx; simp at h; obtain ⟨rfl, rfl⟩ := h; simp [hx]
    · rename_i hx
      cases h1 : split1 c t with
      | none => rw [h1] at h; simp at h
      | some p =>
        obtain ⟨p1, p2⟩ := p
        rw [h1] at h; simp at h
        obtain ⟨rfl, rfl⟩ := h
        obtain ⟨e1, e2⟩ := ih h1
        simp [e1, e2, Ne.symm hx]

theorem rsplit1_some {c : Char} {s a b : Str} (h : rsplit1 c s = some (a, b)) : s = a ++ c :: b ∧ c ∉ b := by
  unfold rsplit1 at h
  cases h1 : split1 c s.reverse with
  | none => rw [h1] at h; simp at h
  | some p =>
    obtain ⟨p1, p2⟩ := p
    rw [h1] at h; simp at h
    obtain ⟨rfl, rfl⟩ := h
    obtain ⟨e1, e2⟩ := split1_some h1
    have := congrArg List.reverse e1
    simp at this
    exact ⟨by simp [this], by simpa using e2⟩

theorem rsplit1_none {c : Char} {s : Str} (h : rsplit1 c s = none) : c ∉ s := by
  unfold rsplit1 at h
  simp at h
  simpa using split1_none h

end Py
