import Verif.Lemmas.Re2
import Verif.Lemmas.Str
import Verif.Model.Transform
import Verif.Spec.Transform

/-!
# Lemmas about the element transformations
-/

namespace Py

/-! ### Roman numerals -/

theorem romanLoop_X (k t p : Nat) (u : Str) (hp : p = 0 ∨ p = 10) :
    romanLoop t p (List.replicate k 'X' ++ u) = romanLoop (t + 10 * k) (if k = 0 then p else 10) u := by
  induction k generalizing t p with
  | zero => simp
  | succ k ih =>
    have hd : romanDigit 'X' = .ok 10 := by decide
    rw [List.replicate_succ, List.cons_append]
    simp only [romanLoop, hd, bind, Except.bind]
    have : 10 - 2 * p % 10 = 10 := by rcases hp with rfl | rfl <;> rfl
    rw [this, ih _ 10 (.inr rfl)]
    congr 1
    · omega
    · by_cases hk : k = 0 <;> simp [hk]

theorem romanLoop_shift (t p : Nat) (s : Str) :
    romanLoop t p s = (romanLoop 0 p s).map (t + ·) := by
  induction s generalizing t p with
  | nil => simp [romanLoop, Except.map]
  | cons c s ih =>
    simp only [romanLoop]
    cases hd : romanDigit c with
    | error e => rfl
    | ok n =>
      simp only [bind, Except.bind]
      rw [ih, ih (0 + (n - 2 * p % n))]
      cases romanLoop 0 n s with
      | error e => rfl
      | ok m => simp [Except.map]; omega

theorem roman_unit (p d : Nat) (hp : p = 0 ∨ p = 10) (hd : d < 10) :
    romanLoop 0 p (Spec.romanUnit d) = .ok d := by
  have : d = 0 ∨ d = 1 ∨ d = 2 ∨ d = 3 ∨ d = 4 ∨ d = 5 ∨ d = 6 ∨ d = 7 ∨ d = 8 ∨ d = 9 := by omega
  rcases hp with rfl | rfl <;> rcases this with rfl | rfl | rfl | rfl | rfl | rfl | rfl | rfl | rfl | rfl <;> decide

theorem roman_value (n : Nat) :
    roman2arabic (List.replicate (n / 10) 'X' ++ Spec.romanUnit (n % 10)) = .ok n := by
  rw [roman2arabic, romanLoop_X _ _ _ _ (.inl rfl), romanLoop_shift, roman_unit _ _ _ (Nat.mod_lt _ (by omega))]
  · simp only [Except.map]; congr 1; omega
  · by_cases h : n / 10 = 0 <;> simp [h]

/-! ### Anchored class repetitions -/

theorem match_plus_eos [UnicodeDB] {k : CSet} {s : Str} :
    (reMatch ((Re.plus (.set k)) ⬝ .eos) s).isSome = true ↔
      ∃ w, w ≠ [] ∧ (∀ c ∈ w, k.mem c = true) ∧ (s = w ∨ s = w ++ ['\n']) := by
  rw [reMatch_eq, runK_seq_eq]
  constructor
  · intro h
    obtain ⟨x, hx⟩ := Option.isSome_iff_exists.1 h
    obtain ⟨w, rest, hw⟩ := runK_plus_some hx
    obtain ⟨h1, _⟩ := runK_eos_some hw.ok
    refine ⟨w, ?_, hw.mem, ?_⟩
    · rintro rfl; have := hw.min; simp at this
    · have := hw.split
      dsimp only at this h1
      rcases h1 with h1 | h1
      · left; rw [this, h1]; simp
      · right; rw [this, h1]
  · rintro ⟨w, hne, hm, hs⟩
    cases hr : runK (Re.plus (.set k)) ⟨[], s, []⟩ (fun t => runK .eos t fun t => some (mkMatch [] t)) with
    | some x => rfl
    | none =>
      exfalso
      rcases hs with hs | hs
      · have := runK_plus_none hr w [] (by simp [hs]) hne hm
        simp [runK] at this
      · have := runK_plus_none hr w ['\n'] (by simp [hs]) hne hm
        simp [runK] at this

/-! ### Volumes -/

/-- The class `[A-Z]` with `re.I`. -/
abbrev letterI : CSet := ⟨false, true, [.range 'A' 'Z']⟩

/-- The class `\d`. -/
abbrev digitSet : CSet := ⟨false, false, [.digit]⟩

theorem mem_digitSet [UnicodeDB] (c : Char) : digitSet.mem c = isDec c := by
  simp [CSet.mem, CItem.mem]

theorem isAsciiDigit_ascii {c : Char} (h : isAsciiDigit c = true) : isAscii c = true := by
  simp [isAsciiDigit, isAscii] at *; omega

theorem isDec_ascii [UnicodeDB] {c : Char} (h : isAscii c = true) : isDec c = isAsciiDigit c := by
  simp only [isDec, decVal, h, if_true]
  split <;> simp_all

/-- A letter in the sense of `[A-Z]` with `re.I` is not a digit. -/
theorem letterI_not_dec [U : UnicodeDB] {c : Char} (h : letterI.mem c = true) : isDec c = false := by
  by_cases ha : isAscii c = true
  · rw [isDec_ascii ha]
    simp only [CSet.mem, caseVariants, ha, if_true, List.any_cons, List.any_nil, CItem.mem, Bool.or_false] at h
    have hA : 'A'.toNat = 65 := rfl
    have hZ : 'Z'.toNat = 90 := rfl
    rw [hA, hZ] at h
    cases hd : isAsciiDigit c with
    | false => rfl
    | true =>
      exfalso
      have hu : isAsciiUpper c = false := by
        simp [isAsciiUpper, isAsciiDigit] at *; omega
      have hl : isAsciiLower c = false := by
        simp [isAsciiLower, isAsciiDigit] at *; omega
      simp only [isAsciiDigit, Bool.and_eq_true, decide_eq_true_eq] at hd
      simp only [swapCase, hu, hl] at h
      simp at h
      omega
  · cases hd : isDec c with
    | false => rfl
    | true =>
      exfalso
      have ha' : isAscii c = false := by simpa using ha
      have hv : U.variants c = [] := by
        apply U.dec_variants
        simpa [isDec, decVal, ha'] using hd
      simp only [CSet.mem, caseVariants, ha', hv, List.any_cons, List.any_nil, CItem.mem, Bool.or_false] at h
      have hZ : 'Z'.toNat = 90 := rfl
      simp [isAscii] at ha'
      simp [hZ] at h
      omega

theorem take_len_reverse {α : Type} (w : List α) : w.reverse.take w.length = w.reverse := by
  rw [List.take_of_length_le (by simp)]

theorem mangle_match [UnicodeDB] {v : Str} {m : Match} (h : reMatch Rx.volume_re v = some m) :
    ∃ ds l rest, v = ds ++ l :: rest ∧ ds ≠ [] ∧ (∀ c ∈ ds, isDec c = true) ∧ letterI.mem l = true ∧
      m.group 1 = some ds ∧ m.group 2 = some [l] := by
  rw [reMatch_eq, Rx.volume_re, runK_seq_eq, runK_group_eq, Re.digit] at h
  obtain ⟨w, rest, hw⟩ := runK_plus_some h
  have hok := hw.ok
  rw [runK_group_eq] at hok
  obtain ⟨c, t, h1, h2, h3⟩ := runK_set_some hok
  simp only [Option.some.injEq] at h3
  have hs := hw.split
  dsimp only at hs h1
  refine ⟨w, c, t, by rw [hs, h1], ?_, ?_, h2, ?_, ?_⟩
  · rintro rfl; have := hw.min; simp at this
  · intro d hd; rw [← mem_digitSet]; exact hw.mem d hd
  · rw [← h3]; simp [Match.group, mkMatch, take_len_reverse]
  · rw [← h3]; simp [Match.group, mkMatch, Nat.succ_sub]

theorem mangle_none [UnicodeDB] {v : Str} (h : reMatch Rx.volume_re v = none) (ds : Str) (l : Char) (rest : Str)
    (hv : v = ds ++ l :: rest) (hne : ds ≠ []) (hd : ∀ c ∈ ds, isDec c = true) : letterI.mem l = false := by
  rw [reMatch_eq, Rx.volume_re, runK_seq_eq, runK_group_eq, Re.digit] at h
  have := runK_plus_none h ds (l :: rest) hv hne (fun c hc => by rw [mem_digitSet]; exact hd c hc)
  cases hl : letterI.mem l with
  | false => rfl
  | true => simp [runK, hl] at this

/-- Two ways of cutting a text into digits, a non-digit and the rest agree. -/
theorem digits_unique {p : Char → Bool} {ds ds' : Str} {l l' : Char} {r r' : Str}
    (h : ds ++ l :: r = ds' ++ l' :: r') (hd : ∀ c ∈ ds, p c = true) (hd' : ∀ c ∈ ds', p c = true)
    (hl : p l = false) (hl' : p l' = false) : ds = ds' ∧ l = l' ∧ r = r' := by
  induction ds generalizing ds' with
  | nil =>
    cases ds' with
    | nil => simpa using h
    | cons a as =>
      simp at h
      have := hd' a (by simp)
      rw [← h.1, hl] at this; cases this
  | cons a as ih =>
    cases ds' with
    | nil =>
      simp at h
      have := hd a (by simp)
      rw [h.1, hl'] at this; cases this
    | cons b bs =>
      simp at h
      have := ih h.2 (fun c hc => hd c (by simp [hc])) (fun c hc => hd' c (by simp [hc]))
      simp [h.1, this]

/-! ### Report numbers -/

/-- The class `[A-Z-]`. -/
abbrev nameSet : CSet := ⟨false, false, [.range 'A' 'Z', .ch '-']⟩

/-- The class `[\d-]`. -/
abbrev numSet : CSet := ⟨false, false, [.digit, .ch '-']⟩

theorem mem_nameSet [UnicodeDB] (c : Char) : nameSet.mem c = true ↔ isAsciiUpper c = true ∨ c = '-' := by
  simp [CSet.mem, CItem.mem, isAsciiUpper]

theorem mem_numSet [UnicodeDB] (c : Char) : numSet.mem c = true ↔ isDec c = true ∨ c = '-' := by
  simp [CSet.mem, CItem.mem]

theorem upper_not_dec [UnicodeDB] {c : Char} (h : isAsciiUpper c = true) : isDec c = false := by
  have ha : isAscii c = true := by simp [isAsciiUpper, isAscii] at *; omega
  rw [isDec_ascii ha]
  simp [isAsciiUpper, isAsciiDigit] at *; omega

/-- What a match of the report-number pattern says. -/
theorem report_match [UnicodeDB] {s : Str} {m : Match} (h : reMatch Rx.re_report s = some m) :
    ∃ name nums, m.group G.name = some name ∧ m.group G.nums = some nums ∧ name ≠ [] ∧ nums ≠ [] ∧
      (∀ c ∈ name, nameSet.mem c = true) ∧ (∀ c ∈ nums, numSet.mem c = true) ∧
      (s = name ++ nums ∨ s = name ++ nums ++ ['\n']) ∧
      ∀ name' nums', (s = name' ++ nums' ∨ s = name' ++ nums' ++ ['\n']) → nums' ≠ [] →
        (∀ c ∈ name', nameSet.mem c = true) → (∀ c ∈ nums', numSet.mem c = true) → name'.length ≤ name.length := by
  rw [reMatch_eq, Rx.re_report, runK_seq_eq] at h
  have h : runK (.group G.name (Re.plus (.set nameSet))) ⟨[], s, []⟩ (fun t =>
    runK ((.group G.nums (Re.plus (.set numSet))) ⬝ .eos) t fun t => some (mkMatch [] t)) = some m := by
    simpa [runK] using h
  rw [runK_group_eq] at h
  obtain ⟨w, rest, hw⟩ := runK_plus_some h
  have hok := hw.ok
  rw [runK_seq_eq, runK_group_eq] at hok
  obtain ⟨v, r2, hv⟩ := runK_plus_some hok
  obtain ⟨he, hx⟩ := runK_eos_some hv.ok
  simp only [Option.some.injEq] at hx
  have hs := hw.split
  have hs2 := hv.split
  dsimp only at hs hs2 he
  refine ⟨w, v, ?_, ?_, ?_, ?_, hw.mem, hv.mem, ?_, ?_⟩
  · rw [← hx]; simp [Match.group, mkMatch, G.name, G.nums, take_len_reverse]
  · rw [← hx]; simp [Match.group, mkMatch, G.name, G.nums, take_len_reverse]
  · rintro rfl; have := hw.min; simp at this
  · rintro rfl; have := hv.min; simp at this
  · rcases he with he | he
    · left; rw [hs, hs2, he]; simp
    · right; rw [hs, hs2, he]; simp
  · intro n' u' hsplit hne hn hu
    rcases Nat.lt_or_ge w.length n'.length with hlt | hge
    · exfalso
      have : ∃ tail, (tail = [] ∨ tail = ['\n']) ∧ s = n' ++ (u' ++ tail) := by
        rcases hsplit with h | h
        · exact ⟨[], .inl rfl, by simp [h]⟩
        · exact ⟨['\n'], .inr rfl, by simp [h]⟩
      obtain ⟨tail, ht, hst⟩ := this
      have hl := hw.longest n' (u' ++ tail) hst hn hlt
      rw [runK_seq_eq, runK_group_eq] at hl
      have := runK_plus_none hl u' tail rfl hne hu
      rcases ht with rfl | rfl <;> simp [runK] at this
    · exact hge

theorem report_none [UnicodeDB] {s : Str} (h : reMatch Rx.re_report s = none) (name nums : Str)
    (hs : s = name ++ nums) (h1 : name ≠ []) (h2 : nums ≠ []) (hn : ∀ c ∈ name, nameSet.mem c = true) :
    ¬ ∀ c ∈ nums, numSet.mem c = true := by
  intro hu
  rw [reMatch_eq, Rx.re_report, runK_seq_eq] at h
  have h : runK (.group G.name (Re.plus (.set nameSet))) ⟨[], s, []⟩ (fun t =>
    runK ((.group G.nums (Re.plus (.set numSet))) ⬝ .eos) t fun t => some (mkMatch [] t)) = none := by
    simpa [runK] using h
  rw [runK_group_eq] at h
  have h := runK_plus_none h name nums hs h1 hn
  rw [runK_seq_eq, runK_group_eq] at h
  have := runK_plus_none h nums [] (by simp) h2 hu
  simp [runK] at this

end Py
