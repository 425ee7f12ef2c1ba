import Verif.Lemmas.Transform2
import Verif.Py.Sample

/-!
# Normalisation of volumes, pages, titles and report numbers: C14 to C18
-/

namespace Props
open Py Spec

/-- A loop over the elements treats each of them separately and keeps their order. -/
theorem each_element (f : El → Py El) (es es' : List El) :
    eachEl f es = .ok es' ↔ All2 (fun a b => f a = .ok b) es es' := by
  induction es generalizing es' with
  | nil =>
    constructor
    · intro h; cases h; exact .nil
    · intro h; cases h; rfl
  | cons e es ih =>
    simp only [eachEl, bind, Except.bind]
    constructor
    · intro h
      cases h1 : f e with
      | error x => rw [h1] at h; cases h
      | ok a =>
        rw [h1] at h
        cases h2 : eachEl f es with
        | error x => rw [h2] at h; cases h
        | ok as => rw [h2] at h; cases h; exact .cons h1 ((ih as).1 h2)
    · intro h
      cases h with
      | cons h1 h2 => rw [h1, (ih _).2 h2]; rfl

/-! ### C14 -/

/-- A journal element with the given volume. -/
def journalVol (v : Str) : El := { ty := .journal, misc := [], title := some (py! "J"), volume := some (some v) }

theorem romanSet_mem [UnicodeDB] (c : Char) :
    (⟨false, false, [.ch 'X', .ch 'x', .ch 'V', .ch 'v', .ch 'I', .ch 'i']⟩ : CSet).mem c = true ↔
      c ∈ py! "IVXivx" := by
  simp [CSet.mem, CItem.mem]
  constructor <;> (intro h; rcases h with h | h | h | h | h | h <;> simp [h])

theorem looksRoman_iff [UnicodeDB] (v : Str) : (reMatch Rx.roman_end v).isSome = true ↔ LooksRoman v := by
  rw [Rx.roman_end, match_plus_eos]
  constructor
  · rintro ⟨w, h1, h2, h3⟩; exact ⟨w, h1, fun c hc => (romanSet_mem c).1 (h2 c hc), h3⟩
  · rintro ⟨w, h1, h2, h3⟩; exact ⟨w, h1, fun c hc => (romanSet_mem c).2 (h2 c hc), h3⟩

theorem roman_letters (n : Nat) : ∀ c ∈ roman n, c = 'I' ∨ c = 'V' ∨ c = 'X' := by
  intro c hc
  rw [roman, List.mem_append] at hc
  rcases hc with hc | hc
  · exact .inr (.inr (List.eq_of_mem_replicate hc))
  · have : n % 10 < 10 := Nat.mod_lt _ (by omega)
    generalize n % 10 = d at *
    have : d = 0 ∨ d = 1 ∨ d = 2 ∨ d = 3 ∨ d = 4 ∨ d = 5 ∨ d = 6 ∨ d = 7 ∨ d = 8 ∨ d = 9 := by omega
    rcases this with rfl | rfl | rfl | rfl | rfl | rfl | rfl | rfl | rfl | rfl <;> simp [romanUnit] at hc <;>
      first | (rcases hc with rfl | rfl | rfl <;> simp) | (rcases hc with rfl | rfl <;> simp) | simp [hc]

theorem roman_ne_nil {n : Nat} (h : 1 ≤ n) : roman n ≠ [] := by
  intro h'
  rw [roman, List.append_eq_nil_iff] at h'
  have h1 : n / 10 = 0 := by simpa using h'.1
  have h2 : n % 10 = n := by omega
  rw [h2] at h'
  have : n = 1 ∨ n = 2 ∨ n = 3 ∨ n = 4 ∨ n = 5 ∨ n = 6 ∨ n = 7 ∨ n = 8 ∨ n = 9 := by omega
  rcases this with rfl | rfl | rfl | rfl | rfl | rfl | rfl | rfl | rfl <;> simp [romanUnit] at h'

theorem anyCase_upper [UnicodeDB] {v w : Str} (h : AnyCase v w) (hw : ∀ c ∈ w, c = 'I' ∨ c = 'V' ∨ c = 'X') :
    upper v = w ∧ ∀ c ∈ v, c ∈ py! "IVXivx" := by
  have hu : ∀ c d : Char, (c = d ∨ c = d.toLower) → (d = 'I' ∨ d = 'V' ∨ d = 'X') →
      upperC c = [d] ∧ c ∈ py! "IVXivx" := by
    intro c d h h'
    rcases h' with rfl | rfl | rfl <;> rcases h with rfl | rfl <;> exact ⟨rfl, by decide⟩
  induction h with
  | nil => exact ⟨rfl, by simp⟩
  | @cons a b as bs h1 h2 ih =>
    obtain ⟨i1, i2⟩ := ih fun c hc => hw c (by simp [hc])
    obtain ⟨u1, u2⟩ := hu a b h1 (hw b (by simp))
    constructor
    · rw [upper, List.flatMap_cons, u1]; rw [upper] at i1; rw [i1]; rfl
    · intro c hc
      rcases List.mem_cons.1 hc with rfl | hc
      · exact u2
      · exact i2 c hc

/-- **C14.** A journal volume that is the roman numeral of a number, in any mix of cases, is
replaced by that number in decimal; nothing else in the element changes. -/
theorem C14_roman [UnicodeDB] (e : El) (n : Nat) (v : Str) (hn : 1 ≤ n) (hty : e.ty = .journal)
    (hv : e.volume = some (some v)) (hr : AnyCase v (roman n)) :
    formatVolume1 e = .ok { e with volume := some (some (decimal n)) } := by
  obtain ⟨h1, h2⟩ := anyCase_upper hr (roman_letters n)
  have hne : v ≠ [] := by
    rintro rfl
    have := roman_ne_nil hn
    cases hn' : roman n with
    | nil => exact this hn'
    | cons a t => rw [hn'] at hr; cases hr
  have hm : (reMatch Rx.roman_end v).isSome = true := (looksRoman_iff v).2 ⟨v, hne, h2, .inl rfl⟩
  obtain ⟨m, hm⟩ := Option.isSome_iff_exists.1 hm
  have hd : natStr n = decimal n := by simp [natStr, decimal]
  simp only [formatVolume1, hty, if_true, hv, getStr, hm, h1, bind, Except.bind]
  rw [roman, roman_value]
  simp only [hd]
  rfl

/-- **C14.** Any other volume, and any element that is not a journal, is unchanged. -/
theorem C14_other [UnicodeDB] (e : El) (h : e.ty ≠ .journal ∨ ∃ v, e.volume = some (some v) ∧ ¬ LooksRoman v) :
    formatVolume1 e = .ok e := by
  unfold formatVolume1
  rcases h with h | ⟨v, hv, hr⟩
  · simp only [h, if_false]; rfl
  · split
    · have hm : reMatch Rx.roman_end v = none := by
        cases hm : reMatch Rx.roman_end v with
        | none => rfl
        | some m => exact absurd ((looksRoman_iff v).1 (by simp [hm])) hr
      simp only [hv, getStr, hm, bind, Except.bind]; rfl
    · rfl

/-- "xiV" is fourteen. -/
example : AnyCase (py! "xiV") (roman 14) :=
  .cons (.inr rfl) (.cons (.inr rfl) (.cons (.inl rfl) .nil))
example : @formatVolume1 asciiDB (journalVol (py! "xiV")) = .ok (journalVol (py! "14")) := by decide +kernel
/-- "12" and "XA" do not look like roman numerals. -/
example : ¬ LooksRoman (py! "12") := by
  rintro ⟨w, -, h2, h3 | h3⟩
  · have := h2 '1' (by rw [← h3]; decide); revert this; decide
  · rcases w with _ | ⟨a, _ | ⟨b, w⟩⟩ <;> simp at h3

/-! ### C15 -/

theorem letterI_of_letter [UnicodeDB] {c : Char} (h : Letter c) : letterI.mem c = true := by
  have e : (65 ≤ c.toNat ∧ c.toNat ≤ 90) ∨ (97 ≤ c.toNat ∧ c.toNat ≤ 122) := by
    rcases h with ⟨h1, h2⟩ | ⟨h1, h2⟩
    · right; exact ⟨h1, h2⟩
    · left; exact ⟨h1, h2⟩
  have ha : isAscii c = true := by simp [isAscii]; omega
  simp only [CSet.mem, caseVariants, ha, if_true, List.any_cons, List.any_nil, CItem.mem, Bool.or_false]
  have hA : 'A'.toNat = 65 := rfl
  have hZ : 'Z'.toNat = 90 := rfl
  rw [hA, hZ]
  rcases e with e | e
  · simp [e]
  · have hl : isAsciiLower c = true := by simp [isAsciiLower]; omega
    have hu : isAsciiUpper c = false := by simp [isAsciiUpper]; omega
    have hs : (swapCase c).toNat = c.toNat - 32 := by
      simp only [swapCase, hu, hl, Bool.false_eq_true, if_false, if_true]
      have : (c.toNat - 32).isValidChar := by left; omega
      rw [Char.ofNat, dif_pos this]
      rfl
    simp [hs]; omega

/-- **C15.** A volume of digits followed by a letter becomes the letter followed by the digits. -/
theorem C15_letter_first [UnicodeDB] (e : El) (ds : Str) (l : Char) (hty : e.ty = .journal)
    (hv : e.volume = some (some (ds ++ [l]))) (hd : Decimals ds) (hl : Letter l) :
    mangleVolume1 e = .ok { e with volume := some (some (l :: ds)) } := by
  have hl' := letterI_of_letter hl
  have : mangleStr (ds ++ [l]) = l :: ds := by
    unfold mangleStr
    cases hm : reMatch Rx.volume_re (ds ++ [l]) with
    | none =>
      have := mangle_none hm ds l [] rfl hd.1 hd.2
      rw [hl'] at this; cases this
    | some m =>
      obtain ⟨ds', l', r, h1, h2, h3, h4, h5, h6⟩ := mangle_match hm
      obtain ⟨rfl, rfl, -⟩ := digits_unique h1 hd.2 h3 (letterI_not_dec hl') (letterI_not_dec h4)
      simp only [h5, h6]; rfl
  simp only [mangleVolume1, hty, if_true, hv, getStr, this, bind, Except.bind]
  rfl

/-- **C15.** Applying the step twice is the same as applying it once, for every element. -/
theorem C15_idempotent [UnicodeDB] (e e' : El) (h : mangleVolume1 e = .ok e') : mangleVolume1 e' = .ok e' := by
  have idem : ∀ v, mangleStr (mangleStr v) = mangleStr v := by
    intro v
    have hfix : ∀ l ds, letterI.mem l = true → mangleStr (l :: ds) = l :: ds := by
      intro l ds hl
      unfold mangleStr
      cases hm : reMatch Rx.volume_re (l :: ds) with
      | none => rfl
      | some m =>
        obtain ⟨ds', l', r, h1, h2, h3, -⟩ := mangle_match hm
        obtain ⟨d, ds'', rfl⟩ := List.exists_cons_of_ne_nil h2
        simp at h1
        have := h3 d (by simp)
        rw [← h1.1, letterI_not_dec hl] at this; cases this
    cases hm : reMatch Rx.volume_re v with
    | none =>
      have : mangleStr v = v := by simp [mangleStr, hm]
      rw [this, this]
    | some m =>
      obtain ⟨ds', l', r, h1, h2, h3, h4, h5, h6⟩ := mangle_match hm
      have : mangleStr v = l' :: ds' := by simp [mangleStr, hm, h5, h6]
      rw [this, hfix _ _ h4]
  unfold mangleVolume1 at h ⊢
  split at h
  · rename_i hty
    cases hv : getStr e.volume with
    | error x => rw [hv] at h; cases h
    | ok v =>
      rw [hv] at h
      simp only [bind, Except.bind] at h
      cases h
      simp only [hty, if_true, getStr, idem, bind, Except.bind]; rfl
  · rename_i hty
    cases h
    simp only [hty, if_false]; rfl

/-- **C15.** A volume that does not start with digits followed by a letter (in the sense of
case-insensitive matching) is unchanged, and so is an element that is not a journal. -/
theorem C15_other [UnicodeDB] (e : El)
    (h : e.ty ≠ .journal ∨ ∃ v, e.volume = some (some v) ∧
      ∀ ds l r, v = ds ++ l :: r → Decimals ds → isDec l = false →
        (∀ d ∈ caseVariants l, ¬ ('A' ≤ d ∧ d ≤ 'Z'))) :
    mangleVolume1 e = .ok e := by
  unfold mangleVolume1
  rcases h with h | ⟨v, hv, hr⟩
  · simp only [h, if_false]; rfl
  · split
    · have hm : mangleStr v = v := by
        unfold mangleStr
        cases hm : reMatch Rx.volume_re v with
        | none => rfl
        | some m =>
          exfalso
          obtain ⟨ds', l', r, h1, h2, h3, h4, -⟩ := mangle_match hm
          have := hr ds' l' r h1 ⟨h2, h3⟩ (letterI_not_dec h4)
          have h4 : ((caseVariants l').any fun d => [CItem.range 'A' 'Z'].any (CItem.mem d)) = true := by
            simpa [CSet.mem] using h4
          rw [List.any_eq_true] at h4
          obtain ⟨d, hd, hd'⟩ := h4
          simp [CItem.mem] at hd'
          exact this d hd hd'
      simp only [hv, getStr, hm, bind, Except.bind]
      rw [show ({ e with volume := some (some v) } : El) = e by rw [← hv]]
      rfl
    · rfl

/-- What follows the letter is dropped: the text of "12A-34" is not fully kept. -/
theorem C15_tail_dropped :
    @mangleVolume1 asciiDB (journalVol (py! "12A-34")) = .ok (journalVol (py! "A12")) := by decide +kernel

example : @Decimals asciiDB (py! "12") ∧ Letter 'b' := ⟨⟨by simp, by decide⟩, .inl (by decide)⟩
example : @mangleVolume1 asciiDB (journalVol (py! "12b")) = .ok (journalVol (py! "b12")) := by decide +kernel
example : @mangleVolume1 asciiDB (journalVol (py! "B12")) = .ok (journalVol (py! "B12")) := by decide +kernel

/-! ### C16 -/

/-- **C16.** The text after the last `;` of a journal title moves in front of the volume; only
that `;` disappears. -/
theorem C16_series [UnicodeDB] (e : El) (t s v : Str) (hty : e.ty = .journal) (ht : e.title = some (t ++ ';' :: s))
    (hs : ';' ∉ s) (hv : e.volume = some (some v)) :
    splitVolume1 e = .ok { e with title := some t, volume := some (some (s ++ v)) } := by
  simp only [splitVolume1, hty, if_true, ht, getKey, bind, Except.bind]
  cases hr : rsplit1 ';' (t ++ ';' :: s) with
  | none => exact absurd (rsplit1_none hr) (by simp)
  | some p =>
    obtain ⟨a, b⟩ := p
    obtain ⟨h1, h2⟩ := rsplit1_some hr
    have h3 := congrArg List.reverse h1
    simp only [List.reverse_append, List.reverse_cons, List.append_assoc, List.singleton_append] at h3
    obtain ⟨e1, -, e2⟩ := digits_unique (p := fun c => c != ';') h3
      (fun c hc => by simp at hc ⊢; rintro rfl; exact hs hc)
      (fun c hc => by simp at hc ⊢; rintro rfl; exact h2 hc) (by simp) (by simp)
    have e1 : s = b := by simpa using e1
    have e2 : t = a := by simpa using e2
    subst e1 e2
    simp only [hv, getStr]; rfl

/-- **C16.** Without a `;` in the title nothing changes. -/
theorem C16_other (e : El) (h : e.ty ≠ .journal ∨ ∃ t, e.title = some t ∧ ';' ∉ t) : splitVolume1 e = .ok e := by
  unfold splitVolume1
  rcases h with h | ⟨t, ht, hs⟩
  · simp only [h, if_false]; rfl
  · split
    · simp only [ht, getKey, bind, Except.bind]
      cases hr : rsplit1 ';' t with
      | none => rfl
      | some p =>
        obtain ⟨a, b⟩ := p
        exact absurd (by rw [(rsplit1_some hr).1]; simp) hs
    · rfl

example : splitVolume1 { ty := .journal, misc := [], title := some (py! "Phys. Rev.;D"), volume := some (some (py! "12")) }
    = .ok { ty := .journal, misc := [], title := some (py! "Phys. Rev."), volume := some (some (py! "D12")) } := by
  decide +kernel

/-! ### C60 -/

/-- **C60.** A supplement volume loses one leading `b` or `B`. -/
theorem C60_letter_removed (e : El) (c : Char) (v : Str) (hty : e.ty = .journal)
    (ht : e.title = some (py! "Nucl.Phys.Proc.Suppl.")) (hc : c = 'b' ∨ c = 'B') (hv : e.volume = some (some (c :: v))) :
    removeB1 e = .ok { e with volume := some (some v) } := by
  unfold removeB1
  simp only [hty, if_true, ht, getKey, bind, Except.bind, hv, getStr]
  rcases hc with rfl | rfl <;> simp [startsWith, List.isPrefixOf] <;> rfl

/-- **C60.** Nothing else changes. -/
theorem C60_other (e : El) (h : e.ty ≠ .journal ∨ (∃ t, e.title = some t ∧ t ≠ py! "Nucl.Phys.Proc.Suppl.") ∨
      (∃ t, e.title = some t ∧ (e.volume = none ∨ ∃ v, e.volume = some (some v) ∧ ∀ c, v.head? = some c → c ≠ 'b' ∧ c ≠ 'B'))) :
    removeB1 e = .ok e := by
  unfold removeB1
  rcases h with h | ⟨t, ht, hne⟩ | ⟨t, ht, h⟩
  · simp only [h, if_false]; rfl
  · split
    · simp only [ht, getKey, bind, Except.bind, hne, if_false]; rfl
    · rfl
  · split
    · simp only [ht, getKey, bind, Except.bind]
      split
      · rcases h with h | ⟨v, hv, hc⟩
        · simp only [h]; rfl
        · simp only [hv, getStr]
          cases v with
          | nil => rfl
          | cons c v =>
            have := hc c rfl
            have h1 : startsWith (c :: v) ['b'] = false := by simp [startsWith, List.isPrefixOf]; exact fun h => this.1 h.symm
            have h2 : startsWith (c :: v) ['B'] = false := by simp [startsWith, List.isPrefixOf]; exact fun h => this.2 h.symm
            simp [h1, h2]; rfl
      · rfl
    · rfl

example : removeB1 { ty := .journal, misc := [], title := some (py! "Nucl.Phys.Proc.Suppl."), volume := some (some (py! "Bb1")) }
    = .ok { ty := .journal, misc := [], title := some (py! "Nucl.Phys.Proc.Suppl."), volume := some (some (py! "b1")) } := by
  decide +kernel
example : removeB1 { ty := .journal, misc := [], title := some (py! "Nucl.Phys."), volume := some (some (py! "B1")) }
    = .ok { ty := .journal, misc := [], title := some (py! "Nucl.Phys."), volume := some (some (py! "B1")) } := by
  decide +kernel

/-! ### C17 -/

/-- A special-journal element. -/
def jhep (v y p : Str) : El :=
  { ty := .journal, misc := [], title := some (py! "JHEP"), volume := some (some v), year := some (some y),
    page := some (some p) }

/-- **C17 is false as stated.** A page, or a page and a volume, made of characters that are
digits but not decimal ones (like `²`) makes the step raise `ValueError`. -/
theorem C17_digit_crash :
    @isdigit sampleDB (py! "²") = true ∧
    @specialJournal1 sampleDB [py! "JHEP"] (jhep (py! "0301") (py! "2003") (py! "²")) = .error .valueError := by
  decide +kernel

/-- The text is a volume of one or two decimal digits, up to one final line feed. -/
def ShortVolume [UnicodeDB] (v w : Str) : Prop := Decimals w ∧ w.length ≤ 2 ∧ (v = w ∨ v = w ++ ['\n'])

/-- The text is 19 or 20 and two decimal digits, up to one final line feed. -/
def YearLike [UnicodeDB] (p : Str) : Prop :=
  ∃ a c d, (a = py! "19" ∨ a = py! "20") ∧ isDec c = true ∧ isDec d = true ∧
    (p = a ++ [c, d] ∨ p = a ++ [c, d] ++ ['\n'])

/-- The page after normalisation: a decimal page gets at least three digits with its value
kept, any other page is unchanged. -/
def PageNormal [UnicodeDB] (p p' : Str) : Prop :=
  (Decimals p ∧ Digits p' ∧ value p' = value p ∧ (p.length ≤ 3 → p'.length = 3) ∧ p'.length ≤ max 3 p.length) ∨
  (isdigit p = false ∧ p' = p)

/-- The volume after normalisation: a short volume becomes the last two characters of the
year and two digits with the same value, any other volume is unchanged. -/
def VolumeNormal [UnicodeDB] (v y v' : Str) : Prop :=
  (∃ w, ShortVolume v w ∧ ∃ w', v' = y.drop (y.length - 2) ++ w' ∧ Digits w' ∧ w'.length = 2 ∧ value w' = value w) ∨
  ((¬ ∃ w, ShortVolume v w) ∧ v' = v)

/-- **C17, partial.** For a special journal whose page is either not numeric or a string of at
most 4300 decimal digits, no exception is raised, the page and the volume are normalised
without changing their number, and the element stays a journal unless the volume is short,
the year is empty and the page looks like a year, in which case it becomes plain text showing
title, volume and page. Missing: pages with digits that are not decimal, or with more than
4300 digits, for which the property fails (`C17_digit_crash`). -/
theorem C17_special_partial [UnicodeDB] (special : List Str) (e : El) (t v y p : Str) (hty : e.ty = .journal)
    (ht : e.title = some t) (hs : t ∈ special) (hv : e.volume = some (some v)) (hy : e.year = some (some y))
    (hp : e.page = some (some p)) (hpd : isdigit p = false ∨ (Decimals p ∧ p.length ≤ 4300)) :
    ∃ v' p', VolumeNormal v y v' ∧ PageNormal p p' ∧
      (((∃ w, ShortVolume v w) ∧ y = [] ∧ YearLike p ∧
        specialJournal1 special e = .ok { e with volume := some (some v'), page := some (some p'), ty := .misc,
                                                 misc := t ++ [','] ++ v ++ [','] ++ p }) ∨
       (¬ ((∃ w, ShortVolume v w) ∧ y = [] ∧ YearLike p) ∧
        specialJournal1 special e = .ok { e with volume := some (some v'), page := some (some p') })) := by
  obtain ⟨ty, misc, ti, vo, ye, pa, pe, ib, ei, rn, ia, us, ud, ds, hi, at', ay, is, pu, co, au, re⟩ := e
  simp only at hty ht hv hy hp
  subst hty ht hv hy hp
  have hpage : ∃ p', PageNormal p p' ∧ ∀ (e : El), e.page = some (some p) →
      (if isdigit p then (do let n ← pyInt p; return { e with page := some (some (padNat 3 n)) }) else return e : Py El) =
        .ok { e with page := some (some p') } := by
    rcases hpd with h | ⟨h, hl⟩
    · refine ⟨p, .inr ⟨h, rfl⟩, fun e he => ?_⟩
      rw [h, ← he]
      rfl
    · refine ⟨padNat 3 (value p), .inl ⟨h, padNat_digits _ _, padNat_value _ _, (padNat_value_length h.1 3).1,
        (padNat_value_length h.1 3).2⟩, fun e he => ?_⟩
      have hd : isdigit p = true := by
        have he : p.isEmpty = false := by simpa using h.1
        simp only [isdigit, he, Bool.not_false, Bool.true_and, List.all_eq_true]
        exact fun c hc => isDec_isDigit (h.2 c hc)
      rw [hd, pyInt_dec h hl]; rfl
  obtain ⟨p', hp1, hp2⟩ := hpage
  have hsc : special.contains t = true := by simpa using hs
  cases hm : reMatch Rx.two_digits_end v with
  | none =>
    have hns : ¬ ∃ w, ShortVolume v w := by
      rintro ⟨w, h1, h2, h3⟩
      have := (two_digits v).2 ⟨w, h1, h2, h3⟩
      rw [hm] at this; cases this
    refine ⟨v, p', .inr ⟨hns, rfl⟩, hp1, .inr ⟨fun h => hns h.1, ?_⟩⟩
    simp only [specialJournal1, if_true, getKey, hsc, getStr, hm, bind, Except.bind, pure, Except.pure]
    exact hp2 _ rfl
  | some m =>
    obtain ⟨w, h1, h2, h3⟩ := (two_digits v).1 (by rw [hm]; rfl)
    have hint : pyInt v = .ok (value w) := by
      rcases h3 with rfl | rfl
      · exact pyInt_dec h1 (by omega)
      · exact pyInt_dec_nl h1 (by omega)
    have hw : ShortVolume v w := ⟨h1, h2, h3⟩
    have hlen : (padNat 2 (value w)).length = 2 := (padNat_value_length h1.1 2).1 h2
    refine ⟨lastTwo y ++ padNat 2 (value w), p', .inl ⟨w, hw, _, rfl, padNat_digits _ _, hlen, padNat_value _ _⟩, hp1, ?_⟩
    simp only [specialJournal1, if_true, getKey, hsc, getStr, hm, bind, Except.bind, pure, Except.pure, hint]
    by_cases hy0 : y = []
    · subst hy0
      cases hye : reMatch Rx.year_end p with
      | some m2 =>
        left
        refine ⟨⟨w, hw⟩, rfl, (year_end_iff p).1 (by rw [hye]; rfl), ?_⟩
        simp only [if_true]
        exact hp2 _ rfl
      | none =>
        right
        refine ⟨fun h => ?_, ?_⟩
        · have := (year_end_iff p).2 h.2.2
          rw [hye] at this; cases this
        · simp only [if_true]
          exact hp2 _ rfl
    · right
      refine ⟨fun h => hy0 h.2.1, ?_⟩
      simp only [Option.some.injEq, hy0, if_false]
      exact hp2 _ rfl

/-- **C17.** Other journals and other elements are untouched. -/
theorem C17_other [UnicodeDB] (special : List Str) (e : El)
    (h : e.ty ≠ .journal ∨ ∃ t, e.title = some t ∧ t ∉ special) : specialJournal1 special e = .ok e := by
  unfold specialJournal1
  rcases h with h | ⟨t, ht, hs⟩
  · simp only [h, if_false]; rfl
  · split
    · have : special.contains t = false := by simpa using hs
      simp only [ht, getKey, this, bind, Except.bind]; rfl
    · rfl

example : @specialJournal1 asciiDB [py! "JHEP"] (jhep (py! "3") (py! "2003") (py! "7"))
    = .ok (jhep (py! "0303") (py! "2003") (py! "007")) := by decide +kernel
/-- Digits of other scripts keep their value. -/
example : @specialJournal1 sampleDB [py! "JHEP"] (jhep (py! "03") (py! "2003") (py! "٣1"))
    = .ok (jhep (py! "0303") (py! "2003") (py! "031")) := by decide +kernel
example : @specialJournal1 asciiDB [py! "JHEP"] (jhep (py! "3") [] (py! "1998"))
    = .ok { jhep (py! "03") [] (py! "1998") with ty := .misc, misc := py! "JHEP,3,1998" } := by decide +kernel

/-! ### C18 -/

/-- Report number normalisation of an element: both steps in the order of the engine. -/
def normaliseReport [UnicodeDB] (e : El) : Py El := do
  let e ← formatReportNumber1 e
  formatHepEl e

theorem normaliseReport_eq [UnicodeDB] (e : El) (r : Str) (hty : e.ty = .reportnumber) (hr : e.reportNum = some r) :
    normaliseReport e = .ok { e with reportNum := some (formatHepStr (formatReport r)) } := by
  simp only [normaliseReport, formatReportNumber1, formatHepEl, hty, if_true, hr, getKey, bind, Except.bind, pure,
    Except.pure]

/-- **C18.** A report number that does not end with a line feed is either kept, or one hyphen
is inserted between its upper-case start and its numeric end, or the hyphen after an archive
name is replaced by a slash. -/
theorem C18_only_separator [UnicodeDB] (e : El) (r : Str) (hty : e.ty = .reportnumber) (hr : e.reportNum = some r)
    (hnl : r.getLast? ≠ some '\n') :
    ∃ r', normaliseReport e = .ok { e with reportNum := some r' } ∧
      (r' = r ∨ HyphenInserted r r' ∨ SlashForHyphen r r') := by
  refine ⟨_, normaliseReport_eq e r hty hr, ?_⟩
  rcases report_cases r with h | ⟨name, nums, h, h1, h2, h3, h4, h5⟩
  · rw [h]
    rcases hep_cases r with ⟨h, -⟩ | h
    · exact .inl h
    · exact .inr (.inr h)
  · right; left
    rw [h]
    obtain ⟨c, name, rfl⟩ := List.exists_cons_of_ne_nil h1
    rw [List.cons_append, hep_name (h3 c (by simp))]
    refine ⟨c :: name, nums, ?_, rfl, h1, h2, ?_, ?_⟩
    · rcases h5 with h5 | h5
      · exact h5
      · rw [h5, List.getLast?_append] at hnl; simp at hnl
    · intro d hd
      have := (mem_nameSet d).1 (h3 d hd)
      rcases this with this | this
      · left
        simp only [isAsciiUpper, Bool.and_eq_true, decide_eq_true_eq] at this
        exact this
      · exact .inr this
    · exact fun d hd => (mem_numSet d).1 (h4 d hd)

/-- **C18.** An element of another kind is unchanged. -/
theorem C18_other [UnicodeDB] (e : El) (hty : e.ty ≠ .reportnumber) : normaliseReport e = .ok e := by
  simp only [normaliseReport, formatReportNumber1, formatHepEl, hty, if_false, bind, Except.bind, pure, Except.pure]

/-- **C18.** Normalising twice is the same as normalising once. -/
theorem C18_idempotent [UnicodeDB] (e e' : El) (h : normaliseReport e = .ok e') : normaliseReport e' = .ok e' := by
  by_cases hty : e.ty = .reportnumber
  · cases hr : e.reportNum with
    | none =>
      simp [normaliseReport, formatReportNumber1, hty, hr, getKey, bind, Except.bind] at h
    | some r =>
      rw [normaliseReport_eq e r hty hr] at h
      cases h
      rw [normaliseReport_eq { e with reportNum := some (formatHepStr (formatReport r)) } (formatHepStr (formatReport r)) hty rfl]
      have : formatHepStr (formatReport (formatHepStr (formatReport r))) = formatHepStr (formatReport r) := by
        rcases report_cases r with h | ⟨name, nums, h, h1, h2, h3, h4, h5⟩
        · rcases hep_cases r with ⟨h', -⟩ | h'
          · rw [h, h', h, h']
          · rw [h, report_slash h', slash_fixed h']
        · have hh : formatHepStr (formatReport r) = formatReport r := by
            rw [h]
            obtain ⟨c, name, rfl⟩ := List.exists_cons_of_ne_nil h1
            rw [List.cons_append, hep_name (h3 c (by simp))]
          rw [hh, report_idem, hh]
      rw [this]
  · rw [C18_other e hty] at h
    cases h
    exact C18_other e hty

/-- A final line feed after the digits is dropped when a hyphen is inserted. -/
theorem C18_line_feed_dropped :
    @normaliseReport asciiDB { ty := .reportnumber, misc := [], reportNum := some (py! "CERN12\n") } =
      .ok { ty := .reportnumber, misc := [], reportNum := some (py! "CERN-12") } := by decide +kernel

/-- The report-number element of the examples. -/
def rn (s : Str) : El := { ty := .reportnumber, misc := [], reportNum := some s }
example : @normaliseReport asciiDB (rn (py! "SLACPUB-12")) = .ok (rn (py! "SLACPUB-12")) := by decide +kernel
example : @normaliseReport asciiDB (rn (py! "SLAC12")) = .ok (rn (py! "SLAC-12")) := by decide +kernel
example : @normaliseReport asciiDB (rn (py! "hep-th-9901001")) = .ok (rn (py! "hep-th/9901001")) := by decide +kernel

end Props
