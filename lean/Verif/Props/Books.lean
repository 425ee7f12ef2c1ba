import Verif.Lemmas.Books
import Verif.Lemmas.Find
import Verif.Lemmas.Post
import Verif.Model.Parse
import Verif.Py.Sample

/-!
# Finding and cutting out book titles: C54, C55
-/

namespace Props
open Py Spec

/-- **C54.** A title is found in a text exactly when its letters and digits, in upper case, occur in one
piece among those of the text. -/
theorem C54_found [UnicodeDB] (s t : Str) :
    (∃ i, findIgnoring s t = some i) ↔ alnums (upper t) <:+: alnums (upper s) := by
  unfold findIgnoring
  rw [cleanUp_eq, cleanUp_eq]
  cases h : find (alnums (upper t)) (alnums (upper s)) with
  | none =>
    constructor
    · rintro ⟨i, hi⟩; cases hi
    · rintro ⟨a, b, e⟩
      have := find_isSome_iff.2 ⟨a, b, e.symm⟩
      rw [h] at this
      cases this
  | some i =>
    obtain ⟨a, b, e, -⟩ := find_split h
    exact ⟨fun _ => ⟨a, b, by rw [e, List.append_assoc]⟩, fun _ => ⟨_, rfl⟩⟩

/-- **C54.** The position found is that of the first such occurrence: the letters and digits from there
on begin with those of the title, and there is no occurrence that begins before. If the text has letters
and digits from there on, the position is that of the first of them. -/
theorem C54_position [UnicodeDB] (s t : Str) (i : Nat) (h : findIgnoring s t = some i) :
    ∃ a b, upper s = a ++ b ∧ a.length = i ∧ (∃ r, alnums b = alnums (upper t) ++ r) ∧
      (alnums (upper t) ≠ [] → AlnumFirst b) ∧
      ∀ a' b', upper s = a' ++ b' → (∃ r, alnums b' = alnums (upper t) ++ r) → (alnums a).length ≤ (alnums a').length := by
  unfold findIgnoring at h
  rw [cleanUp_eq, cleanUp_eq] at h
  cases hf : find (alnums (upper t)) (alnums (upper s)) with
  | none => rw [hf] at h; cases h
  | some k =>
    rw [hf] at h
    cases h
    obtain ⟨u, v, e, hk⟩ := find_split hf
    obtain ⟨a, b, e1, e2, e3⟩ := realIndex_spec k (upper s) 0 (Nat.zero_le _)
    have hab : alnums a ++ alnums b = u ++ (alnums (upper t) ++ v) := by rw [← alnums_append, ← e1, e]
    have hlen : (alnums a).length = k := by
      rcases e3 with ⟨rfl, h2⟩ | ⟨_, h2⟩
      · have := congrArg List.length hab
        simp [alnums] at this h2
        simp [alnums]
        omega
      · omega
    have hb : alnums b = alnums (upper t) ++ v := by
      exact (List.append_inj hab (by omega)).2
    refine ⟨a, b, e1, e2.symm, ⟨v, hb⟩, ?_, ?_⟩
    · intro hne
      rcases e3 with ⟨rfl, -⟩ | ⟨h1, -⟩
      · exfalso
        apply hne
        have : alnums ([] : Str) = [] := rfl
        rw [this] at hb
        exact (List.append_eq_nil_iff.1 hb.symm).1
      · exact h1
    · rintro a' b' e' ⟨r, hr⟩
      obtain ⟨w, h1, h2⟩ := find_some_first hf
      have h3 := h2 (alnums a') r (by rw [e', alnums_append, hr, List.append_assoc])
      have h4 := congrArg List.length h1
      have h5 := congrArg List.length e
      simp only [List.length_append, List.length_drop] at h4 h5
      omega

/-- **C54**, cutting. Full statement: cutting a found title out of a text removes what lies between its
first and last letter or digit, the punctuation behind it, and the blanks around. It is proved here for
texts of which every character has an upper case of one character; for others it is refuted by
`C54_displaced`. -/
theorem C54_partial [UnicodeDB] (s t : Str) (i : Nat) (hs : EvenUpper s) (ht : alnums (upper t) ≠ []) (h : findIgnoring s t = some i) :
    ∃ a m p b, s = a ++ m ++ p ++ b ∧ a.length = i ∧
      alnums (upper m) = alnums (upper t) ∧ AlnumFirst (upper m) ∧ AlnumLast (upper m) ∧
      (∀ c ∈ p, ¬ EndsPunct c) ∧ (b = [] ∨ ∃ c r, b = c :: r ∧ EndsPunct c) ∧
      cutSubstring s t i = .ok (strip a ++ py! " " ++ strip b) := by
  obtain ⟨a, b, e1, rfl, ⟨r, hr⟩, hf, -⟩ := C54_position s t i h
  have hf := hf ht
  obtain ⟨m, b', e2, e3, e4, e5⟩ := cutLoop_spec b (alnums (upper t)) 0 0 r (List.length_pos_iff.2 ht) hr (alnums_all _)
  rw [List.drop_zero] at e3
  obtain ⟨a', mb, s1, s2, s3, s4⟩ := upper_split hs e1
  subst s1
  obtain ⟨m', c', s5, s6, s7, s8⟩ := upper_split (s := mb) (fun x hx => hs x (by simp [hx])) (s3.trans e2)
  subst s5
  obtain ⟨b1, t1, t2⟩ := takeWhile_split (p := fun c => !cutStop c) c'
  have hm : AlnumFirst (upper m') := by
    rw [s6]
    obtain ⟨c, w, rfl, hc⟩ := hf
    cases m with
    | nil => obtain ⟨x, y, hx, -⟩ := e4; simp at hx
    | cons d m =>
      rw [List.cons_append, List.cons.injEq] at e2
      exact ⟨d, m, rfl, e2.1 ▸ hc⟩
  refine ⟨a', m', c'.takeWhile fun c => !cutStop c, b1, by rw [List.append_assoc, List.append_assoc, ← t1], s4, by rw [s6, e3], hm,
    by rw [s6]; exact e4, ?_, ?_, ?_⟩
  · intro c hc h
    have := List.all_eq_true.1 (List.all_takeWhile (l := c') (p := fun c => !cutStop c)) c hc
    rw [(cutStop_iff c).2 h] at this
    cases this
  · rcases t2 with h | ⟨c, r, h1, h2⟩
    · exact .inl h
    · exact .inr ⟨c, r, h1, (cutStop_iff c).1 (by simpa using h2)⟩
  · unfold cutSubstring
    rw [cleanUp_eq, e1, List.drop_left, e5, okBind]
    dsimp only
    rw [Nat.zero_add, ← s8, ← s4]
    have d1 : (a' ++ (m' ++ c')).drop (a'.length + m'.length) = c' := by
      rw [← List.append_assoc, ← List.length_append, List.drop_left]
    have d2 : (a' ++ (m' ++ c')).drop (a'.length + (m'.length + (c'.takeWhile fun c => !cutStop c).length)) = b1 := by
      generalize (c'.takeWhile fun c => !cutStop c) = w at t1
      rw [t1, show a' ++ (m' ++ (w ++ b1)) = (a' ++ (m' ++ w)) ++ b1 by simp, List.drop_left' (by simp)]
    rw [d1, d2, List.take_left]
    rfl

example : @findIgnoring asciiDB (py! "see Quantum-Mechanics (2nd), 1990") (py! "QUANTUM MECHANICS") = some 4 ∧
    @cutSubstring asciiDB (py! "see Quantum-Mechanics., (2nd), 1990") (py! "QUANTUM MECHANICS") 4 = .ok (py! "see (2nd), 1990") := by
  decide +kernel

/-- A letter whose upper case has two characters in front of the title displaces the cut: the first letter
of the title stays and the character behind the title is lost. -/
theorem C54_displaced : @findIgnoring sampleDB (py! "Gauß: Optics(1990)") (py! "OPTICS") = some 7 ∧
    @cutSubstring sampleDB (py! "Gauß: Optics(1990)") (py! "OPTICS") 7 = .ok (py! "Gauß: O 1990)") := by
  decide +kernel

/-! ### C55: titles without letters and digits -/

/-- **C55**, refuted: cutting out a title without letters and digits fails for every text. -/
theorem C55_cut_fails [UnicodeDB] (s t : Str) (i : Nat) (ht : alnums (upper t) = []) :
    cutSubstring s t i = .error .indexError ∨ cutSubstring s t i = .error .typeError := by
  unfold cutSubstring
  rw [cleanUp_eq, ht]
  cases (upper s).drop i with
  | nil => exact .inr rfl
  | cons c cs => exact .inl rfl

/-- **C55**, refuted: such a title is found in every text. -/
theorem C55_found [UnicodeDB] (s t : Str) (ht : alnums (upper t) = []) : ∃ i, findIgnoring s t = some i :=
  (C54_found s t).2 (by rw [ht]; exact List.nil_infix)

/-- **C55**, refuted for whole citations: a book with such a title and the year of the citation makes the
search fail. -/
theorem C55_crash [UnicodeDB] (books : Books) (es : List El) (misc t : Str) (ts : List Str) (row : List Str) (authors title year : Str)
    (ht : alnums (upper t) = []) (hrow : lookup books (upper t) = some row) (hr : row = [authors, title, year])
    (ha : possibleAuthors es = .ok ()) :
    bookInMisc books es (some (stripP (inSet [';']) year)) misc (t :: ts) = .error .indexError ∨
    bookInMisc books es (some (stripP (inSet [';']) year)) misc (t :: ts) = .error .typeError := by
  obtain ⟨i, hi⟩ := C55_found misc t ht
  subst hr
  simp only [bookInMisc, hi, hrow, getKey, okBind]
  rcases C55_cut_fails misc t i ht with h | h
  · left
    simp only [getIdx, okBind, h, ha, List.getElem?_cons_succ, List.getElem?_cons_zero]
    rfl
  · right
    simp only [getIdx, okBind, h, ha, List.getElem?_cons_succ, List.getElem?_cons_zero]
    rfl

/-- **C55**, what holds. Full statement: a book whose title has no letter or digit is never found and
never makes the search fail. Proved: it changes nothing when its year is not that of the citation. -/
theorem C55_partial [UnicodeDB] (books : Books) (es : List El) (year : Val) (misc t : Str) (ts : List Str) (row : List Str)
    (authors title y : Str) (ht : alnums (upper t) = []) (hrow : lookup books (upper t) = some row) (hr : row = [authors, title, y])
    (hy : year ≠ some (stripP (inSet [';']) y)) :
    bookInMisc books es year misc (t :: ts) = bookInMisc books es year misc ts := by
  obtain ⟨i, hi⟩ := C55_found misc t ht
  subst hr
  simp only [bookInMisc, hi, hrow, getKey, okBind, getIdx, List.getElem?_cons_succ, List.getElem?_cons_zero]
  rw [if_neg hy]

/-- A book with a Greek title. -/
def greekBook : Books := [(py! "ΦΥΣΙΚΗ", [py! "A", py! "Φυσικη", py! "1990;"])]

example : @bookInMisc asciiDB greekBook [] (some (py! "1991")) (py! "in the text") [py! "ΦΥΣΙΚΗ"] = .ok none := by decide +kernel

set_option synthInstance.maxSize 1000 in
/-- **C55**, refuted for whole reference lines: a line with the year of such a book cannot be parsed. -/
theorem C55_line : @parseReferences asciiDB id ⟨id, id, .fail, .fail⟩ ⟨⟨[], [], [], [], [], [], [], [], []⟩, [], greekBook⟩ defaultFormat none
    [py! "In the text (1990)"] = .error .indexError := by
  decide +kernel

end Props
