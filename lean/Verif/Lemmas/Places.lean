import Verif.Props.Tag
import Verif.Props.Titles
import Verif.Lemmas.Pipeline
import Verif.Lemmas.Titles
import Verif.Lemmas.Books
import Verif.Spec.Places

/-!
# Places of recognised texts in the line
-/

open Py Spec

variable [UnicodeDB]

omit [UnicodeDB] in
theorem accountSpaces_none (spaces : List (Nat × Nat)) (n i : Nat) :
    accountSpaces spaces none i = ((accountSpaces spaces (some n) i).1, 0) := by
  have key : ∀ (sp : List (Nat × Nat)) (i j j' x x' : Nat), (sp.foldl (spaceStep none) (i, j, x)).1 = (sp.foldl (spaceStep (some n)) (i, j', x')).1 ∧
      (sp.foldl (spaceStep none) (i, j, x)).2.2 = x := by
    intro sp
    induction sp with
    | nil => intro i j j' x x'; exact ⟨rfl, rfl⟩
    | cons p sp ih =>
      intro i j j' x x'
      simp only [List.foldl_cons, spaceStep]
      by_cases h : p.1 < i
      · simp only [h, if_true]
        exact ih _ _ _ _ _
      · simp only [h, if_false]
        split
        · exact ih _ _ _ _ _
        · exact ih _ _ _ _ _
  obtain ⟨h1, h2⟩ := key spaces i i i 0 0
  simp only [accountSpaces, h1, h2]

theorem cleaned_eq (line : Str) : cleanedLine line = (upper (stripTags line)).map unpunct := by
  unfold cleanedLine
  rw [Rx.re_punctuation, sub_chars]
  apply List.map_congr_left
  intro c _
  simp [CSet.mem, CItem.mem, unpunct]

omit [UnicodeDB] in
theorem blanked_under {s t : Str} (h : Blanked s t) : Under t s := by
  induction h with
  | nil => exact .nil
  | ch _ _ ih => exact .cons (.inl rfl) ih
  | @tag w s t _ _ ih => exact (under_blank w).append ih

omit [UnicodeDB] in
theorem under_split {x y : Str} : ∀ {a b : Str}, Under (a ++ b) y → x = a ++ b → ∃ a' b', y = a' ++ b' ∧ Under a a' ∧ Under b b'
  | [], b, h, _ => ⟨[], y, rfl, .nil, h⟩
  | c :: a, b, h, e => by
    cases h with
    | @cons _ d _ ys h1 h2 =>
      obtain ⟨a', b', rfl, h3, h4⟩ := under_split (x := a ++ b) h2 rfl
      exact ⟨d :: a', b', rfl, .cons h1 h3, h4⟩

omit [UnicodeDB] in
theorem under_eq {x y : Str} (h : Under x y) (hx : '_' ∉ x) : x = y := by
  induction h with
  | nil => rfl
  | cons h _ ih =>
    simp only [List.mem_cons, not_or] at hx
    rcases h with rfl | rfl
    · rw [ih hx.2]
    · exact absurd rfl hx.1

omit [UnicodeDB] in
theorem under_mem {x y : Str} (h : Under x y) : ∀ c ∈ x, c ∈ y ∨ c = '_' := by
  induction h with
  | nil => simp
  | @cons c d _ _ h _ ih =>
    intro e he
    rcases List.mem_cons.1 he with rfl | he
    · rcases h with rfl | h
      · exact .inl (by simp)
      · exact .inr h
    · rcases ih e he with h | h
      · exact .inl (by simp [h])
      · exact .inr h

omit [UnicodeDB] in
theorem squeezes_mem {s t : Str} (h : Squeezes s t) {c : Char} (hc : c ∈ s) (hs : isSpace c = false) : c ∈ t := by
  induction h with
  | nil => cases hc
  | ch d _ ih =>
    rcases List.mem_cons.1 hc with rfl | hc
    · simp
    · simp [ih hc]
  | run _ hw _ ih =>
    rcases List.mem_append.1 hc with hc | hc
    · rw [hw c hc] at hs; cases hs
    · simp [ih hc]

theorem upper_underscore : upperC '_' = ['_'] := rfl

theorem even_append {a b : Str} (h : EvenUpper (a ++ b)) : EvenUpper a ∧ EvenUpper b :=
  ⟨fun c hc => h c (by simp [hc]), fun c hc => h c (by simp [hc])⟩

theorem upper_even_length {s : Str} (h : EvenUpper s) : (upper s).length = s.length := by
  induction s with
  | nil => rfl
  | cons c s ih =>
    have h1 := h c (by simp)
    have h2 := ih fun c hc => h c (by simp [hc])
    simp only [upper, List.flatMap_cons, List.length_append, List.length_cons] at h2 ⊢
    omega

/-- A text found in the working line stands, as it was written, at the computed place in the line. -/
theorem place {line : Str} (hN : NoNesting line) (hE : EvenUpper line) {w t : Str} {i : Nat}
    (hw : Masked w ((compressSpaces (cleanedLine line)).2.map unslash)) (ht : AtPos w i t) (hu : '_' ∉ t) (hne : t ≠ []) :
    ∃ a b c, line = a ++ b ++ c ∧
      accountSpaces (sortBy (fun x y => decide (x.1 ≤ y.1)) (compressSpaces (cleanedLine line)).1) (some t.length) i = (a.length, b.length - t.length) ∧
      accountSpaces (sortBy (fun x y => decide (x.1 ≤ y.1)) (compressSpaces (cleanedLine line)).1) none i = (a.length, 0) ∧
      t.length ≤ b.length ∧ ReadsAs b t := by
  have hlen : i + t.length ≤ (compressSpaces (cleanedLine line)).2.length := by
    have h1 := ht (t.length - 1) (by have := List.length_pos_iff.2 hne; omega)
    have h2 := List.length_pos_iff.2 hne
    rw [List.getElem?_eq_getElem (show t.length - 1 < t.length by omega)] at h1
    obtain ⟨h3, -⟩ := List.getElem?_eq_some_iff.1 h1
    rw [hw.1, List.length_map] at h3
    omega
  obtain ⟨A, B, C, e1, e2, e3, -, e4, -⟩ := Props.C25_positions (cleanedLine line) i t.length hlen
  have hv : t = (((compressSpaces (cleanedLine line)).2.drop i).take t.length).map unslash := by
    apply List.ext_getElem?
    intro k
    by_cases hk : k < t.length
    · have h1 := ht k hk
      rw [List.getElem?_map, List.getElem?_take_of_lt hk, List.getElem?_drop, ← List.getElem?_map, ← h1]
      rcases hw.2 (i + k) (by rw [List.length_map]; omega) with h | h
      · rw [h] at h1
        exact absurd (List.mem_of_getElem? h1.symm) hu
      · exact h
    · rw [List.getElem?_eq_none (by omega), List.getElem?_eq_none (by simp; omega)]
  generalize hq : ((compressSpaces (cleanedLine line)).2.drop i).take t.length = v at e4 hv
  have hv' : '_' ∉ v := by
    intro h
    apply hu
    rw [hv]
    exact List.mem_map.2 ⟨'_', h, rfl⟩
  have hB : '_' ∉ B := fun h => hv' (squeezes_mem e4 h rfl)
  rw [cleaned_eq] at e1
  rw [List.map_eq_append_iff] at e1
  obtain ⟨AB, C0, e5, e6, e7⟩ := e1
  rw [List.map_eq_append_iff] at e6
  obtain ⟨A0, B0, rfl, e8, e9⟩ := e6
  have hun : Under (stripTags line) line := blanked_under (Props.C27_partial line hN).1
  have hEs : EvenUpper (stripTags line) := by
    intro c hc
    rcases under_mem hun c hc with h | rfl
    · exact hE c h
    · rw [upper_underscore]; rfl
  obtain ⟨ab, c1, s1, s2, s3, s4⟩ := upper_split hEs e5
  rw [s1] at hEs hun
  obtain ⟨a1, b1, s5, s6, s7, s8⟩ := upper_split (even_append hEs).1 s2
  subst s5
  obtain ⟨ab', c', rfl, u1, u2⟩ := under_split hun rfl
  obtain ⟨a', b', rfl, u3, u4⟩ := under_split u1 rfl
  have hb1 : '_' ∉ b1 := by
    intro h
    apply hB
    rw [← e9, ← s7]
    refine List.mem_map.2 ⟨'_', ?_, rfl⟩
    simp only [upper, List.mem_flatMap]
    exact ⟨'_', h, by rw [upper_underscore]; simp⟩
  have hbb := under_eq u4 hb1
  subst hbb
  have hla : A.length = a'.length := by rw [← e8, List.length_map, ← s8, u3.length]
  have hlb : B.length = b1.length := by
    rw [← e9, List.length_map, ← s7]
    exact upper_even_length (even_append (even_append hEs).1).2
  refine ⟨a', b1, c', rfl, ?_, ?_, ?_, v, ?_, hv⟩
  · rw [e2, hla, hlb]
  · rw [accountSpaces_none _ t.length, e2, hla]
  · omega
  · rw [← e9, ← s7] at e4
    exact e4

/-! ### The working lines -/

omit [UnicodeDB] in
theorem masked_trans {x y z : Str} (h : Masked x y) (h' : Masked y z) : Masked x z := by
  refine ⟨h.1.trans h'.1, fun k hk => ?_⟩
  rcases h.2 k (by rw [h'.1]; exact hk) with e | e
  · exact .inl e
  · rw [e]; exact h'.2 k hk

omit [UnicodeDB] in
theorem masked_over {f : List (Nat × Str)} {x y : Str} (h : Overwritten f y x) : Masked x y := by
  refine ⟨h.1, fun k hk => ?_⟩
  by_cases hc : Covered f k
  · exact .inl (h.2.1 k hk hc)
  · exact .inr (h.2.2 k hc)

omit [UnicodeDB] in
theorem mem_dupdate {κ α : Type} [DecidableEq κ] : ∀ (u d : List (κ × α)) (p : κ × α), p ∈ dupdate d u → p ∈ d ∨ p ∈ u
  | [], _, _, h => .inl h
  | q :: u, d, p, h => by
    rcases mem_dupdate u (dset d q.1 q.2) p h with h | h
    · rcases dset_mem h with h | h
      · exact .inl h
      · exact .inr (by simp [h])
    · exact .inr (by simp [h])

omit [UnicodeDB] in
theorem readsIbid_plain {t : Str} (h : ReadsIbid t) : '_' ∉ t ∧ t ≠ [] := by
  obtain ⟨a, b, c, rfl, rfl | rfl, rfl | rfl, rfl | rfl⟩ := h <;> decide

/-- What is known about everything recognised in a line. -/
structure Recognised (line : Str) (kbs : TagKbs) (f : Found) : Prop where
  spaces : f.spaces = sortBy (fun a b => decide (a.1 ≤ b.1)) (compressSpaces (cleanedLine line)).1
  journals : ∀ p ∈ f.journals, p ∈ identifyJournalsRe line kbs.journalsRe ∨ p.2 ≠ [] ∧ '_' ∉ p.2 ∧ (p.2 ∈ kbs.journalKeys ∨ ReadsIbid p.2) ∧
    ∃ w, Masked w ((compressSpaces (cleanedLine line)).2.map unslash) ∧ AtPos w p.1 p.2
  reports : f.repLens.map (·.1) = f.repTexts.map (·.1)
  publishers : ∃ w, Masked w ((compressSpaces (cleanedLine line)).2.map unslash) ∧ f.publishers = identifyPublishers w kbs.publishers
  std : f.std = dupdate kbs.journalStd (kbs.journalsRe.map fun p => (p.1, p.2.2))

theorem recognise_ok {line : Str} {kbs : TagKbs} {f : Found} {n : List (Str × Nat)} (hj : TitleKb kbs) (hp : ReportKbOk kbs)
    (h : recognise line kbs = .ok (f, n)) : Recognised line kbs f := by
  unfold recognise at h
  obtain ⟨reps, h1, h⟩ := bind_ok h
  obtain ⟨titles, h2, h⟩ := bind_ok h
  dsimp only at h
  obtain ⟨r1, r2, r3, r4, r5, r6⟩ := Props.C29_reports kbs hp _ reps h1
  have m1 : Masked reps.line ((compressSpaces (cleanedLine line)).2.map unslash) := by
    refine ⟨by rw [List.length_map]; exact r1, fun k hk => ?_⟩
    rw [List.length_map] at hk
    exact r5 k hk
  obtain ⟨pairs, j1, j2, j3⟩ := hj
  rw [j1, j2] at h2
  rw [j2] at j3
  have h0 : TitlesOk reps.line ⟨[], reps.line, []⟩ :=
    ⟨⟨rfl, fun k _ hc => by (obtain ⟨p, hp, -⟩ := hc; cases hp), fun k _ => rfl⟩, by simp, .nil⟩
  obtain ⟨st, k1, k2, ⟨new, k3, k4⟩, -⟩ := identifyJournals_ok (buildJournals pairs).keys _ h0
    (fun t ht => ⟨(j3 t ht).1, (j3 t ht).2, buildJournals_pats pairs t ht⟩) (buildJournals_sorted pairs) (by simp)
  rw [identifyJournals, k1] at h2
  cases h2
  have m2 : Masked titles.line ((compressSpaces (cleanedLine line)).2.map unslash) := masked_trans (masked_over k2.over) m1
  obtain ⟨i1, -, i2⟩ := Props.C29_ibids titles.line
  have m3 : Masked (identifyIbids titles.line).2 ((compressSpaces (cleanedLine line)).2.map unslash) := masked_trans (masked_over i2) m2
  have ht : ∀ p ∈ titles.found, p.2 ≠ [] ∧ '_' ∉ p.2 ∧ (p.2 ∈ kbs.journalKeys ∨ ReadsIbid p.2) ∧
      ∃ w, Masked w ((compressSpaces (cleanedLine line)).2.map unslash) ∧ AtPos w p.1 p.2 := by
    intro p hp
    obtain ⟨q1, q2, q3⟩ := k2.stands p hp
    refine ⟨q1, q2, .inl ?_, reps.line, m1, q3⟩
    rw [j2]
    rw [k3] at hp
    exact k4 p hp
  have hi : ∀ p ∈ (identifyIbids titles.line).1, p.2 ≠ [] ∧ '_' ∉ p.2 ∧ (p.2 ∈ kbs.journalKeys ∨ ReadsIbid p.2) ∧
      ∃ w, Masked w ((compressSpaces (cleanedLine line)).2.map unslash) ∧ AtPos w p.1 p.2 := by
    intro p hp
    obtain ⟨q1, q2⟩ := i1 p hp
    obtain ⟨a, b, q3, q4⟩ := q2
    refine ⟨(readsIbid_plain q1).2, (readsIbid_plain q1).1, .inr q1, titles.line, m2, ?_⟩
    rw [q3, ← q4, List.append_assoc]
    exact atPos_append a p.2 b
  split at h
  · cases h
    refine ⟨rfl, fun p hp => ?_, r2, ⟨_, m3, rfl⟩, rfl⟩
    rcases mem_dupdate _ _ _ hp with h | h
    · rcases mem_dupdate _ _ _ h with h | h
      · exact .inl h
      · exact .inr (ht p h)
    · exact .inr (hi p h)
  · cases h
    refine ⟨rfl, fun p hp => ?_, r2, ⟨_, m2, rfl⟩, rfl⟩
    rcases mem_dupdate _ _ _ hp with h | h
    · exact .inl h
    · exact .inr (ht p h)

/-- A recorded publisher was matched by one of the patterns. -/
theorem publishers_mem {w : Str} {kb : List (Str × Re × Str)} {p : Nat × Str} (h : p ∈ identifyPublishers w kb) :
    ∃ q ∈ kb, q.1 = p.2 ∧ ∃ m ∈ finditer q.2.1 w, m.start = p.1 := by
  unfold identifyPublishers at h
  have inner : ∀ (name : Str) (ms : List Match) (d : List (Nat × Str)), p ∈ ms.foldl (fun d m => dset d m.start name) d →
      p ∈ d ∨ (name = p.2 ∧ ∃ m ∈ ms, m.start = p.1) := by
    intro name ms
    induction ms with
    | nil => intro d h; exact .inl h
    | cons m ms ih =>
      intro d h
      rcases ih _ h with h | ⟨e, m', h1, h2⟩
      · rcases dset_mem h with h | rfl
        · exact .inl h
        · exact .inr ⟨rfl, m, by simp, rfl⟩
      · exact .inr ⟨e, m', by simp [h1], h2⟩
  have outer : ∀ (l : List (Str × Re × Str)) (d : List (Nat × Str)),
      p ∈ l.foldl (fun d p => (finditer p.2.1 w).foldl (fun d m => dset d m.start p.1) d) d →
      p ∈ d ∨ ∃ q ∈ l, q.1 = p.2 ∧ ∃ m ∈ finditer q.2.1 w, m.start = p.1 := by
    intro l
    induction l with
    | nil => intro d h; exact .inl h
    | cons q l ih =>
      intro d h
      rcases ih _ h with h | ⟨q', h1, h2⟩
      · rcases inner _ _ _ h with h | h
        · exact .inl h
        · exact .inr ⟨q, by simp, h⟩
      · exact .inr ⟨q', by simp [h1], h2⟩
  rcases outer kb [] h with h | h
  · cases h
  · exact h

omit [UnicodeDB] in
theorem strI_minLen : ∀ (x : Str), (Re.strI x).minLen = x.length
  | [] => rfl
  | [_] => rfl
  | c :: d :: s => by
    have := strI_minLen (d :: s)
    simp only [Re.strI, Re.minLen, List.length_cons] at this ⊢
    rw [this]
    simp [Re.chI, Re.minLen]
    omega

omit [UnicodeDB] in
theorem literalName_minLen {x : Str} (h : x ≠ []) : 0 < (literalName x).minLen := by
  have := List.length_pos_iff.2 h
  simp only [literalName, Re.minLen, strI_minLen]
  omega

theorem literalName_sem {x pre w post : Str} (h : '_' ∉ x) (hs : Sem (literalName x) pre w post) : w.length = x.length ∧ '_' ∉ w := by
  obtain ⟨w1, w2, rfl, h1, w3, w4, rfl, h2, h3⟩ := hs
  have e1 : w1 = [] := by
    rcases h1 with h1 | h1 <;> exact h1.1
  have e4 : w4 = [] := by
    rcases h3 with h3 | h3 <;> exact h3.1
  subst e1 e4
  have ha := sem_strI.1 h2
  simp only [List.nil_append, List.append_nil]
  clear h1 h2 h3
  induction ha with
  | nil => simp
  | @cons c d cs ds hc _ ih =>
    simp only [List.mem_cons, not_or] at h
    obtain ⟨i1, i2⟩ := ih h.2
    refine ⟨by simp [i1], ?_⟩
    simp only [List.mem_cons, not_or]
    refine ⟨?_, i2⟩
    rintro rfl
    have : caseVariants '_' = ['_', '_'] := rfl
    rw [this] at hc
    simp at hc
    exact h.1 hc.symm

/-! ### Rebuilding never fails -/

theorem readsIbid_find {t : Str} (h : ReadsIbid t) : (find (py! "IBID") (upper t)).isSome = true := by
  obtain ⟨a, b, c, rfl, rfl | rfl, rfl | rfl, rfl | rfl⟩ := h <;> rfl

theorem byRe_mem {line : Str} {kb : List (Str × Re × Str)} {p : Nat × Str} (h : p ∈ identifyJournalsRe line kb) :
    ∃ q ∈ kb, ∃ m, search q.2.1 line = some m ∧ p = (m.start, m.txt) := by
  unfold identifyJournalsRe at h
  have : ∀ (l : List (Str × Re × Str)) (d : List (Nat × Str)), p ∈ l.foldl (fun d p => match search p.2.1 line with
      | some m => dset d m.start m.txt
      | none => d) d → p ∈ d ∨ ∃ q ∈ l, ∃ m, search q.2.1 line = some m ∧ p = (m.start, m.txt) := by
    intro l
    induction l with
    | nil => intro d h; exact .inl h
    | cons q l ih =>
      intro d h
      rcases ih _ h with h | ⟨q', h1, h2⟩
      · dsimp only at h
        split at h
        · next m hm =>
          rcases dset_mem h with h | h
          · exact .inl h
          · exact .inr ⟨q, by simp, m, hm, h⟩
        · exact .inl h
      · exact .inr ⟨q', by simp [h1], h2⟩
  rcases this kb [] h with h | h
  · cases h
  · exact h

theorem search_str {t line : Str} {m : Match} (h : search (.str t) line = some m) : m.txt = t := by
  obtain ⟨ps, qs, hs⟩ := mem_finditer (search_mem h)
  exact (scan_hit_ok hs).lang

omit [UnicodeDB] in
theorem dupdate_isSome {κ α : Type} [DecidableEq κ] (k : κ) : ∀ (u d : List (κ × α)),
    (dget d k).isSome = true ∨ k ∈ u.map (·.1) → (dget (dupdate d u) k).isSome = true
  | [], d, h => by
    rcases h with h | h
    · exact h
    · cases h
  | q :: u, d, h => by
    show (dget (dupdate (dset d q.1 q.2) u) k).isSome = true
    apply dupdate_isSome k u
    rw [dget_dset]
    rcases h with h | h
    · split
      · exact .inl rfl
      · exact .inl h
    · simp only [List.map_cons, List.mem_cons] at h
      rcases h with h | h
      · rw [if_pos h.symm]; exact .inl rfl
      · exact .inr h

omit [UnicodeDB] in
theorem types_mem {js rs ps : List Nat} {p : Nat × ReplTy} (h : p ∈ replacementTypes js rs ps) :
    (p.2 = .journal ∧ p.1 ∈ js) ∨ (p.2 = .reportnumber ∧ p.1 ∈ rs) ∨ (p.2 = .publisher ∧ p.1 ∈ ps) := by
  have key : ∀ (ty : ReplTy) (l : List Nat) (d : List (Nat × ReplTy)), p ∈ l.foldl (fun d i => dset d i ty) d → p ∈ d ∨ (p.2 = ty ∧ p.1 ∈ l) := by
    intro ty l
    induction l with
    | nil => intro d h; exact .inl h
    | cons i l ih =>
      intro d h
      rcases ih _ h with h | ⟨h1, h2⟩
      · rcases dset_mem h with h | h
        · exact .inl h
        · subst h; exact .inr ⟨rfl, by simp⟩
      · exact .inr ⟨h1, by simp [h2]⟩
  rcases key _ _ _ h with h | h
  · rcases key _ _ _ h with h | h
    · rcases key _ _ _ h with h | h
      · cases h
      · exact .inl h
    · exact .inr (.inl h)
  · exact .inr (.inr h)

omit [UnicodeDB] in
theorem foldlM_ok {α β : Type} {f : β → α → Py β} : ∀ {l : List α}, (∀ a ∈ l, ∀ b, ∃ c, f b a = .ok c) → ∀ b, ∃ c, l.foldlM f b = .ok c
  | [], _, b => ⟨b, rfl⟩
  | a :: l, h, b => by
    obtain ⟨c, hc⟩ := h a (by simp) b
    obtain ⟨d, hd⟩ := foldlM_ok (l := l) (fun a ha => h a (by simp [ha])) c
    exact ⟨d, by rw [List.foldlM_cons, hc]; exact hd⟩

omit [UnicodeDB] in
theorem accountSpaces_after {sp : List (Nat × Nat)} {n i : Nat} (h : ∀ s ∈ sp, i + n ≤ s.1) : accountSpaces sp (some n) i = (i, 0) := by
  have : ∀ l : List (Nat × Nat), (∀ s ∈ l, i + n ≤ s.1) → l.foldl (spaceStep (some n)) (i, i, 0) = (i, i, 0) := by
    intro l
    induction l with
    | nil => intro _; rfl
    | cons s l ih =>
      intro h
      have h1 := h s (by simp)
      rw [List.foldl_cons]
      have : spaceStep (some n) (i, i, 0) s = (i, i, 0) := by
        unfold spaceStep
        dsimp only
        rw [if_neg (by omega), if_neg (by omega)]
      rw [this]
      exact ih fun s hs => h s (by simp [hs])
  unfold accountSpaces
  rw [this sp h]
