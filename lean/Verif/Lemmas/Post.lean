import Verif.Model.Post
import Verif.Lemmas.ReSem
import Verif.Lemmas.Re2
import Verif.Lemmas.Numeration
import Verif.Spec.Post

/-!
# Helper lemmas: years
-/

namespace Py
open Spec

theorem sem_star_set [UnicodeDB] {g : Bool} {k : CSet} {pre w post : Str} :
    Sem (.star g (.set k)) pre w post ↔ ∀ c ∈ w, k.mem c = true := by
  constructor
  · rintro ⟨ws, rfl, h⟩
    induction ws generalizing pre with
    | nil => simp
    | cons x xs ih =>
      obtain ⟨_, ⟨c, rfl, hc⟩, h3⟩ := h
      intro d hd
      simp at hd
      rcases hd with rfl | hd
      · exact hc
      · exact ih h3 d (by simpa using hd)
  · intro h
    refine ⟨w.map fun c => [c], by clear h; induction w with
      | nil => rfl
      | cons c w ih => rw [List.map_cons, List.flatten_cons, ← ih]; rfl, ?_⟩
    induction w generalizing pre with
    | nil => trivial
    | cons c w ih =>
      exact ⟨by simp, ⟨c, rfl, h c (by simp)⟩, ih fun d hd => h d (by simp [hd])⟩

theorem spaceSet_mem [UnicodeDB] (c : Char) : CSet.mem ⟨false, false, [.space]⟩ c = isSpace c := by
  simp [CSet.mem, CItem.mem]

theorem sem_spaces [UnicodeDB] {g : Bool} {pre w post : Str} : Sem (.star g Re.space) pre w post ↔ Spaces w := by
  unfold Re.space
  rw [sem_star_set]
  simp only [spaceSet_mem]
  rfl

theorem sem_ch [UnicodeDB] {c : Char} {pre w post : Str} : Sem (Re.ch c) pre w post ↔ w = [c] := by
  constructor
  · rintro ⟨d, rfl, h⟩
    simp [CSet.mem, CItem.mem] at h
    rw [h]
  · rintro rfl
    exact ⟨c, rfl, by simp [CSet.mem, CItem.mem]⟩

/-- Deleting all matches of a pattern. -/
theorem scanned_erase [UnicodeDB] {r : Re} {D : Str → Str → Prop}
    (hit : ∀ pre rest m, matchHere r false pre (m.txt ++ rest) = some m → D m.txt rest)
    (miss : ∀ pre post, matchHere r false pre post = none → ¬ ∃ d q, post = d ++ q ∧ D d q)
    {pre s : Str} {ps : List Piece} (h : Scanned r pre s ps) :
    Erase D s (ps.flatMap (Piece.out fun _ => [])) := by
  induction h with
  | nil pre => exact .nil
  | ch h0 hs ih =>
    simp only [List.flatMap_cons, Piece.out]
    exact .keep (miss _ _ h0) ih
  | hit h0 hne hs ih =>
    simp only [List.flatMap_cons, Piece.out, List.nil_append]
    exact .drop hne (hit _ _ _ h0) ih

theorem bracket_sem [UnicodeDB] {l r : Char} {y pre w post : Str} :
    Sem ((Re.ch l) ⬝ (.star true Re.space) ⬝ (.str y) ⬝ (.star true Re.space) ⬝ (Re.ch r)) pre w post ↔
      Bracketed l r y w := by
  constructor
  · rintro ⟨a, _, rfl, ha, u, _, rfl, hu, b, _, rfl, hb, v, c, rfl, hv, hc⟩
    rw [sem_ch] at ha hc
    rw [sem_spaces] at hu hv
    cases hb
    subst ha hc
    exact ⟨u, v, by simp, hu, hv⟩
  · rintro ⟨u, v, rfl, hu, hv⟩
    exact ⟨[l], u ++ (y ++ (v ++ [r])), by simp, sem_ch.2 rfl, u, _, rfl, sem_spaces.2 hu, y, _, rfl, rfl, v, [r], rfl,
      sem_spaces.2 hv, sem_ch.2 rfl⟩

theorem sub_bracket [UnicodeDB] {l r : Char} {y s : Str} :
    Erase (fun d _ => Bracketed l r y d) s
      (sub ((Re.ch l) ⬝ (.star true Re.space) ⬝ (.str y) ⬝ (.star true Re.space) ⬝ (Re.ch r)) (fun _ => []) s) := by
  refine scanned_erase ?_ ?_ (scan_scanned' ?_ s)
  · intro pre rest m h
    obtain ⟨q, -, hs⟩ := matchHere_sem h
    exact bracket_sem.1 hs
  · intro pre post h
    rw [matchHere_none] at h
    rintro ⟨d, q, rfl, hd⟩
    exact h ⟨d, q, rfl, bracket_sem.2 hd⟩
  · simp [Re.minLen, Re.ch]; omega

/-- A pattern ending with a greedy repetition of white space takes all of it. -/
theorem match_ends_spaces [UnicodeDB] {a b : Re} {pre post : Str} {m : Match}
    (h : matchHere (a ⬝ b ⬝ (.star true Re.space)) false pre post = some m) {rest : Str} (hs : post = m.txt ++ rest) :
    ∀ c, rest.head? = some c → isSpace c = false := by
  have hrun := h
  simp only [matchHere, Bool.false_and, Bool.false_eq_true, if_false] at hrun
  rw [runK_seq_eq, runK_eq] at hrun
  obtain ⟨t, ht, hrun⟩ := List.exists_of_findSome?_eq_some hrun
  rw [runK_seq_eq, runK_eq] at hrun
  obtain ⟨u, hu, hrun⟩ := List.exists_of_findSome?_eq_some hrun
  unfold Re.space at hrun
  obtain ⟨w, q, hw⟩ := runK_star_some hrun
  have hok := hw.ok
  simp only [Option.some.injEq] at hok
  obtain ⟨x, hx, -⟩ := run_sound _ _ _ ht
  obtain ⟨x', hx', -⟩ := run_sound _ _ _ hu
  have hxx := hx.trans hx'
  have hpost : post = (x ++ x') ++ (w ++ q) := by have := hxx.1; simpa [hw.split] using this
  have htxt : m.txt = x ++ x' ++ w := by
    rw [← hok]
    have : w.reverse ++ u.pre = (x ++ x' ++ w).reverse ++ pre := by rw [hxx.2]; simp
    simp only [mkMatch, this]
    rw [show ((x ++ x' ++ w).reverse ++ pre).length - pre.length = (x ++ x' ++ w).reverse.length by
      rw [List.length_append]; omega, List.take_left', List.reverse_reverse]
    rfl
  have hq : rest = q := by
    rw [hs, htxt] at hpost
    have : x ++ x' ++ w ++ rest = x ++ x' ++ w ++ q := by rw [hpost]; simp
    exact List.append_cancel_left this
  subst hq
  intro c hc
  cases rest with
  | nil => simp at hc
  | cons d rest =>
    simp at hc; subst hc
    cases hsp : isSpace d with
    | false => rfl
    | true =>
      have := hw.longest (w ++ [d]) rest (by rw [hw.split]; simp) (by
        intro e he
        rcases List.mem_append.1 he with he | he
        · exact hw.mem e he
        · simp at he; subst he; rw [spaceSet_mem]; exact hsp) (by simp)
      simp at this

theorem takeSpaces (s : Str) : ∃ v q, s = v ++ q ∧ Spaces v ∧ ∀ c, q.head? = some c → isSpace c = false := by
  induction s with
  | nil => exact ⟨[], [], rfl, fun c hc => by simp at hc, by simp⟩
  | cons c s ih =>
    cases hc : isSpace c with
    | false => exact ⟨[], c :: s, rfl, fun c hc => by simp at hc, by simpa using hc⟩
    | true =>
      obtain ⟨v, q, rfl, h1, h2⟩ := ih
      refine ⟨c :: v, q, rfl, ?_, h2⟩
      intro d hd
      rcases List.mem_cons.1 hd with rfl | hd
      · exact hc
      · exact h1 d hd

theorem sub_spaced [UnicodeDB] {y s : Str} (hy : y ≠ []) :
    Erase (Spaced y) s (sub (Rx.remove_year_2 (.str y)) (fun _ => []) s) := by
  refine scanned_erase ?_ ?_ (scan_scanned' ?_ s)
  · intro pre rest m h
    obtain ⟨q, hq, u, _, hm, hu, b, v, rfl, hb, hv⟩ := matchHere_sem h
    rw [sem_spaces] at hu hv
    cases hb
    exact ⟨u, v, by rw [hm]; simp, hu, hv, match_ends_spaces h rfl⟩
  · intro pre post h
    rw [matchHere_none] at h
    rintro ⟨d, q, rfl, u, v, rfl, hu, hv, -⟩
    exact h ⟨_, q, rfl, u, y ++ v, by simp, sem_spaces.2 hu, y, v, rfl, rfl, sem_spaces.2 hv⟩
  · have := List.length_pos_iff.2 hy
    simp [Rx.remove_year_2, Re.minLen]; omega

/-- `remove_year` with a year. -/
theorem removeYear_erased [UnicodeDB] (s y : Str) (hy : y ≠ []) : YearErased y s (removeYear s y) := by
  have hyr : yearRe y = .str y := by
    unfold yearRe
    cases y with
    | nil => exact absurd rfl hy
    | cons c y => rfl
  refine ⟨_, _, sub_bracket, sub_bracket, ?_⟩
  have := sub_spaced (s := sub (Rx.remove_year_1 (.str y)) (fun _ => []) (sub (Rx.remove_year_0 (.str y)) (fun _ => []) s)) hy
  simpa [removeYear, hyr, Rx.remove_year_0, Rx.remove_year_1] using this

/-! ### The year pattern -/

theorem noDigitFirst_iff [UnicodeDB] (s : Str) : NoDigitFirst s ↔ ∀ c t, s = c :: t → isDec c = false := by
  cases s with
  | nil => simp [NoDigitFirst]
  | cons c t => simp [NoDigitFirst]

theorem sem_year [UnicodeDB] {pre w post : Str} :
    Sem Rx.re_year_in_misc_txt pre w post ↔ IsYear w ∧ NoDigitFirst pre ∧ NoDigitFirst post := by
  constructor
  · rintro ⟨a, _, rfl, ha, c, _, rfl, hc, x, z, rfl, hx, hz⟩
    have ha' : a = [] ∧ NoDigitFirst pre := by
      rcases ha with ⟨rfl, rfl⟩ | ⟨rfl, ha⟩
      · exact ⟨rfl, by simp [NoDigitFirst]⟩
      · refine ⟨rfl, ?_⟩
        rw [noDigitFirst_iff]
        rintro d t rfl
        simpa [behindOk, CSet.mem, CItem.mem] using ha
    obtain ⟨rfl, hpre⟩ := ha'
    obtain ⟨_, _, rfl, ⟨d, rfl, hd⟩, e, rfl, he⟩ := hx
    have hz' : z = [] ∧ NoDigitFirst post := by
      rcases hz with ⟨rfl, hz⟩ | ⟨rfl, rfl | rfl⟩
      · refine ⟨rfl, ?_⟩
        rw [noDigitFirst_iff]
        rintro d t rfl
        simp only [Bool.true_eq_false, false_iff] at hz
        cases hh : isDec d with
        | false => rfl
        | true => exact absurd ⟨[d], t, rfl, d, rfl, by simpa [CSet.mem, CItem.mem] using hh⟩ hz
      · exact ⟨rfl, by simp [NoDigitFirst]⟩
      · exact ⟨rfl, by simp [NoDigitFirst]; rfl⟩
    obtain ⟨rfl, hpost⟩ := hz'
    refine ⟨⟨c, d, e, by simp, ?_, by simpa [CSet.mem, CItem.mem] using hd, by simpa [CSet.mem, CItem.mem] using he⟩, hpre, hpost⟩
    rcases hc with hc | hc
    · left; exact hc
    · right; exact hc
  · rintro ⟨⟨c, a, b, rfl, hc, ha, hb⟩, hpre, hpost⟩
    refine ⟨[], c ++ [a, b], rfl, .inr ⟨rfl, ?_⟩, c, [a, b], rfl, ?_, [a, b], [], rfl, ⟨[a], [b], rfl, ⟨a, rfl, ?_⟩, b, rfl, ?_⟩,
      .inl ⟨rfl, ?_⟩⟩
    · simp only [Bool.true_eq_false, false_iff]
      cases pre with
      | nil => simp [behindOk]
      | cons d t =>
        have := hpre d rfl
        simp [behindOk, CSet.mem, CItem.mem, this]
    · rcases hc with hc | hc
      · left; exact hc
      · right; exact hc
    · simpa [CSet.mem, CItem.mem] using ha
    · simpa [CSet.mem, CItem.mem] using hb
    · simp only [Bool.true_eq_false, false_iff]
      rintro ⟨u, v, h, d, rfl, hd⟩
      rw [noDigitFirst_iff] at hpost
      have := hpost d v (by simpa using h)
      simp [CSet.mem, CItem.mem, this] at hd

theorem noDigitLast_rev [UnicodeDB] (s : Str) : NoDigitFirst s.reverse ↔ NoDigitLast s := by
  simp [NoDigitFirst, NoDigitLast, List.head?_reverse]

theorem year_minLen : 0 < Rx.re_year_in_misc_txt.minLen := by decide

theorem search_year_some [UnicodeDB] {s : Str} {m : Match} (h : search Rx.re_year_in_misc_txt s = some m) :
    FirstYear s m.txt := by
  obtain ⟨a, b, h1, h2, h3⟩ := search_some year_minLen h
  obtain ⟨rest, hr, hs⟩ := matchHere_sem h2
  have : rest = b := (List.append_cancel_left hr).symm
  subst this
  rw [sem_year, noDigitLast_rev] at hs
  refine ⟨a, rest, h1, hs, ?_⟩
  intro a' y' b' he hi
  refine Nat.le_of_not_lt fun hlt => ?_
  have hpre : a' <+: a := by
    have p1 : a' <+: s := ⟨y' ++ b', by rw [he]; simp⟩
    have p2 : a <+: s := ⟨m.txt ++ rest, by rw [h1]; simp⟩
    exact List.prefix_of_prefix_length_le p1 p2 (by omega)
  obtain ⟨q, rfl⟩ := hpre
  have hq : q ≠ [] := by rintro rfl; simp at hlt
  have hn := h3 a' q rfl hq
  rw [matchHere_none] at hn
  apply hn
  refine ⟨y', b', ?_, ?_⟩
  · have : a' ++ (q ++ m.txt ++ rest) = a' ++ (y' ++ b') := by
      rw [← List.append_assoc, ← List.append_assoc, ← h1, he, List.append_assoc]
    exact List.append_cancel_left this
  · rw [sem_year, noDigitLast_rev]; exact hi

theorem search_year_none [UnicodeDB] {s : Str} (h : search Rx.re_year_in_misc_txt s = none) : NoYear s := by
  rintro ⟨a, y, b, hs, hi⟩
  have := search_none year_minLen h a (y ++ b) (by rw [hs]; simp)
  rw [matchHere_none] at this
  exact this ⟨y, b, rfl, by rw [sem_year, noDigitLast_rev]; exact hi⟩

theorem _root_.Spec.FirstYear.isYear [UnicodeDB] {s y : Str} (h : FirstYear s y) : y ≠ [] := by
  obtain ⟨_, _, _, ⟨⟨c, a, b, rfl, -⟩, -⟩, -⟩ := h
  simp

theorem _root_.Spec.FirstYear.not_none [UnicodeDB] {s y : Str} (h : FirstYear s y) : ¬ NoYear s := by
  obtain ⟨a, b, h1, h2, -⟩ := h
  exact fun hn => hn ⟨a, y, b, h1, h2⟩

theorem lastMiscYear_spec [UnicodeDB] (es : List El) :
    (∃ y, lastMiscYear es = some y ∧ LastTextYear es y) ∨ (lastMiscYear es = none ∧ ∀ e ∈ es, NoYear e.misc) := by
  have key : ∀ (es : List El) (y0 : Val),
      (∃ y, es.foldl (fun y e => match search Rx.re_year_in_misc_txt e.misc with
        | some m => some m.txt
        | none => y) y0 = some y ∧ LastTextYear es y) ∨
      (es.foldl (fun y e => match search Rx.re_year_in_misc_txt e.misc with
        | some m => some m.txt
        | none => y) y0 = y0 ∧ ∀ e ∈ es, NoYear e.misc) := by
    intro es
    induction es with
    | nil => intro y0; right; simp
    | cons e es ih =>
      intro y0
      simp only [List.foldl_cons]
      cases hm : search Rx.re_year_in_misc_txt e.misc with
      | none =>
        rcases ih y0 with ⟨y, h1, a, e', b, h2, h3, h4⟩ | ⟨h1, h2⟩
        · left; exact ⟨y, h1, e :: a, e', b, by simp [h2], h3, h4⟩
        · right
          refine ⟨h1, ?_⟩
          intro x hx
          rcases List.mem_cons.1 hx with rfl | hx
          · exact search_year_none hm
          · exact h2 x hx
      | some m =>
        left
        rcases ih (some m.txt) with ⟨y, h1, a, e', b, h2, h3, h4⟩ | ⟨h1, h2⟩
        · exact ⟨y, h1, e :: a, e', b, by simp [h2], h3, h4⟩
        · exact ⟨m.txt, h1, [], e, es, rfl, search_year_some hm, h2⟩
  exact key es none

theorem find_first {p : El → Bool} {es : List El} {e : El} (h : es.find? p = some e) :
    ∃ a b, es = a ++ e :: b ∧ p e = true ∧ ∀ x ∈ a, p x = false := by
  rw [List.find?_eq_some_iff_append] at h
  obtain ⟨h1, a, b, h2, h3⟩ := h
  exact ⟨a, b, h2, h1, fun x hx => by simpa using h3 x hx⟩

theorem dated_iff (e : El) : (decide (e.ty = Kind.journal) || (decide (e.ty = Kind.book) && e.year.isSome)) = true ↔ Dated e := by
  simp [Dated, Option.isSome_iff_ne_none]

/-- The first dated element is unique. -/
theorem firstDated_unique {es : List El} {e e' : El} (h : FirstDated es e) (h' : FirstDated es e') : e = e' := by
  obtain ⟨a, b, h1, h2, h3⟩ := h
  obtain ⟨a', b', h1', h2', h3'⟩ := h'
  induction es generalizing a a' with
  | nil => simp at h1
  | cons x es ih =>
    cases a with
    | nil =>
      simp at h1
      cases a' with
      | nil => simp at h1'; rw [← h1.1, ← h1'.1]
      | cons z a' =>
        simp at h1'
        exact absurd (h1.1 ▸ h2) (h1'.1 ▸ h3' z (by simp))
    | cons z a =>
      simp at h1
      cases a' with
      | nil =>
        simp at h1'
        exact absurd (h1'.1 ▸ h2') (h1.1 ▸ h3 z (by simp))
      | cons z' a' =>
        simp at h1'
        exact ih a h1.2 (fun x hx => h3 x (by simp [hx])) a' h1'.2 (fun x hx => h3' x (by simp [hx]))

theorem firstDated_spec (es : List El) :
    (∃ e, FirstDated es e ∧ firstDated es = getKey e.year) ∨ ((∀ e ∈ es, ¬ Dated e) ∧ firstDated es = .ok none) := by
  unfold firstDated
  cases h : es.find? fun e => e.ty = .journal || (e.ty = .book && e.year.isSome) with
  | none =>
    right
    rw [List.find?_eq_none] at h
    exact ⟨fun e he hd => h e he ((dated_iff e).2 hd), rfl⟩
  | some e =>
    left
    obtain ⟨a, b, h1, h2, h3⟩ := find_first h
    refine ⟨e, ⟨a, b, h1, (dated_iff e).1 h2, ?_⟩, rfl⟩
    intro x hx hd
    have := h3 x hx
    rw [(dated_iff x).2 hd] at this
    cases this

/-- The year of a citation, if every journal has a year entry. -/
theorem citationYear_spec [UnicodeDB] (es : List El) (hj : ∀ e ∈ es, e.ty = .journal → e.year ≠ none) :
    (∃ y, citationYear es = .ok (some y) ∧ y ≠ [] ∧ YearOf es y) ∨
    (citationYear es = .ok none ∧ ¬ ∃ y, YearOf es y) := by
  have texts : (∀ e, FirstDated es e → e.year = some none ∨ e.year = some (some [])) →
      (∃ y, (.ok (orElse (lastMiscYear es) none) : Py (Option Str)) = .ok (some y) ∧ y ≠ [] ∧ YearOf es y) ∨
      ((.ok (orElse (lastMiscYear es) none) : Py (Option Str)) = .ok none ∧ ¬ ∃ y, YearOf es y) := by
    intro hf
    rcases lastMiscYear_spec es with ⟨y, h1, h2⟩ | ⟨h1, h2⟩
    · left
      have hy : y ≠ [] := by obtain ⟨_, _, _, _, hy, -⟩ := h2; exact FirstYear.isYear hy
      refine ⟨y, ?_, hy, .inr ⟨hf, h2⟩⟩
      rw [h1]
      cases y with
      | nil => exact absurd rfl hy
      | cons c y => rfl
    · right
      refine ⟨by rw [h1]; rfl, ?_⟩
      rintro ⟨y, ⟨e, he, h3, h4⟩ | ⟨-, a, e, b, h3, h4, -⟩⟩
      · rcases hf e he with h | h <;> rw [h3] at h <;> simp at h
        exact h4 h
      · exact FirstYear.not_none h4 (h2 e (by rw [h3]; simp))
  unfold citationYear
  rcases firstDated_spec es with ⟨e, he, h⟩ | ⟨hn, h⟩
  · have hyear : e.year ≠ none := by
      obtain ⟨a, b, h1, h2, -⟩ := he
      rcases h2 with h2 | ⟨-, h2⟩
      · exact hj e (by rw [h1]; simp) h2
      · exact h2
    rw [h]
    cases hy : e.year with
    | none => exact absurd hy hyear
    | some v =>
      cases v with
      | none =>
        exact texts fun e' he' => by rw [firstDated_unique he' he, hy]; simp
      | some s =>
        cases s with
        | nil =>
          exact texts fun e' he' => by rw [firstDated_unique he' he, hy]; simp
        | cons c s =>
          left
          exact ⟨c :: s, rfl, by simp, .inl ⟨e, he, hy, by simp⟩⟩
  · rw [h]
    exact texts fun e he => by
      obtain ⟨a, b, h1, h2, -⟩ := he
      exact absurd h2 (hn e (by rw [h1]; simp))

/-! ### `in` -/

theorem find_isSome_iff {sub s : Str} : (find sub s).isSome = true ↔ ∃ a b, s = a ++ sub ++ b := by
  induction s with
  | nil =>
    simp only [find]
    constructor
    · intro h
      split at h
      · rename_i h0; simp at h0; subst h0; exact ⟨[], [], rfl⟩
      · cases h
    · rintro ⟨a, b, h⟩
      have h1 := List.append_eq_nil_iff.1 h.symm
      have h2 := List.append_eq_nil_iff.1 h1.1
      rw [h2.2]; rfl
  | cons c s ih =>
    simp only [find]
    split
    · rename_i hp
      obtain ⟨q, hq⟩ := List.isPrefixOf_iff_prefix.1 hp
      simp only [Option.isSome_some, true_iff]
      exact ⟨[], q, by simp [hq]⟩
    · rename_i hp
      rw [Option.isSome_map, ih]
      constructor
      · rintro ⟨a, b, h⟩; exact ⟨c :: a, b, by simp [h]⟩
      · rintro ⟨a, b, h⟩
        cases a with
        | nil =>
          exfalso; apply hp
          rw [List.isPrefixOf_iff_prefix]
          exact ⟨b, by simpa using h.symm⟩
        | cons d a => simp at h; exact ⟨a, b, by simpa using h.2⟩

theorem contains_iff (s sub : Str) : contains s sub = true ↔ PartOf sub s := find_isSome_iff

/-! ### The heap -/

/-- The element with the year removed (`engine.py:465-466`). -/
def cleanEl [UnicodeDB] (y : Str) (e : El) : El :=
  if contains e.misc y then { e with misc := removeYear e.misc y } else e

theorem removeYearLoop_get [UnicodeDB] (y : Str) (c : List Nat) (hc : c.Nodup) (h : Heap) (i : Nat) :
    (removeYearLoop y h c).get i = if i ∈ c then cleanEl y (h.get i) else h.get i := by
  induction c generalizing h with
  | nil => simp [removeYearLoop]
  | cons j c ih =>
    simp only [List.nodup_cons] at hc
    simp only [removeYearLoop]
    rw [ih hc.2]
    have hget : ∀ k, (if contains (h.get j).misc y then h.set j { h.get j with misc := removeYear (h.get j).misc y }
        else h).get k = if k = j then cleanEl y (h.get k) else h.get k := by
      intro k
      by_cases hk : k = j
      · subst hk
        unfold cleanEl
        split <;> simp [Heap.set]
      · split <;> simp [Heap.set, hk]
    rw [hget]
    by_cases hij : i = j
    · subst hij; simp [hc.1]
    · simp [hij]

theorem removeYearLoop_next [UnicodeDB] (y : Str) (c : List Nat) (h : Heap) : (removeYearLoop y h c).next = h.next := by
  induction c generalizing h with
  | nil => rfl
  | cons j c ih =>
    simp only [removeYearLoop]
    rw [ih]
    split <;> rfl

theorem cleanEl_undated [UnicodeDB] (y : Str) (hy : y ≠ []) (e : El) : Undated y e (cleanEl y e) := by
  unfold cleanEl Undated
  by_cases hc : contains e.misc y = true
  · rw [if_pos hc]
    refine ⟨rfl, fun _ => removeYear_erased _ _ hy, fun h => absurd ((contains_iff _ _).1 hc) h⟩
  · rw [if_neg hc]
    refine ⟨rfl, fun h => absurd ((contains_iff _ _).2 h) hc, fun _ => rfl⟩

theorem all2_map {α β γ : Type} {R : β → γ → Prop} {f : α → β} {g : α → γ} (l : List α) (h : ∀ x ∈ l, R (f x) (g x)) :
    All2 R (l.map f) (l.map g) := by
  induction l with
  | nil => exact .nil
  | cons a l ih => exact .cons (h a (by simp)) (ih fun x hx => h x (by simp [hx]))

end Py
