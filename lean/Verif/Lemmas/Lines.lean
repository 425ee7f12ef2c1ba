import Verif.Model.Lines
import Verif.Spec.Lines
import Verif.Lemmas.Post
import Verif.Lemmas.Boundary

/-!
# Lemmas on joining and washing lines
-/

open Spec

namespace Py

/-! ### Joining -/

theorem joinLines_glued (a b : Str) : ∃ g, Glued a g ∧ joinLines a b = g ++ b := by
  rcases List.eq_nil_or_concat a with rfl | ⟨l, c, rfl⟩
  · exact ⟨[], .empty, rfl⟩
  · rw [joinLines, List.concat_eq_append, List.getLast?_concat]
    dsimp only
    by_cases h1 : c = '-'
    · subst h1
      exact ⟨l, .hyphen l, by simp⟩
    · by_cases h2 : c = ' '
      · subst h2
        exact ⟨l ++ [' '], .blank l, by simp⟩
      · exact ⟨l ++ [c, ' '], .other l h1 h2, by simp [h1, h2]⟩

theorem glued_append {a g : Str} (h : Glued a g) (ha : a ≠ []) (x : Str) : Glued (x ++ a) (x ++ g) := by
  cases h with
  | empty => exact absurd rfl ha
  | hyphen l => rw [← List.append_assoc]; exact .hyphen _
  | blank l => rw [← List.append_assoc]; exact .blank _
  | other l h1 h2 => rw [← List.append_assoc, ← List.append_assoc]; exact .other _ h1 h2

theorem glued_join {a g : Str} (h : Glued a g) : joinLines a [] = g := by
  cases h with
  | empty => rfl
  | hyphen l => simp [joinLines]
  | blank l => simp [joinLines]
  | other l h1 h2 => simp [joinLines, h1, h2]

theorem glued_unique {a g g' : Str} (h : Glued a g) (h' : Glued a g') : g = g' := by
  rw [← glued_join h, ← glued_join h']

/-! ### Replacing by local edits -/

theorem scanned_washes [UnicodeDB] {r : Re} {f : Match → Str}
    (hit : ∀ pre t m, matchHere r false pre (m.txt ++ t) = some m → ∀ a b, Washes (a ++ m.txt ++ b) (a ++ f m ++ b))
    {pre s : Str} {ps : List Piece} (h : Scanned r pre s ps) (a : Str) :
    Washes (a ++ s) (a ++ ps.flatMap (Piece.out f)) := by
  induction h generalizing a with
  | nil => exact .refl _
  | @ch pre c t ps _ _ ih =>
    have := ih (a ++ [c])
    simpa [Piece.out] using this
  | @hit pre t ps m hm _ _ ih =>
    have h1 := hit _ _ _ hm a t
    have h2 := ih (a ++ f m)
    rw [List.flatMap_cons, Piece.out, ← List.append_assoc, ← List.append_assoc]
    exact .trans h1 h2

theorem sub_washes [UnicodeDB] {r : Re} {f : Match → Str} (hr : 0 < r.minLen)
    (hit : ∀ pre t w, Sem r pre w t → ∀ m : Match, m.txt = w → ∀ a b, Washes (a ++ w ++ b) (a ++ f m ++ b)) (s : Str) :
    Washes s (sub r f s) := by
  have := scanned_washes (r := r) (f := f) (fun pre t m hm a b => by
    obtain ⟨rest, h1, h2⟩ := matchHere_sem hm
    exact hit _ _ _ h2 m rfl a b) (scan_scanned' hr s) []
  simpa [sub] using this

theorem sem_space1 [UnicodeDB] {pre w post : Str} : Sem Re.space pre w post ↔ ∃ c, w = [c] ∧ isSpace c = true := by
  show (∃ c, w = [c] ∧ CSet.mem _ c = true) ↔ _
  simp only [spaceSet_mem]

theorem sem_before [UnicodeDB] {p : Char} {pre w post : Str} (h : Sem (Re.space ⬝ Re.ch p) pre w post) :
    ∃ c, w = [c, p] ∧ isSpace c = true := by
  obtain ⟨u, v, rfl, h1, h2⟩ := h
  rw [sem_space1] at h1
  rw [sem_ch] at h2
  obtain ⟨c, rfl, hc⟩ := h1
  exact ⟨c, by rw [h2]; rfl, hc⟩

theorem sub_before_washes [UnicodeDB] {p : Char} (hp : p ∈ [',', ';', '.', ']']) (s : Str) :
    Washes s (sub (Re.space ⬝ Re.ch p) (fun _ => [p]) s) := by
  refine sub_washes (by simp [Re.minLen, Re.space, Re.ch]) (fun pre t w hw m _ a b => ?_) s
  obtain ⟨c, rfl, hc⟩ := sem_before hw
  have := Washes.before a b hc hp
  simpa using this

theorem sub_colon_washes [UnicodeDB] {p : Char} (hp : p ∈ [':', ',']) (s : Str) :
    Washes s (sub (Re.ch p ⬝ Re.space ⬝ Re.ch ':') (fun _ => [':']) s) := by
  refine sub_washes (by simp [Re.minLen, Re.space, Re.ch]) (fun pre t w hw m _ a b => ?_) s
  obtain ⟨u, v, rfl, h1, h2⟩ := hw
  obtain ⟨c, rfl, hc⟩ := sem_before h2
  rw [sem_ch] at h1
  subst h1
  have := Washes.colon a b hc hp
  simpa using this

theorem sub_after_washes [UnicodeDB] (s : Str) :
    Washes s (sub Rx.re_opening_square_bracket_space (fun _ => ['[']) s) := by
  refine sub_washes (by simp [Re.minLen, Re.space, Re.ch, Rx.re_opening_square_bracket_space])
    (fun pre t w hw m _ a b => ?_) s
  obtain ⟨u, v, rfl, h1, h2⟩ := hw
  rw [sem_ch] at h1
  rw [sem_space1] at h2
  obtain ⟨c, rfl, hc⟩ := h2
  subst h1
  have := Washes.after a b hc
  simpa using this

theorem sem_hyphens [UnicodeDB] {pre w post : Str} :
    Sem Rx.re_hyphens pre w post ↔ w = ['\\', '2', '5', '5'] ∨ ∃ h ∈ hyphens, w = [h] := by
  simp only [Rx.re_hyphens, Re.alts, Sem, sem_ch, hyphens, List.mem_cons, List.not_mem_nil, or_false, exists_eq_or_imp,
    exists_eq_left]

theorem hyphens_minLen : 0 < Rx.re_hyphens.minLen := by decide

theorem sub_hyphens_washes [UnicodeDB] (s : Str) : Washes s (sub Rx.re_hyphens (fun _ => ['-']) s) := by
  refine sub_washes hyphens_minLen (fun pre t w hw m _ a b => ?_) s
  rw [sem_hyphens] at hw
  rcases hw with rfl | ⟨h, hh, rfl⟩
  · simpa using Washes.code a b
  · simpa using Washes.hyphen a b hh

theorem washes_run [UnicodeDB] (b : Str) : ∀ (n : Nat) (w a : Str), w.length = n + 2 → (∀ c ∈ w, isSpace c = true) →
    Washes (a ++ w ++ b) (a ++ [' '] ++ b)
  | 0, [x, y], a, _, h => by simpa using Washes.run a b (h x (by simp)) (h y (by simp))
  | n + 1, x :: y :: w, a, hl, h => by
    have h1 := Washes.run a (w ++ b) (h x (by simp)) (h y (by simp))
    have h2 := washes_run b n (' ' :: w) a (by simpa using hl) (by
      intro c hc
      rcases List.mem_cons.1 hc with rfl | hc
      · decide
      · exact h c (by simp [hc]))
    simp only [List.append_assoc, List.cons_append] at h1 h2 ⊢
    exact .trans h1 h2

theorem sem_multi [UnicodeDB] {pre w post : Str} :
    Sem Rx.re_multiple_space pre w post ↔ 2 ≤ w.length ∧ ∀ c ∈ w, isSpace c = true := by
  have hs : ∀ {pre w post : Str}, Sem (.star true Re.space) pre w post ↔ ∀ c ∈ w, isSpace c = true := sem_spaces
  constructor
  · rintro ⟨u, v, rfl, ⟨u1, u2, rfl, h1, h2⟩, h4⟩
    rw [sem_space1] at h1
    have h2' : Sem Re.space (List.reverse u1 ++ pre) u2 (v ++ post) := h2
    rw [sem_space1] at h2'
    obtain ⟨c, rfl, hc⟩ := h1
    obtain ⟨d, rfl, hd⟩ := h2'
    rw [hs] at h4
    refine ⟨by simp, fun x hx => ?_⟩
    simp at hx
    rcases hx with rfl | rfl | hx
    · exact hc
    · exact hd
    · exact h4 x hx
  · rintro ⟨hl, h⟩
    match w, hl with
    | c :: d :: v, _ =>
      refine ⟨[c, d], v, rfl, ⟨[c], [d], rfl, ?_, ?_⟩, ?_⟩
      · rw [sem_space1]; exact ⟨c, rfl, h c (by simp)⟩
      · exact sem_space1.2 ⟨d, rfl, h d (by simp)⟩
      · rw [hs]; exact fun x hx => h x (by simp [hx])

theorem multi_minLen : 0 < Rx.re_multiple_space.minLen := by decide

theorem sub_multi_washes [UnicodeDB] (s : Str) : Washes s (sub Rx.re_multiple_space (fun _ => [' ']) s) := by
  refine sub_washes multi_minLen (fun pre t w hw m _ a b => ?_) s
  rw [sem_multi] at hw
  exact washes_run b (w.length - 2) w a (by omega) hw.2

theorem washLine_washes [UnicodeDB] (s : Str) : Washes s (washLine s) := by
  unfold washLine
  refine .trans (sub_before_washes (p := ',') (by simp) _) ?_
  refine .trans (sub_before_washes (p := ';') (by simp) _) ?_
  refine .trans (sub_before_washes (p := '.') (by simp) _) ?_
  refine .trans (sub_colon_washes (p := ':') (by simp) _) ?_
  refine .trans (sub_colon_washes (p := ',') (by simp) _) ?_
  refine .trans (sub_before_washes (p := ']') (by simp) _) ?_
  refine .trans (sub_after_washes _) ?_
  refine .trans (sub_hyphens_washes _) ?_
  exact sub_multi_washes _

/-! ### Consequences -/

theorem washes_length {s t : Str} (h : Washes s t) : t.length ≤ s.length := by
  induction h with
  | refl => exact Nat.le_refl _
  | trans _ _ h1 h2 => omega
  | before => simp
  | after => simp
  | run => simp
  | colon => simp
  | hyphen => simp
  | code => simp

theorem washes_solid {s t : Str} (h : Washes s t) (hs : '\\' ∉ s) : '\\' ∉ t ∧ t.filter solid = s.filter solid := by
  have sp : ∀ {w}, isSpace w = true → solid w = false := fun h => by simp [solid, h]
  induction h with
  | refl => exact ⟨hs, rfl⟩
  | trans _ _ h1 h2 =>
    obtain ⟨a1, a2⟩ := h1 hs
    obtain ⟨b1, b2⟩ := h2 a1
    exact ⟨b1, b2.trans a2⟩
  | before a b hw hp =>
    simp only [List.mem_append, List.mem_cons, not_or] at hs ⊢
    refine ⟨⟨hs.1, hs.2.2⟩, ?_⟩
    simp [sp hw]
  | after a b hw =>
    simp only [List.mem_append, List.mem_cons, not_or] at hs ⊢
    refine ⟨⟨hs.1, hs.2.1, hs.2.2.2⟩, ?_⟩
    simp [sp hw, List.filter_cons]
  | run a b hw hv =>
    simp only [List.mem_append, List.mem_cons, not_or] at hs ⊢
    refine ⟨⟨hs.1, by decide, hs.2.2.2⟩, ?_⟩
    simp [sp hw, sp hv, show solid ' ' = false by decide]
  | @colon a b w p hw hp =>
    simp only [List.mem_append, List.mem_cons, not_or] at hs ⊢
    refine ⟨⟨hs.1, hs.2.2.2⟩, ?_⟩
    have : solid p = false := by
      simp only [List.mem_cons, List.not_mem_nil, or_false] at hp
      rcases hp with rfl | rfl <;> decide
    simp [sp hw, this]
  | @hyphen a b h hh =>
    simp only [List.mem_append, List.mem_cons, not_or] at hs ⊢
    refine ⟨⟨hs.1, by decide, hs.2.2⟩, ?_⟩
    have : solid h = false := by
      simp only [solid, Bool.and_eq_false_iff]
      right
      rw [List.contains_iff_mem.2 hh]
      rfl
    simp [this, show solid '-' = false by decide]
  | code a b =>
    exact absurd (by simp) hs

/-! ### What a washed line looks like -/

/-- A relation between adjacent characters. -/
def Adj (R : Char → Char → Prop) : Str → Prop
  | x :: y :: t => R x y ∧ Adj R (y :: t)
  | _ => True

theorem adj_iff {R : Char → Char → Prop} : ∀ {s : Str}, Adj R s ↔ ∀ a x y b, s = a ++ x :: y :: b → R x y
  | [] => by simp [Adj]
  | [x] => by
    refine ⟨fun _ a y z b h => ?_, fun _ => trivial⟩
    have := congrArg List.length h
    simp at this
    omega
  | x :: y :: t => by
    rw [Adj, adj_iff]
    constructor
    · rintro ⟨h1, h2⟩ a u v b h
      cases a with
      | nil => cases h; exact h1
      | cons d a =>
        rw [List.cons_append, List.cons.injEq] at h
        exact h2 a u v b h.2
    · intro h
      exact ⟨h [] x y t rfl, fun a u v b e => h (x :: a) u v b (by rw [e]; rfl)⟩

theorem adj_cons {R : Char → Char → Prop} {c : Char} {s : Str} :
    Adj R (c :: s) ↔ (∀ d, s.head? = some d → R c d) ∧ Adj R s := by
  cases s with
  | nil => simp [Adj]
  | cons d t => simp [Adj]

theorem noDouble_iff {s : Str} : NoDoubleSpace s ↔ Adj (fun x y => ¬ (isSpace x = true ∧ isSpace y = true)) s := by
  rw [adj_iff]
  constructor
  · intro h a x y b e hxy
    exact h ⟨a, x, y, b, e, hxy.1, hxy.2⟩
  · rintro h ⟨a, x, y, b, e, hx, hy⟩
    exact h a x y b e ⟨hx, hy⟩

/-- A replacement that changes nothing. -/
theorem scanned_id [UnicodeDB] {r : Re} {f : Match → Str} {pre s : Str} {ps : List Piece} (h : Scanned r pre s ps)
    (hf : ∀ a b m, s = a ++ m.txt ++ b → matchHere r false (a.reverse ++ pre) (m.txt ++ b) = some m → f m = m.txt) :
    ps.flatMap (Piece.out f) = s := by
  induction h with
  | nil => rfl
  | @ch pre c t ps _ _ ih =>
    rw [List.flatMap_cons, ih]
    · rfl
    · intro a b m e hm
      exact hf (c :: a) b m (by rw [e]; rfl) (by simpa using hm)
  | @hit pre t ps m h1 _ _ ih =>
    rw [List.flatMap_cons, ih]
    · rw [Piece.out, hf [] t m rfl (by simpa using h1)]
    · intro a b m' e hm
      exact hf (m.txt ++ a) b m' (by rw [e]; simp) (by simpa using hm)

theorem sub_id [UnicodeDB] {r : Re} {f : Match → Str} (hr : 0 < r.minLen) {s : Str}
    (hf : ∀ a b m, s = a ++ m.txt ++ b → Sem r a.reverse m.txt b → f m = m.txt) : sub r f s = s := by
  refine scanned_id (scan_scanned' hr s) fun a b m e hm => ?_
  obtain ⟨rest, h1, h2⟩ := matchHere_sem hm
  obtain rfl := List.append_cancel_left h1
  exact hf a _ m e (by simpa using h2)

/-- Squeezing white space leaves no two adjacent white-space characters. -/
theorem scanned_multi [UnicodeDB] {pre s : Str} {ps : List Piece} (h : Scanned Rx.re_multiple_space pre s ps) :
    Adj (fun x y => ¬ (isSpace x = true ∧ isSpace y = true)) (ps.flatMap (Piece.out fun _ => [' '])) ∧
    ∀ d, (ps.flatMap (Piece.out fun _ => [' '])).head? = some d → isSpace d = true →
      ∃ c, s.head? = some c ∧ isSpace c = true := by
  induction h with
  | nil => exact ⟨trivial, by simp⟩
  | @ch pre c t ps hn _ ih =>
    rw [List.flatMap_cons]
    refine ⟨?_, ?_⟩
    · show Adj _ (c :: _)
      rw [adj_cons]
      refine ⟨fun d hd hcd => ?_, ih.1⟩
      obtain ⟨e, he, hse⟩ := ih.2 d hd hcd.2
      obtain ⟨t', rfl⟩ : ∃ t', t = e :: t' := by
        cases t with
        | nil => cases he
        | cons x t' => cases he; exact ⟨t', rfl⟩
      rw [matchHere_none] at hn
      refine hn ⟨[c, e], t', rfl, ?_⟩
      rw [sem_multi]
      refine ⟨by simp, fun x hx => ?_⟩
      simp at hx
      rcases hx with rfl | rfl
      · exact hcd.1
      · exact hse
    · intro d hd hs
      cases hd
      exact ⟨c, rfl, hs⟩
  | @hit pre t ps m h1 h2 _ ih =>
    rw [List.flatMap_cons]
    have hsem : ∀ c ∈ m.txt, isSpace c = true := by
      obtain ⟨rest, _, h4⟩ := matchHere_sem h1
      rw [sem_multi] at h4
      exact h4.2
    refine ⟨?_, ?_⟩
    · show Adj _ (' ' :: _)
      rw [adj_cons]
      refine ⟨fun d hd hcd => ?_, ih.1⟩
      obtain ⟨e, he, hse⟩ := ih.2 d hd hcd.2
      have := match_ends_spaces (a := Re.times 2 Re.space) (b := .eps) (pre := pre) (post := m.txt ++ t) (m := m) ?_ rfl e he
      · rw [hse] at this
        cases this
      · rw [← h1]
        simp only [matchHere, runK, Rx.re_multiple_space, Re.atLeast]
    · intro d _ _
      cases hm : m.txt with
      | nil => exact absurd hm h2
      | cons c w => exact ⟨c, by simp, hsem c (by rw [hm]; simp)⟩

theorem sub_multi_adj [UnicodeDB] (s : Str) : NoDoubleSpace (sub Rx.re_multiple_space (fun _ => [' ']) s) :=
  noDouble_iff.2 (scanned_multi (scan_scanned' multi_minLen s)).1

/-- Every character of the result is a kept one or stems from a replacement. -/
theorem sub_mem [UnicodeDB] {r : Re} {f : Match → Str} (hr : 0 < r.minLen) {s : Str} {c : Char} (h : c ∈ sub r f s) :
    (∃ a b, s = a ++ c :: b ∧ matchHere r false a.reverse (c :: b) = none) ∨ ∃ m : Match, c ∈ f m := by
  have key : ∀ {pre s ps}, Scanned r pre s ps → c ∈ ps.flatMap (Piece.out f) →
      (∃ a b, s = a ++ c :: b ∧ matchHere r false (a.reverse ++ pre) (c :: b) = none) ∨ ∃ m : Match, c ∈ f m := by
    intro pre s ps h
    induction h with
    | nil => simp
    | @ch pre d t ps hn _ ih =>
      intro hc
      rw [List.flatMap_cons, List.mem_append] at hc
      rcases hc with hc | hc
      · rw [Piece.out, List.mem_singleton] at hc
        subst hc
        exact .inl ⟨[], t, rfl, hn⟩
      · rcases ih hc with ⟨a, b, e, hm⟩ | hm
        · exact .inl ⟨d :: a, b, by rw [e]; rfl, by simpa using hm⟩
        · exact .inr hm
    | @hit pre t ps m _ _ _ ih =>
      intro hc
      rw [List.flatMap_cons, List.mem_append] at hc
      rcases hc with hc | hc
      · exact .inr ⟨m, hc⟩
      · rcases ih hc with ⟨a, b, e, hm⟩ | hm
        · exact .inl ⟨m.txt ++ a, b, by rw [e]; simp, by simpa using hm⟩
        · exact .inr hm
  rcases key (scan_scanned' hr s) h with ⟨a, b, e, hm⟩ | hm
  · exact .inl ⟨a, b, e, by simpa using hm⟩
  · exact .inr hm

theorem sub_hyphens_mem [UnicodeDB] {s : Str} {c : Char} (h : c ∈ sub Rx.re_hyphens (fun _ => ['-']) s) (hc : c ∈ hyphens) :
    c = '-' := by
  rcases sub_mem hyphens_minLen h with ⟨a, b, _, hm⟩ | ⟨m, hm⟩
  · rw [matchHere_none] at hm
    exact absurd ⟨[c], b, rfl, sem_hyphens.2 (.inr ⟨c, hc, rfl⟩)⟩ hm
  · exact List.mem_singleton.1 hm

theorem washLine_hyphens [UnicodeDB] {s : Str} {c : Char} (h : c ∈ washLine s) (hc : c ∈ hyphens) : c = '-' := by
  unfold washLine at h
  rcases sub_mem multi_minLen h with ⟨a, b, e, _⟩ | ⟨m, hm⟩
  · exact sub_hyphens_mem (by rw [e]; simp) hc
  · rw [List.mem_singleton.1 hm] at hc
    exact absurd hc (by decide)

/-! ### Washing twice -/

/-- A relation that holds unless white space is involved. -/
def Solid (R : Char → Char → Prop) : Prop := ∀ x y, isSpace x = false → isSpace y = false → R x y

theorem head_cons {s : Str} {c : Char} (h : s.head? = some c) : ∃ t, s = c :: t := by
  cases s with
  | nil => cases h
  | cons d t => cases h; exact ⟨t, rfl⟩

theorem scanned_before [UnicodeDB] {p : Char} (hp : isSpace p = false) {R : Char → Char → Prop} (hR : Solid R)
    {pre s : Str} {ps : List Piece} (h : Scanned (Re.space ⬝ Re.ch p) pre s ps)
    (hd : Adj (fun x y => ¬ (isSpace x = true ∧ isSpace y = true)) s) (hs : Adj R s) :
    Adj (fun x y => R x y ∧ ¬ (isSpace x = true ∧ y = p)) (ps.flatMap (Piece.out fun _ => [p])) ∧
    ∀ d, (ps.flatMap (Piece.out fun _ => [p])).head? = some d → s.head? = some d ∨ ∃ w t, s = w :: p :: t ∧ isSpace w = true ∧ d = p := by
  induction h with
  | nil => exact ⟨trivial, by simp⟩
  | @ch pre c t ps hn _ ih =>
    rw [adj_cons] at hd hs
    obtain ⟨h1, h2⟩ := ih hd.2 hs.2
    rw [List.flatMap_cons]
    refine ⟨?_, fun d h => .inl h⟩
    show Adj _ (c :: _)
    rw [adj_cons]
    refine ⟨fun d hdd => ?_, h1⟩
    rcases h2 d hdd with ht | ⟨w, t', rfl, hw, rfl⟩
    · refine ⟨hs.1 d ht, ?_⟩
      rintro ⟨hc, rfl⟩
      obtain ⟨t', rfl⟩ := head_cons ht
      rw [matchHere_none] at hn
      refine hn ⟨[c, d], t', rfl, [c], [d], rfl, sem_space1.2 ⟨c, rfl, hc⟩, sem_ch.2 rfl⟩
    · have hc : isSpace c = false := by
        have := hd.1 w rfl
        rw [← Bool.not_eq_true]
        exact fun h => this ⟨h, hw⟩
      exact ⟨hR _ _ hc hp, fun h => by rw [hc] at h; exact absurd h.1 (by simp)⟩
  | @hit pre t ps m h1 _ _ ih =>
    obtain ⟨w, hm, hw⟩ : ∃ w, m.txt = [w, p] ∧ isSpace w = true := by
      obtain ⟨_, _, h4⟩ := matchHere_sem h1
      exact sem_before h4
    rw [hm] at hd hs
    simp only [List.cons_append, List.nil_append] at hd hs
    rw [hm]
    rw [adj_cons] at hd hs
    have hd2 := hd.2
    have hs2 := hs.2
    rw [adj_cons] at hd2 hs2
    obtain ⟨i1, i2⟩ := ih hd2.2 hs2.2
    rw [List.flatMap_cons]
    refine ⟨?_, fun d h => .inr ⟨w, t, rfl, hw, by cases h; rfl⟩⟩
    show Adj _ (p :: _)
    rw [adj_cons]
    refine ⟨fun d hdd => ⟨?_, fun h => by rw [hp] at h; exact absurd h.1 (by simp)⟩, i1⟩
    rcases i2 d hdd with ht | ⟨w', t', rfl, hw', rfl⟩
    · exact hs2.1 d ht
    · exact hR _ _ hp hp

theorem sub_before_adj [UnicodeDB] {p : Char} (hp : isSpace p = false) {R : Char → Char → Prop} (hR : Solid R) {s : Str}
    (hd : NoDoubleSpace s) (hs : Adj R s) :
    Adj (fun x y => R x y ∧ ¬ (isSpace x = true ∧ y = p)) (sub (Re.space ⬝ Re.ch p) (fun _ => [p]) s) :=
  (scanned_before hp hR (scan_scanned' (by simp [Re.minLen, Re.space, Re.ch]) s) (noDouble_iff.1 hd) hs).1

theorem scanned_after [UnicodeDB] {R : Char → Char → Prop} (hR : Solid R)
    {pre s : Str} {ps : List Piece} (h : Scanned Rx.re_opening_square_bracket_space pre s ps)
    (hd : Adj (fun x y => ¬ (isSpace x = true ∧ isSpace y = true)) s) (hs : Adj R s) :
    Adj (fun x y => R x y ∧ ¬ (x = '[' ∧ isSpace y = true)) (ps.flatMap (Piece.out fun _ => ['['])) ∧
    (ps.flatMap (Piece.out fun _ => ['['])).head? = s.head? := by
  induction h with
  | nil => exact ⟨trivial, by simp⟩
  | @ch pre c t ps hn _ ih =>
    rw [adj_cons] at hd hs
    obtain ⟨h1, h2⟩ := ih hd.2 hs.2
    rw [List.flatMap_cons]
    refine ⟨?_, rfl⟩
    show Adj _ (c :: ps.flatMap (Piece.out fun _ => ['[']))
    rw [adj_cons, h2]
    refine ⟨fun d ht => ⟨hs.1 d ht, ?_⟩, h1⟩
    rintro ⟨rfl, hc⟩
    obtain ⟨t', rfl⟩ := head_cons ht
    rw [matchHere_none] at hn
    exact hn ⟨['[', d], t', rfl, ['['], [d], rfl, sem_ch.2 rfl, sem_space1.2 ⟨d, rfl, hc⟩⟩
  | @hit pre t ps m h1 _ _ ih =>
    obtain ⟨w, hm, hw⟩ : ∃ w, m.txt = ['[', w] ∧ isSpace w = true := by
      obtain ⟨_, _, u, v, hm, h3, h4⟩ := matchHere_sem h1
      rw [sem_ch] at h3
      rw [sem_space1] at h4
      obtain ⟨w, rfl, hw⟩ := h4
      exact ⟨w, by rw [hm, h3]; rfl, hw⟩
    rw [hm] at hd hs
    simp only [List.cons_append, List.nil_append] at hd hs
    rw [hm]
    rw [adj_cons] at hd hs
    have hd2 := hd.2
    have hs2 := hs.2
    rw [adj_cons] at hd2 hs2
    obtain ⟨i1, i2⟩ := ih hd2.2 hs2.2
    rw [List.flatMap_cons]
    refine ⟨?_, rfl⟩
    show Adj _ ('[' :: ps.flatMap (Piece.out fun _ => ['[']))
    rw [adj_cons, i2]
    refine ⟨fun d ht => ?_, i1⟩
    have hdn : isSpace d = false := by
      rw [← Bool.not_eq_true]
      exact fun h => hd2.1 d ht ⟨hw, h⟩
    exact ⟨hR _ _ (by decide) hdn, fun h => by rw [hdn] at h; exact absurd h.2 (by simp)⟩

theorem sub_after_adj [UnicodeDB] {R : Char → Char → Prop} (hR : Solid R) {s : Str} (hd : NoDoubleSpace s) (hs : Adj R s) :
    Adj (fun x y => R x y ∧ ¬ (x = '[' ∧ isSpace y = true)) (sub Rx.re_opening_square_bracket_space (fun _ => ['[']) s) :=
  (scanned_after hR (scan_scanned' (by decide) s) (noDouble_iff.1 hd) hs).1

theorem scanned_hyphens [UnicodeDB] {R : Char → Char → Prop} (h1 : ∀ x, R x '-') (h2 : ∀ y, R '-' y)
    {pre s : Str} {ps : List Piece} (h : Scanned Rx.re_hyphens pre s ps) (hs : Adj R s) :
    Adj R (ps.flatMap (Piece.out fun _ => ['-'])) ∧
    ∀ d, (ps.flatMap (Piece.out fun _ => ['-'])).head? = some d → s.head? = some d ∨ d = '-' := by
  induction h with
  | nil => exact ⟨trivial, by simp⟩
  | @ch pre c t ps hn _ ih =>
    rw [adj_cons] at hs
    obtain ⟨i1, i2⟩ := ih hs.2
    rw [List.flatMap_cons]
    refine ⟨?_, fun d h => .inl h⟩
    show Adj _ (c :: _)
    rw [adj_cons]
    refine ⟨fun d hdd => ?_, i1⟩
    rcases i2 d hdd with ht | rfl
    · exact hs.1 d ht
    · exact h1 c
  | @hit pre t ps m hm _ _ ih =>
    have : Adj R t := by
      rw [adj_iff] at hs ⊢
      intro a x y b e
      exact hs (m.txt ++ a) x y b (by rw [e]; simp)
    obtain ⟨i1, i2⟩ := ih this
    rw [List.flatMap_cons]
    refine ⟨?_, fun d h => .inr (by cases h; rfl)⟩
    show Adj _ ('-' :: _)
    rw [adj_cons]
    exact ⟨fun d _ => h2 d, i1⟩

theorem scanned_hyphens_head [UnicodeDB] {pre s : Str} {ps : List Piece} (h : Scanned Rx.re_hyphens pre s ps) {d : Char} {o : Str}
    (ho : ps.flatMap (Piece.out fun _ => ['-']) = d :: o) (hd : d ≠ '-') :
    ∃ t qs pre', s = d :: t ∧ Scanned Rx.re_hyphens pre' t qs ∧ qs.flatMap (Piece.out fun _ => ['-']) = o := by
  cases h with
  | nil => cases ho
  | @ch _ c t ps _ hs =>
    rw [List.flatMap_cons, Piece.out, List.cons_append, List.nil_append, List.cons.injEq] at ho
    exact ⟨t, ps, _, by rw [ho.1], hs, ho.2⟩
  | hit =>
    rw [List.flatMap_cons, Piece.out, List.cons_append, List.nil_append, List.cons.injEq] at ho
    exact absurd ho.1.symm hd

theorem scanned_noCode [UnicodeDB] {pre s : Str} {ps : List Piece} (h : Scanned Rx.re_hyphens pre s ps) :
    ∀ a b, ps.flatMap (Piece.out fun _ => ['-']) ≠ a ++ '\\' :: '2' :: '5' :: '5' :: b := by
  induction h with
  | nil => intro a b h; cases a <;> cases h
  | @ch pre c t ps hn hs ih =>
    intro a b h
    rw [List.flatMap_cons, Piece.out, List.cons_append, List.nil_append] at h
    cases a with
    | cons d a =>
      rw [List.cons_append, List.cons.injEq] at h
      exact ih a b h.2
    | nil =>
      rw [List.nil_append, List.cons.injEq] at h
      obtain ⟨t1, q1, p1, rfl, s1, o1⟩ := scanned_hyphens_head hs h.2 (by decide)
      obtain ⟨t2, q2, p2, rfl, s2, o2⟩ := scanned_hyphens_head s1 o1 (by decide)
      obtain ⟨t3, q3, p3, rfl, s3, o3⟩ := scanned_hyphens_head s2 o2 (by decide)
      rw [matchHere_none] at hn
      exact hn ⟨_, t3, by rw [h.1]; rfl, sem_hyphens.2 (.inl rfl)⟩
  | @hit pre t ps m _ _ _ ih =>
    intro a b h
    rw [List.flatMap_cons, Piece.out, List.cons_append, List.nil_append] at h
    cases a with
    | cons d a =>
      rw [List.cons_append, List.cons.injEq] at h
      exact ih a b h.2
    | nil =>
      rw [List.nil_append, List.cons.injEq] at h
      exact absurd h.1 (by decide)

/-- What the steps before the last one ensure. -/
def washRel (x y : Char) : Prop :=
  ((((((¬ (isSpace x = true ∧ isSpace y = true)) ∧ ¬ (isSpace x = true ∧ y = ',')) ∧ ¬ (isSpace x = true ∧ y = ';')) ∧
    ¬ (isSpace x = true ∧ y = '.')) ∧ ¬ (isSpace x = true ∧ y = ']')) ∧ ¬ (x = '[' ∧ isSpace y = true))

theorem sub_colon_id [UnicodeDB] {p : Char} {s : Str} (h : ':' ∉ s) :
    sub (Re.ch p ⬝ Re.space ⬝ Re.ch ':') (fun _ => [':']) s = s := by
  refine sub_id (by simp [Re.minLen, Re.space, Re.ch]) fun a b m e hm => ?_
  obtain ⟨u, v, hm, _, h2⟩ := hm
  obtain ⟨c, rfl, _⟩ := sem_before h2
  exact absurd (by rw [e, hm]; simp) h

theorem sub_before_id [UnicodeDB] {p : Char} {s : Str} (h : Adj (fun x y => ¬ (isSpace x = true ∧ y = p)) s) :
    sub (Re.space ⬝ Re.ch p) (fun _ => [p]) s = s := by
  refine sub_id (by simp [Re.minLen, Re.space, Re.ch]) fun a b m e hm => ?_
  obtain ⟨c, hm, hc⟩ := sem_before hm
  rw [adj_iff] at h
  exact absurd ⟨hc, rfl⟩ (h a c p b (by rw [e, hm]; simp))

theorem sub_after_id [UnicodeDB] {s : Str} (h : Adj (fun x y => ¬ (x = '[' ∧ isSpace y = true)) s) :
    sub Rx.re_opening_square_bracket_space (fun _ => ['[']) s = s := by
  refine sub_id (by decide) fun a b m e hm => ?_
  obtain ⟨u, v, hm, h3, h4⟩ := hm
  rw [sem_ch] at h3
  rw [sem_space1] at h4
  obtain ⟨w, rfl, hw⟩ := h4
  rw [adj_iff] at h
  exact absurd ⟨rfl, hw⟩ (h a '[' w b (by rw [e, hm, h3]; simp))

theorem sub_multi_id [UnicodeDB] {s : Str} (h : NoDoubleSpace s) : sub Rx.re_multiple_space (fun _ => [' ']) s = s := by
  refine sub_id multi_minLen fun a b m e hm => ?_
  rw [sem_multi] at hm
  match m, hm, e with
  | ⟨st, w :: v :: t, cs⟩, hm, e =>
    exact absurd ⟨a, w, v, t ++ b, by rw [e]; simp, hm.2 w (by simp), hm.2 v (by simp)⟩ h
  | ⟨st, [w], cs⟩, hm, e => exact absurd hm.1 (by simp)
  | ⟨st, [], cs⟩, hm, e => exact absurd hm.1 (by simp)

theorem sub_hyphens_id [UnicodeDB] {s : Str} (h : ∀ c ∈ s, c ∈ hyphens → c = '-')
    (hc : ∀ a b, s ≠ a ++ '\\' :: '2' :: '5' :: '5' :: b) : sub Rx.re_hyphens (fun _ => ['-']) s = s := by
  refine sub_id hyphens_minLen fun a b m e hm => ?_
  rw [sem_hyphens] at hm
  rcases hm with hm | ⟨x, hx, hm⟩
  · exact absurd (by rw [e, hm]; simp) (hc a b)
  · rw [hm, h x (by rw [e, hm]; simp) hx]

theorem adj_mono {R S : Char → Char → Prop} (h : ∀ x y, R x y → S x y) {s : Str} (hs : Adj R s) : Adj S s := by
  rw [adj_iff] at hs ⊢
  exact fun a x y b e => h x y (hs a x y b e)

theorem sub_notmem [UnicodeDB] {r : Re} {f : Match → Str} (hr : 0 < r.minLen) {s : Str} {c : Char} (h : c ∉ s)
    (hf : ∀ m, c ∉ f m) : c ∉ sub r f s := by
  intro hc
  rcases sub_mem hr hc with ⟨a, b, e, _⟩ | ⟨m, hm⟩
  · exact h (by rw [e]; simp)
  · exact hf m hm

theorem washLine_fixed [UnicodeDB] {t : Str} (hR : Adj washRel t) (hc : ':' ∉ t) (hh : ∀ c ∈ t, c ∈ hyphens → c = '-')
    (hcode : ∀ a b, t ≠ a ++ '\\' :: '2' :: '5' :: '5' :: b) : washLine t = t := by
  unfold washLine
  have b := fun {p} (h : ∀ x y, washRel x y → ¬ (isSpace x = true ∧ y = p)) => sub_before_id (adj_mono h hR)
  have e1 : sub Rx.re_space_comma (fun _ => [',']) t = t := b fun x y h => h.1.1.1.1.2
  have e2 : sub Rx.re_space_semicolon (fun _ => [';']) t = t := b fun x y h => h.1.1.1.2
  have e3 : sub Rx.re_space_period (fun _ => ['.']) t = t := b fun x y h => h.1.1.2
  have e4 : sub Rx.re_space_closing_square_bracket (fun _ => [']']) t = t := b fun x y h => h.1.2
  have e5 : sub Rx.re_colon_space_colon (fun _ => [':']) t = t := sub_colon_id hc
  have e6 : sub Rx.re_comma_space_colon (fun _ => [':']) t = t := sub_colon_id hc
  have e7 : sub Rx.re_opening_square_bracket_space (fun _ => ['[']) t = t := sub_after_id (adj_mono (fun x y h => h.2) hR)
  have e8 := sub_hyphens_id hh hcode
  have e9 : sub Rx.re_multiple_space (fun _ => [' ']) t = t :=
    sub_multi_id (noDouble_iff.2 (adj_mono (fun x y h => h.1.1.1.1.1) hR))
  dsimp only
  rw [e1, e2, e3, e5, e6, e4, e7, e8, e9]

theorem washLine_twice [UnicodeDB] {s : Str} (hd : NoDoubleSpace s) (hc : ':' ∉ s) : washLine (washLine s) = washLine s := by
  have nd : ∀ {R : Char → Char → Prop} {u : Str}, Adj R u → (∀ x y, R x y → ¬ (isSpace x = true ∧ isSpace y = true)) →
      NoDoubleSpace u := fun h hm => noDouble_iff.2 (adj_mono hm h)
  have a0 := noDouble_iff.1 hd
  have s0 : Solid (fun x y => ¬ (isSpace x = true ∧ isSpace y = true)) := fun x y hx _ h => by rw [hx] at h; cases h.1
  have sp : ∀ {R : Char → Char → Prop} {p}, Solid R → Solid (fun x y => R x y ∧ ¬ (isSpace x = true ∧ y = p)) :=
    fun hR x y hx hy => ⟨hR x y hx hy, fun h => by rw [hx] at h; cases h.1⟩
  have ml : ∀ p, 0 < (Re.space ⬝ Re.ch p).minLen := fun p => by simp [Re.minLen, Re.space, Re.ch]
  unfold washLine
  dsimp only
  have a1 := sub_before_adj (p := ',') (by decide) s0 hd a0
  have c1 : ':' ∉ sub (Re.space ⬝ Re.ch ',') (fun _ => [',']) s := sub_notmem (ml _) hc (fun _ => by decide)
  generalize hu1 : sub (Re.space ⬝ Re.ch ',') (fun _ => [',']) s = u1 at a1 c1
  rw [show sub Rx.re_space_comma (fun _ => [',']) s = u1 from hu1]
  have a2 := sub_before_adj (p := ';') (by decide) (sp s0) (nd a1 fun _ _ h => h.1) a1
  have c2 : ':' ∉ sub (Re.space ⬝ Re.ch ';') (fun _ => [';']) u1 := sub_notmem (ml _) c1 (fun _ => by decide)
  generalize hu2 : sub (Re.space ⬝ Re.ch ';') (fun _ => [';']) u1 = u2 at a2 c2
  rw [show sub Rx.re_space_semicolon (fun _ => [';']) u1 = u2 from hu2]
  have a3 := sub_before_adj (p := '.') (by decide) (sp (sp s0)) (nd a2 fun _ _ h => h.1.1) a2
  have c3 : ':' ∉ sub (Re.space ⬝ Re.ch '.') (fun _ => ['.']) u2 := sub_notmem (ml _) c2 (fun _ => by decide)
  generalize hu3 : sub (Re.space ⬝ Re.ch '.') (fun _ => ['.']) u2 = u3 at a3 c3
  rw [show sub Rx.re_space_period (fun _ => ['.']) u2 = u3 from hu3]
  rw [show sub Rx.re_colon_space_colon (fun _ => [':']) u3 = u3 from sub_colon_id c3]
  rw [show sub Rx.re_comma_space_colon (fun _ => [':']) u3 = u3 from sub_colon_id c3]
  have a4 := sub_before_adj (p := ']') (by decide) (sp (sp (sp s0))) (nd a3 fun _ _ h => h.1.1.1) a3
  have c4 : ':' ∉ sub (Re.space ⬝ Re.ch ']') (fun _ => [']']) u3 := sub_notmem (ml _) c3 (fun _ => by decide)
  generalize hu4 : sub (Re.space ⬝ Re.ch ']') (fun _ => [']']) u3 = u4 at a4 c4
  rw [show sub Rx.re_space_closing_square_bracket (fun _ => [']']) u3 = u4 from hu4]
  have a5 := sub_after_adj (sp (sp (sp (sp s0)))) (nd a4 fun _ _ h => h.1.1.1.1) a4
  have c5 : ':' ∉ sub Rx.re_opening_square_bracket_space (fun _ => ['[']) u4 :=
    sub_notmem (by decide) c4 (fun _ => by decide)
  generalize sub Rx.re_opening_square_bracket_space (fun _ => ['[']) u4 = u5 at a5 c5 ⊢
  have a6 : Adj washRel (sub Rx.re_hyphens (fun _ => ['-']) u5) :=
    (scanned_hyphens (R := washRel) (fun x => by simp [washRel, show isSpace '-' = false by decide])
      (fun y => by simp [washRel, show isSpace '-' = false by decide]) (scan_scanned' hyphens_minLen _) a5).1
  have c6 : ':' ∉ sub Rx.re_hyphens (fun _ => ['-']) u5 := sub_notmem hyphens_minLen c5 (fun _ => by decide)
  have hcode : ∀ a b, sub Rx.re_hyphens (fun _ => ['-']) u5 ≠ a ++ '\\' :: '2' :: '5' :: '5' :: b :=
    scanned_noCode (scan_scanned' hyphens_minLen u5)
  have hh : ∀ c ∈ sub Rx.re_hyphens (fun _ => ['-']) u5, c ∈ hyphens → c = '-' := fun c hc hh => sub_hyphens_mem hc hh
  generalize sub Rx.re_hyphens (fun _ => ['-']) u5 = u6 at a6 c6 hcode hh ⊢
  rw [sub_multi_id (nd a6 fun _ _ h => h.1.1.1.1.1)]
  exact washLine_fixed a6 c6 hh hcode

/-! ### Repairing URLs -/

theorem group1_txt [UnicodeDB] {a : Re} {pre post : Str} {m : Match} (h : matchHere (.group 1 a) false pre post = some m) :
    m.group 1 = some m.txt := by
  rw [matchHere, runK_group_eq, runK_eq] at h
  obtain ⟨t, _, ht⟩ := List.exists_of_findSome?_eq_some h
  simp only [Bool.false_and, Bool.false_eq_true, if_false, Option.some.injEq] at ht
  rw [← ht]
  simp [mkMatch, Match.group]

theorem group1_eos_txt [UnicodeDB] {a : Re} {pre post : Str} {m : Match}
    (h : matchHere (.group 1 a ⬝ .eos) false pre post = some m) : m.group 1 = some m.txt := by
  rw [matchHere, runK_seq_eq, runK_group_eq, runK_eq] at h
  obtain ⟨t, _, ht⟩ := List.exists_of_findSome?_eq_some h
  have ht := (runK_eos_some ht).2
  simp only [Bool.false_and, Bool.false_eq_true, if_false, Option.some.injEq] at ht
  rw [← ht]
  simp [mkMatch, Match.group]

theorem sub_filter [UnicodeDB] {r : Re} {f : Match → Str} (hr : 0 < r.minLen) (p : Char → Bool)
    (hf : ∀ pre post m, matchHere r false pre post = some m → (f m).filter p = m.txt.filter p) (s : Str) :
    (sub r f s).filter p = s.filter p := by
  have key : ∀ {pre s ps}, Scanned r pre s ps → (ps.flatMap (Piece.out f)).filter p = s.filter p := by
    intro pre s ps h
    induction h with
    | nil => rfl
    | ch _ _ ih => rw [List.flatMap_cons, List.filter_append, ih]; simp [Piece.out, List.filter_cons]; split <;> rfl
    | hit hm _ _ ih => rw [List.flatMap_cons, List.filter_append, ih, Piece.out, hf _ _ _ hm, List.filter_append]
  exact key (scan_scanned' hr s)

/-- A pattern whose first group is all it matches. -/
def wholeGroup : Re → Bool
  | .group 1 _ => true
  | .seq (.group 1 _) .eos => true
  | _ => false

theorem wholeGroup_txt [UnicodeDB] {r : Re} (hr : wholeGroup r = true) {pre post : Str} {m : Match}
    (h : matchHere r false pre post = some m) : m.group 1 = some m.txt := by
  unfold wholeGroup at hr
  split at hr
  · exact group1_txt h
  · exact group1_eos_txt h
  · cases hr

theorem urlPatterns_ok : ∀ r ∈ Rx.url_repair_patterns, wholeGroup r = true ∧ 0 < r.minLen := by
  have : (Rx.url_repair_patterns.all fun r => wholeGroup r && decide (0 < r.minLen)) = true := by decide +kernel
  intro r hr
  have := List.all_eq_true.1 this r hr
  simpa using this

theorem repairUrls_filter [UnicodeDB] (s : Str) : (repairUrls s).filter (· != ' ') = s.filter (· != ' ') := by
  have key : ∀ (rs : List Re) (s : Str), (∀ r ∈ rs, wholeGroup r = true ∧ 0 < r.minLen) →
      (rs.foldl (fun l r => sub r (fun m => ((m.group 1).getD []).filter (· != ' ')) l) s).filter (· != ' ')
        = s.filter (· != ' ') := by
    intro rs
    induction rs with
    | nil => intro s _; rfl
    | cons r rs ih =>
      intro s h
      rw [List.foldl_cons, ih _ fun q hq => h q (List.mem_cons_of_mem _ hq)]
      refine sub_filter (h r (by simp)).2 _ (fun pre post m hm => ?_) s
      rw [wholeGroup_txt (h r (by simp)).1 hm]
      simp
  exact key _ s urlPatterns_ok

theorem sub_sublist [UnicodeDB] {r : Re} {f : Match → Str} (hr : 0 < r.minLen)
    (hf : ∀ pre post m, matchHere r false pre post = some m → (f m).Sublist m.txt) (s : Str) : (sub r f s).Sublist s := by
  have key : ∀ {pre s ps}, Scanned r pre s ps → (ps.flatMap (Piece.out f)).Sublist s := by
    intro pre s ps h
    induction h with
    | nil => exact List.Sublist.refl _
    | @ch _ c _ _ _ _ ih => exact ih.cons_cons c
    | hit hm _ _ ih => rw [List.flatMap_cons, Piece.out]; exact (hf _ _ _ hm).append ih
  exact key (scan_scanned' hr s)

theorem repairUrls_sublist [UnicodeDB] (s : Str) : (repairUrls s).Sublist s := by
  have key : ∀ (rs : List Re) (s : Str), (∀ r ∈ rs, wholeGroup r = true ∧ 0 < r.minLen) →
      (rs.foldl (fun l r => sub r (fun m => ((m.group 1).getD []).filter (· != ' ')) l) s).Sublist s := by
    intro rs
    induction rs with
    | nil => intro s _; exact List.Sublist.refl _
    | cons r rs ih =>
      intro s h
      rw [List.foldl_cons]
      refine (ih _ fun q hq => h q (List.mem_cons_of_mem _ hq)).trans ?_
      refine sub_sublist (h r (by simp)).2 (fun pre post m hm => ?_) s
      rw [wholeGroup_txt (h r (by simp)).1 hm]
      exact List.filter_sublist
  exact key _ s urlPatterns_ok

end Py
