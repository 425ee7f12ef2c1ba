import Verif.Model.Tag
import Verif.Spec.Tag
import Verif.Lemmas.Caps
import Verif.Lemmas.Post
import Verif.Lemmas.Recognise
import Verif.Lemmas.Rebuild2

/-!
# Lemmas about tagging
-/

open Spec

namespace Py

/-! ### Replacing matches in place -/

/-- Replacing matches from the last to the first is the same as `sub`. -/
theorem splice_back [UnicodeDB] {r : Re} (f : Match → Str) {pre s : Str} {ps : List Piece}
    (h : Scanned r pre s ps) (p : Str) (hp : p.length = pre.length) :
    (ps.filterMap Piece.match?).reverse.foldl (fun l m => splice l m.start (f m) m.stop) (p ++ s) =
      p ++ ps.flatMap (Piece.out f) := by
  induction h generalizing p with
  | nil pre => simp
  | @ch pre c t ps _ _ ih =>
    have := ih (p ++ [c]) (by simp [hp])
    rw [List.filterMap_cons]
    simpa [Piece.match?, Piece.out] using this
  | @hit pre t ps m hm hne _ ih =>
    have hs : m.start = p.length := by rw [(matchHere_ok hm).1.start, hp]
    have := ih (p ++ m.txt) (by simp [hp]; omega)
    rw [List.append_assoc] at this
    rw [List.filterMap_cons]
    simp only [Piece.match?, List.reverse_cons, List.foldl_append, List.foldl_cons, List.foldl_nil, this]
    simp only [splice, Match.stop, hs]
    simp [Piece.out]

/-- Replacing matches from the first to the last by texts of the same length is the same as `sub`. -/
theorem splice_forward [UnicodeDB] {r : Re} (step : Str → Match → Str) (f : Match → Str)
    {pre s : Str} {ps : List Piece} (h : Scanned r pre s ps)
    (hf : ∀ m, Piece.hit m ∈ ps → (f m).length = m.txt.length ∧
      ∀ p q, p.length = m.start → step (p ++ (m.txt ++ q)) m = p ++ (f m ++ q))
    (p : Str) (hp : p.length = pre.length) :
    (ps.filterMap Piece.match?).foldl step (p ++ s) = p ++ ps.flatMap (Piece.out f) := by
  induction h generalizing p with
  | nil pre => simp
  | @ch pre c t ps _ _ ih =>
    have := ih (fun m hm => hf m (by simp [hm])) (p ++ [c]) (by simp [hp])
    rw [List.filterMap_cons]
    simpa [Piece.match?, Piece.out] using this
  | @hit pre t ps m hm hne _ ih =>
    have hs : m.start = p.length := by rw [(matchHere_ok hm).1.start, hp]
    obtain ⟨h1, h2⟩ := hf m (by simp)
    have := ih (fun m hm => hf m (by simp [hm])) (p ++ f m) (by simp [hp, h1]; omega)
    rw [List.filterMap_cons]
    simp only [Piece.match?, List.foldl_cons, h2 p t hs.symm]
    rw [← List.append_assoc, this]
    simp [Piece.out]

theorem splice_here (p w q x : Str) : splice (p ++ (w ++ q)) p.length x (p.length + w.length) = p ++ (x ++ q) := by
  simp [splice]

/-! ### Simple patterns -/

theorem sem_set [UnicodeDB] {k : CSet} {pre w post : Str} : Sem (.set k) pre w post ↔ ∃ c, w = [c] ∧ k.mem c = true := Iff.rfl

theorem sem_opt [UnicodeDB] {a : Re} {pre w post : Str} : Sem (Re.opt a) pre w post ↔ Sem a pre w post ∨ w = [] := Iff.rfl

theorem chI_mem [UnicodeDB] {c d : Char} : CSet.mem ⟨false, true, [.ch d]⟩ c = true ↔ d ∈ caseVariants c := by
  simp [CSet.mem, CItem.mem]

theorem sem_chI [UnicodeDB] {d : Char} {pre w post : Str} :
    Sem (Re.chI d) pre w post ↔ ∃ c, w = [c] ∧ d ∈ caseVariants c := by
  rw [Re.chI, sem_set]; simp only [chI_mem]

theorem sem_strI [UnicodeDB] : ∀ {x pre w post : Str}, Sem (Re.strI x) pre w post ↔ All2 (fun c d => d ∈ caseVariants c) w x
  | [], pre, w, post => by
    simp only [Re.strI, Sem]
    constructor
    · rintro rfl; exact .nil
    · intro h; cases h; rfl
  | [c], pre, w, post => by
    simp only [Re.strI, sem_chI]
    constructor
    · rintro ⟨d, rfl, h⟩; exact .cons h .nil
    · intro h; cases h with
      | cons h t => cases t; exact ⟨_, rfl, h⟩
  | c :: d :: r, pre, w, post => by
    simp only [Re.strI, Sem]
    constructor
    · rintro ⟨u, v, rfl, h1, h2⟩
      obtain ⟨e, rfl, h⟩ := sem_chI.1 h1
      exact .cons h (sem_strI.1 h2)
    · intro h; cases h with
      | cons h t => exact ⟨[_], _, rfl, sem_chI.2 ⟨_, rfl, h⟩, sem_strI.2 t⟩

theorem swapCase_swapCase : ∀ n < 128, swapCase (swapCase (Char.ofNat n)) = Char.ofNat n := by decide +kernel

/-- An ASCII character that is not one of `IiKkSs` is only identified with its two cases. -/
theorem caseVariants_ascii [U : UnicodeDB] {c d : Char} (hd : isAscii d = true) (hl : d ∉ ['I', 'i', 'K', 'k', 'S', 's'])
    (h : d ∈ caseVariants c) : c = d ∨ c = swapCase d := by
  unfold caseVariants at h
  split at h
  · simp only [List.mem_cons, List.not_mem_nil, or_false] at h
    rcases h with h | h
    · exact .inl h.symm
    · refine .inr ?_
      have := swapCase_swapCase c.toNat (by simpa [isAscii] using ‹isAscii c = true›)
      rw [Char.ofNat_toNat] at this
      rw [h, this]
  · simp only [List.mem_cons] at h
    rcases h with h | h
    · exact .inl h.symm
    · exact absurd (U.variants_ascii _ _ h hd) hl

/-- Only itself is identified with an ASCII character that is not a letter. -/
theorem caseVariants_plain [U : UnicodeDB] {c d : Char} (hd : isAscii d = true) (hl : (isAsciiUpper d || isAsciiLower d) = false)
    (h : d ∈ caseVariants c) : c = d := by
  rcases caseVariants_ascii hd (by
    intro hm
    simp only [List.mem_cons, List.not_mem_nil, or_false] at hm
    rcases hm with rfl | rfl | rfl | rfl | rfl | rfl <;> exact absurd hl (by decide)) h with h | h
  · exact h
  · rw [h]
    simp only [Bool.or_eq_false_iff] at hl
    simp [swapCase, hl]

theorem sem_times_set [UnicodeDB] {k : CSet} : ∀ {n : Nat} {pre w post : Str},
    Sem (Re.times n (.set k)) pre w post ↔ w.length = n ∧ ∀ c ∈ w, k.mem c = true
  | 0, pre, w, post => by
    simp only [Re.times, Sem]
    constructor
    · rintro rfl; simp
    · rintro ⟨h, -⟩; exact List.length_eq_zero_iff.1 h
  | 1, pre, w, post => by
    simp only [Re.times, Sem]
    constructor
    · rintro ⟨c, rfl, h⟩; simp [h]
    · rintro ⟨h, h'⟩
      obtain ⟨c, rfl⟩ := List.length_eq_one_iff.1 h
      exact ⟨c, rfl, h' c (by simp)⟩
  | n + 2, pre, w, post => by
    simp only [Re.times]
    constructor
    · rintro ⟨u, v, rfl, ⟨c, rfl, h⟩, h2⟩
      obtain ⟨h3, h4⟩ := sem_times_set.1 h2
      refine ⟨by simp [h3], fun d hd => ?_⟩
      simp only [List.singleton_append, List.mem_cons] at hd
      rcases hd with rfl | hd
      · exact h
      · exact h4 d hd
    · rintro ⟨h, h'⟩
      match w, h with
      | c :: w, h =>
        exact ⟨[c], w, rfl, ⟨c, rfl, h' c (by simp)⟩, sem_times_set.2 ⟨by simpa using h, fun d hd => h' d (by simp [hd])⟩⟩

theorem sem_upTo_set [UnicodeDB] {k : CSet} : ∀ {n : Nat} {pre w post : Str},
    Sem (Re.upTo n (.set k)) pre w post ↔ w.length ≤ n ∧ ∀ c ∈ w, k.mem c = true
  | 0, pre, w, post => by
    simp only [Re.upTo, Sem]
    constructor
    · rintro rfl; simp
    · rintro ⟨h, -⟩; exact List.length_eq_zero_iff.1 (by omega)
  | n + 1, pre, w, post => by
    simp only [Re.upTo]
    constructor
    · rintro (⟨u, v, rfl, ⟨c, rfl, h⟩, h2⟩ | h)
      · obtain ⟨h3, h4⟩ := sem_upTo_set.1 h2
        refine ⟨by simp [h3], fun d hd => ?_⟩
        simp only [List.singleton_append, List.mem_cons] at hd
        rcases hd with rfl | hd
        · exact h
        · exact h4 d hd
      · cases h; simp
    · rintro ⟨h, h'⟩
      match w, h with
      | [], h => exact .inr rfl
      | c :: w, h =>
        exact .inl ⟨[c], w, rfl, ⟨c, rfl, h' c (by simp)⟩, sem_upTo_set.2 ⟨by simpa using h, fun d hd => h' d (by simp [hd])⟩⟩

theorem sem_rep_set [UnicodeDB] {k : CSet} {m n : Nat} (hmn : m ≤ n) {pre w post : Str} :
    Sem (Re.rep m n (.set k)) pre w post ↔ m ≤ w.length ∧ w.length ≤ n ∧ ∀ c ∈ w, k.mem c = true := by
  constructor
  · rintro ⟨u, v, rfl, h1, h2⟩
    obtain ⟨h3, h4⟩ := sem_times_set.1 h1
    obtain ⟨h5, h6⟩ := sem_upTo_set.1 h2
    refine ⟨by simp; omega, by simp; omega, fun c hc => ?_⟩
    rcases List.mem_append.1 hc with hc | hc
    · exact h4 c hc
    · exact h6 c hc
  · rintro ⟨h1, h2, h3⟩
    refine ⟨w.take m, w.drop m, (List.take_append_drop m w).symm, sem_times_set.2 ⟨by simp; omega, fun c hc => h3 c (List.mem_of_mem_take hc)⟩,
      sem_upTo_set.2 ⟨by simp; omega, fun c hc => h3 c (List.mem_of_mem_drop hc)⟩⟩

theorem sem_plus_set [UnicodeDB] {k : CSet} {pre w post : Str} :
    Sem (Re.plus (.set k)) pre w post ↔ w ≠ [] ∧ ∀ c ∈ w, k.mem c = true := by
  constructor
  · rintro ⟨u, v, rfl, ⟨c, rfl, h⟩, h2⟩
    refine ⟨by simp, fun d hd => ?_⟩
    simp only [List.singleton_append, List.mem_cons] at hd
    rcases hd with rfl | hd
    · exact h
    · exact sem_star_set.1 h2 d hd
  · rintro ⟨h, h'⟩
    match w, h with
    | c :: w, h => exact ⟨[c], w, rfl, ⟨c, rfl, h' c (by simp)⟩, sem_star_set.2 fun d hd => h' d (by simp [hd])⟩

/-- Iteration of an expression that looks at nothing around it. -/
theorem sem_star_free [UnicodeDB] {g : Bool} {a : Re} {P : Str → Prop} (ha : ∀ pre w post, Sem a pre w post ↔ P w)
    (hn : ∀ w, P w → w ≠ []) {pre w post : Str} :
    Sem (.star g a) pre w post ↔ ∃ ws : List Str, w = ws.flatten ∧ ∀ x ∈ ws, P x := by
  simp only [Sem]
  refine exists_congr fun ws => and_congr_right fun hw => ?_
  clear hw
  induction ws generalizing pre with
  | nil => simp [Chain]
  | cons x xs ih =>
    simp only [Chain, ih, List.forall_mem_cons, ha]
    exact ⟨fun h => ⟨h.2.1, h.2.2⟩, fun h => ⟨hn x h.1, h.1, h.2⟩⟩

/-! ### DOIs -/

theorem foldsTo_plain [UnicodeDB] {x w : Str} (hw : ∀ d ∈ w, isAscii d = true ∧ (isAsciiUpper d || isAsciiLower d) = false)
    (h : FoldsTo x w) : x = w := by
  induction h with
  | nil => rfl
  | cons h _ ih =>
    rw [caseVariants_plain (hw _ (by simp)).1 (hw _ (by simp)).2 h, ih fun d hd => hw d (by simp [hd])]

theorem foldsTo_self [UnicodeDB] (x : Str) : FoldsTo x x := by
  induction x with
  | nil => exact .nil
  | cons c x ih => exact .cons (by unfold caseVariants; split <;> simp) ih

theorem foldsTo_append [UnicodeDB] {x y v w : Str} (h : FoldsTo x v) (h' : FoldsTo y w) : FoldsTo (x ++ y) (v ++ w) := by
  induction h with
  | nil => exact h'
  | cons h _ ih => exact .cons h ih

theorem foldsTo_split [UnicodeDB] {x v w : Str} (h : FoldsTo x (v ++ w)) : ∃ y z, x = y ++ z ∧ FoldsTo y v ∧ FoldsTo z w := by
  induction v generalizing x with
  | nil => exact ⟨[], x, rfl, .nil, h⟩
  | cons c v ih =>
    cases h with
    | cons h1 h2 =>
      obtain ⟨y, z, rfl, hy, hz⟩ := ih h2
      exact ⟨_ :: y, z, rfl, .cons h1 hy, hz⟩

theorem folds_2f [UnicodeDB] {x : Str} : FoldsTo x (py! "%2f") ↔ (x = py! "%2f" ∨ x = py! "%2F") := by
  constructor
  · intro h
    obtain ⟨y, z, rfl, hy, hz⟩ := foldsTo_split (v := py! "%2") (w := ['f']) h
    rw [foldsTo_plain (by decide) hy]
    cases hz with
    | cons h' t =>
      cases t
      rcases caseVariants_ascii (d := 'f') (by decide) (by decide) h' with rfl | rfl
      · exact .inl rfl
      · exact .inr rfl
  · rintro (rfl | rfl)
    · exact foldsTo_self _
    · exact foldsTo_append (x := py! "%2") (y := ['F']) (w := ['f']) (foldsTo_self _) (.cons (.tail _ (.head _)) .nil)

/-- The part of the pattern that is the identifier. -/
def doiBody : Re := (Re.strI (py! "10.")) ⬝ (Re.rep 3 7 (Re.digit)) ⬝ (.star true ((Re.ch '.') ⬝ (Re.plus (Re.word)))) ⬝ (Re.alts [Re.ch '/', Re.strI (py! "%2f")]) ⬝ (Re.plus (.set ⟨false, false, [.word, .ch '-', .ch '_', .ch ':', .ch ';', .ch '(', .ch ')', .ch '/', .ch '.', .ch '<', .ch '>']⟩)) ⬝ (.set ⟨false, false, [.word, .ch '-', .ch '_', .ch ':', .ch ';', .ch '(', .ch ')', .ch '/', .ch '<', .ch '>']⟩)

/-- The part of the pattern in front of the identifier. -/
def doiLead : Re := Re.opt (Re.alts [(Re.opt (Re.ch '(')) ⬝ (.set ⟨false, true, [.ch 'D', .ch 'd']⟩) ⬝ (.set ⟨false, true, [.ch 'O', .ch 'o']⟩) ⬝ (.set ⟨false, true, [.ch 'I', .ch 'i']⟩) ⬝ (.star true (Re.space)) ⬝ (Re.opt (Re.ch ')')) ⬝ (Re.opt (Re.ch ':')) ⬝ (.star true (Re.space)), (Re.strI (py! "http")) ⬝ (Re.opt (Re.chI 's')) ⬝ (Re.strI (py! "://")) ⬝ (Re.opt (Re.strI (py! "dx."))) ⬝ (Re.strI (py! "doi.org/"))])

theorem re_doi_eq : Rx.re_doi = doiLead ⬝ .group G.doi doiBody := rfl

theorem sem_doiBody [UnicodeDB] {pre w post : Str} : Sem doiBody pre w post ↔ ∃ d, DoiText w d := by
  have hpart : ∀ pre w post, Sem ((Re.ch '.') ⬝ (Re.plus (Re.word))) pre w post ↔ ∃ p, w = '.' :: p ∧ p ≠ [] ∧ ∀ c ∈ p, isWord c = true := by
    intro pre w post
    constructor
    · rintro ⟨u, v, rfl, h1, h2⟩
      rw [sem_ch] at h1; subst h1
      exact ⟨v, rfl, by simpa [Re.word, sem_plus_set, CSet.mem, CItem.mem] using h2⟩
    · rintro ⟨p, rfl, h1, h2⟩
      exact ⟨['.'], p, rfl, sem_ch.2 rfl, sem_plus_set.2 ⟨h1, by simpa [CSet.mem, CItem.mem] using h2⟩⟩
  have hparts : ∀ pre w post, Sem (.star true ((Re.ch '.') ⬝ (Re.plus (Re.word)))) pre w post ↔
      ∃ ps : List Str, w = ps.flatMap ('.' :: ·) ∧ ∀ p ∈ ps, p ≠ [] ∧ ∀ c ∈ p, isWord c = true := by
    intro pre w post
    rw [sem_star_free hpart (by rintro w ⟨p, rfl, -⟩; simp)]
    constructor
    · rintro ⟨ws, rfl, h⟩
      refine ⟨ws.map List.tail, ?_, ?_⟩
      · induction ws with
        | nil => rfl
        | cons x ws ih =>
          obtain ⟨p, rfl, -⟩ := h x (by simp)
          rw [List.map_cons, List.flatMap_cons, List.flatten_cons, ih fun y hy => h y (by simp [hy])]; rfl
      · simp only [List.mem_map]
        rintro _ ⟨x, hx, rfl⟩
        obtain ⟨p, rfl, h'⟩ := h x hx
        exact h'
    · rintro ⟨ps, rfl, h⟩
      refine ⟨ps.map ('.' :: ·), by simp [List.flatMap], ?_⟩
      simp only [List.mem_map]
      rintro _ ⟨x, hx, rfl⟩
      exact ⟨x, rfl, h x hx⟩
  have hin : ∀ c, CSet.mem ⟨false, false, [.word, .ch '-', .ch '_', .ch ':', .ch ';', .ch '(', .ch ')', .ch '/', .ch '.', .ch '<', .ch '>']⟩ c = true ↔
      (isWord c = true ∨ c ∈ py! "-_:;()/.<>") := by
    intro c; simp [CSet.mem, CItem.mem]
  have hlast : ∀ c, CSet.mem ⟨false, false, [.word, .ch '-', .ch '_', .ch ':', .ch ';', .ch '(', .ch ')', .ch '/', .ch '<', .ch '>']⟩ c = true ↔
      ((isWord c = true ∨ c ∈ py! "-_:;()/.<>") ∧ c ≠ '.') := by
    intro c
    by_cases hc : c = '.'
    · subst hc
      have : isWord '.' = false := by rfl
      simp [CSet.mem, CItem.mem, this]
    · simp [CSet.mem, CItem.mem, hc]
  constructor
  · rintro ⟨a, w, rfl, h1, ds, w, rfl, h2, sub, w, rfl, h3, sl, w, rfl, h4, t, l, rfl, h5, h6⟩
    have ha : a = py! "10." := foldsTo_plain (by decide) (sem_strI.1 h1)
    obtain ⟨d1, d2, d3⟩ := (sem_rep_set (by omega)).1 h2
    obtain ⟨ps, rfl, hps⟩ := (hparts _ _ _).1 h3
    obtain ⟨t1, t2⟩ := sem_plus_set.1 h5
    obtain ⟨c, rfl, hc⟩ := h6
    refine ⟨_, ds, ps, sl, t ++ [c], by simp [ha], d1, d2, by simpa [CSet.mem, CItem.mem] using d3, hps, ?_, ?_, ?_, ?_, rfl⟩
    · rcases h4 with h4 | h4
      · exact .inl (sem_ch.1 h4)
      · exact .inr (folds_2f.1 (sem_strI.1 h4))
    · have := List.length_pos_iff.2 t1; simp; omega
    · intro d hd
      simp only [List.mem_append, List.mem_singleton] at hd
      rcases hd with hd | rfl
      · exact (hin d).1 (t2 d hd)
      · exact ((hlast d).1 hc).1
    · simpa using ((hlast c).1 hc).2
  · rintro ⟨_, ds, ps, sl, t, rfl, d1, d2, d3, hps, hsl, t1, t2, t3, rfl⟩
    obtain ⟨t, c, rfl⟩ : ∃ t' c, t = t' ++ [c] := by
      exact ⟨t.dropLast, t.getLast (by rintro rfl; simp at t1), (List.dropLast_concat_getLast _).symm⟩
    simp only [List.getLast?_concat, ne_eq, Option.some.injEq] at t3
    simp only [List.append_assoc]
    refine ⟨_, _, rfl, sem_strI.2 (foldsTo_self _), _, _, rfl, (sem_rep_set (by omega)).2 ⟨d1, d2, by simpa [CSet.mem, CItem.mem] using d3⟩,
      _, _, rfl, (hparts _ _ _).2 ⟨ps, rfl, hps⟩, sl, _, rfl, ?_, t, [c], rfl, sem_plus_set.2 ⟨?_, fun d hd => (hin d).2 (t2 d (by simp [hd]))⟩,
      ⟨c, rfl, (hlast c).2 ⟨t2 c (by simp), t3⟩⟩⟩
    · rcases hsl with rfl | h
      · exact .inl (sem_ch.2 rfl)
      · exact .inr (sem_strI.2 (folds_2f.2 h))
    · rintro rfl; simp at t1

theorem either_mem [UnicodeDB] {c x y : Char} :
    CSet.mem ⟨false, true, [.ch x, .ch y]⟩ c = true ↔ ∃ z ∈ [x, y], z ∈ caseVariants c := by
  simp only [CSet.mem, CItem.mem, if_true, List.any_cons, List.any_nil, List.any_eq_true, Bool.or_false, Bool.or_eq_true, beq_iff_eq,
    Bool.false_eq_true, if_false, List.mem_cons, List.not_mem_nil, or_false, exists_eq_or_imp, exists_eq_left]
  constructor
  · rintro ⟨z, hz, rfl | rfl⟩
    · exact .inl hz
    · exact .inr hz
  · rintro (h | h)
    · exact ⟨_, h, .inl rfl⟩
    · exact ⟨_, h, .inr rfl⟩

theorem sem_optCh [UnicodeDB] {c : Char} {pre w post : Str} : Sem (Re.opt (Re.ch c)) pre w post ↔ (w = [] ∨ w = [c]) := by
  rw [sem_opt, sem_ch, or_comm]

theorem sem_doiLead [UnicodeDB] {pre w post : Str} : Sem doiLead pre w post ↔ (w = [] ∨ DoiWord w ∨ DoiUrl w) := by
  have h1 : ∀ pre w post, Sem ((Re.opt (Re.ch '(')) ⬝ (.set ⟨false, true, [.ch 'D', .ch 'd']⟩) ⬝ (.set ⟨false, true, [.ch 'O', .ch 'o']⟩) ⬝ (.set ⟨false, true, [.ch 'I', .ch 'i']⟩) ⬝ (.star true (Re.space)) ⬝ (Re.opt (Re.ch ')')) ⬝ (Re.opt (Re.ch ':')) ⬝ (.star true (Re.space))) pre w post ↔ DoiWord w := by
    intro pre w post
    constructor
    · rintro ⟨o, w, rfl, h1, _, w, rfl, ⟨a, rfl, ha⟩, _, w, rfl, ⟨b, rfl, hb⟩, _, w, rfl, ⟨c, rfl, hc⟩, s1, w, rfl, h2, p, w, rfl, h3, k, s2, rfl, h4, h5⟩
      obtain ⟨x, hx, ha⟩ := either_mem.1 ha
      obtain ⟨y, hy, hb⟩ := either_mem.1 hb
      obtain ⟨z, hz, hc⟩ := either_mem.1 hc
      exact ⟨o, [a, b, c], s1, p, k, s2, by simp, sem_optCh.1 h1, ⟨x, y, z, .cons ha (.cons hb (.cons hc .nil)), hx, hy, hz⟩,
        sem_spaces.1 h2, sem_optCh.1 h3, sem_optCh.1 h4, sem_spaces.1 h5⟩
    · rintro ⟨o, d, s1, p, k, s2, rfl, ho, ⟨x, y, z, hd, hx, hy, hz⟩, hs1, hp, hk, hs2⟩
      cases hd with
      | cons ha hd => cases hd with
        | cons hb hd => cases hd with
          | cons hc hd => cases hd with
            | nil =>
              simp only [List.append_assoc]
              exact ⟨o, _, rfl, sem_optCh.2 ho, [_], _, rfl, ⟨_, rfl, either_mem.2 ⟨x, hx, ha⟩⟩, [_], _, rfl, ⟨_, rfl, either_mem.2 ⟨y, hy, hb⟩⟩,
                [_], _, rfl, ⟨_, rfl, either_mem.2 ⟨z, hz, hc⟩⟩, s1, _, rfl, sem_spaces.2 hs1, p, _, rfl, sem_optCh.2 hp, k, _, rfl, sem_optCh.2 hk,
                sem_spaces.2 hs2⟩
  have h2 : ∀ pre w post, Sem ((Re.strI (py! "http")) ⬝ (Re.opt (Re.chI 's')) ⬝ (Re.strI (py! "://")) ⬝ (Re.opt (Re.strI (py! "dx."))) ⬝ (Re.strI (py! "doi.org/"))) pre w post ↔ DoiUrl w := by
    intro pre w post
    constructor
    · rintro ⟨a, w, rfl, h1, b, w, rfl, h2, c, w, rfl, h3, d, e, rfl, h4, h5⟩
      replace h1 : FoldsTo _ _ := sem_strI.1 h1
      replace h3 : FoldsTo _ _ := sem_strI.1 h3
      replace h5 : FoldsTo _ _ := sem_strI.1 h5
      replace h2 : FoldsTo b ['s'] ∨ b = [] := by
        rcases h2 with h2 | h2
        · obtain ⟨x, rfl, h⟩ := sem_chI.1 h2
          exact .inl (.cons h .nil)
        · exact .inr h2
      replace h4 : FoldsTo d (py! "dx.") ∨ d = [] := by
        rcases h4 with h4 | h4
        · exact .inl (sem_strI.1 h4)
        · exact .inr h4
      rcases h2 with h2 | rfl <;> rcases h4 with h4 | rfl
      · exact ⟨_, by simp, foldsTo_append h1 (foldsTo_append h2 (foldsTo_append h3 (foldsTo_append h4 h5)))⟩
      · exact ⟨_, by simp, foldsTo_append h1 (foldsTo_append h2 (foldsTo_append h3 h5))⟩
      · exact ⟨_, by simp, foldsTo_append h1 (foldsTo_append (.nil : FoldsTo [] []) (foldsTo_append h3 (foldsTo_append h4 h5)))⟩
      · exact ⟨_, by simp, foldsTo_append h1 (foldsTo_append (.nil : FoldsTo [] []) (foldsTo_append h3 h5))⟩
    · have one : ∀ {x}, FoldsTo x ['s'] → Sem (Re.opt (Re.chI 's')) pre x post := by
        intro x h
        cases h with
        | cons h t => cases t; exact .inl (sem_chI.2 ⟨_, rfl, h⟩)
      rintro ⟨y, hy, h⟩
      simp only [List.mem_cons, List.not_mem_nil, or_false] at hy
      rcases hy with rfl | rfl | rfl | rfl
      · obtain ⟨a, z, rfl, h1, h⟩ := foldsTo_split (v := py! "http") (w := py! "://doi.org/") h
        obtain ⟨b, z, rfl, h2, h⟩ := foldsTo_split (v := py! "://") (w := py! "doi.org/") h
        exact ⟨a, _, rfl, sem_strI.2 h1, [], _, rfl, .inr rfl, b, _, rfl, sem_strI.2 h2, [], _, rfl, .inr rfl, sem_strI.2 h⟩
      · obtain ⟨a, z, rfl, h1, h⟩ := foldsTo_split (v := py! "http") (w := py! "s://doi.org/") h
        obtain ⟨s, z, rfl, h3, h⟩ := foldsTo_split (v := py! "s") (w := py! "://doi.org/") h
        obtain ⟨b, z, rfl, h2, h⟩ := foldsTo_split (v := py! "://") (w := py! "doi.org/") h
        exact ⟨a, _, rfl, sem_strI.2 h1, s, _, rfl, one h3, b, _, rfl, sem_strI.2 h2, [], _, rfl, .inr rfl, sem_strI.2 h⟩
      · obtain ⟨a, z, rfl, h1, h⟩ := foldsTo_split (v := py! "http") (w := py! "://dx.doi.org/") h
        obtain ⟨b, z, rfl, h2, h⟩ := foldsTo_split (v := py! "://") (w := py! "dx.doi.org/") h
        obtain ⟨d, z, rfl, h4, h⟩ := foldsTo_split (v := py! "dx.") (w := py! "doi.org/") h
        exact ⟨a, _, rfl, sem_strI.2 h1, [], _, rfl, .inr rfl, b, _, rfl, sem_strI.2 h2, d, _, rfl, .inl (sem_strI.2 h4), sem_strI.2 h⟩
      · obtain ⟨a, z, rfl, h1, h⟩ := foldsTo_split (v := py! "http") (w := py! "s://dx.doi.org/") h
        obtain ⟨s, z, rfl, h3, h⟩ := foldsTo_split (v := py! "s") (w := py! "://dx.doi.org/") h
        obtain ⟨b, z, rfl, h2, h⟩ := foldsTo_split (v := py! "://") (w := py! "dx.doi.org/") h
        obtain ⟨d, z, rfl, h4, h⟩ := foldsTo_split (v := py! "dx.") (w := py! "doi.org/") h
        exact ⟨a, _, rfl, sem_strI.2 h1, s, _, rfl, one h3, b, _, rfl, sem_strI.2 h2, d, _, rfl, .inl (sem_strI.2 h4), sem_strI.2 h⟩
  unfold doiLead
  rw [sem_opt]
  simp only [Re.alts]
  constructor
  · rintro ((h | h) | h)
    · exact .inr (.inl ((h1 _ _ _).1 h))
    · exact .inr (.inr ((h2 _ _ _).1 h))
    · exact .inl h
  · rintro (h | h | h)
    · exact .inr h
    · exact .inl (.inl ((h1 _ _ _).2 h))
    · exact .inl (.inr ((h2 _ _ _).2 h))

theorem sem_doi [UnicodeDB] {pre w post : Str} : Sem Rx.re_doi pre w post ↔ ∃ d, CitesDoi w d := by
  rw [re_doi_eq]
  constructor
  · rintro ⟨u, v, rfl, h1, h2⟩
    obtain ⟨d, hd⟩ := sem_doiBody.1 h2
    exact ⟨d, u, v, rfl, sem_doiLead.1 h1, hd⟩
  · rintro ⟨d, lead, raw, rfl, h1, h2⟩
    exact ⟨lead, raw, rfl, sem_doiLead.2 h1, sem_doiBody.2 ⟨d, h2⟩⟩

theorem doi_minLen : 0 < Rx.re_doi.minLen := by decide

/-- What is reported for an identifier. -/
def doiOf [UnicodeDB] (lib : Lib) (m : Match) : Str :=
  if contains (lower (m.tgroup G.doi)) (py! "%2f") then lib.unquote (m.tgroup G.doi) else m.tgroup G.doi

theorem percent_word [UnicodeDB] : isWord '%' = false := rfl
theorem percent_dec [UnicodeDB] : isDec '%' = false := rfl

theorem percent_flatMap [UnicodeDB] {ps : List Str} (h : ∀ p ∈ ps, p ≠ [] ∧ ∀ c ∈ p, isWord c = true) :
    '%' ∉ ps.flatMap ('.' :: ·) := by
  simp only [List.mem_flatMap, not_exists, not_and]
  intro p hp hm
  simp only [List.mem_cons] at hm
  rcases hm with hm | hm
  · exact absurd hm (by decide)
  · exact absurd ((h p hp).2 _ hm) (by rw [percent_word]; decide)

/-- A match of the pattern and what is reported for it. -/
theorem match_doi [UnicodeDB] {lib : Lib} (hu : Decodes lib.unquote) {adv : Bool} {pre post : Str} {m : Match}
    (h : matchHere Rx.re_doi adv pre post = some m) : CitesDoi m.txt (doiOf lib m) := by
  obtain ⟨t, ht, h1, h2, -, h3⟩ := matchHere_cap h
  rw [re_doi_eq, run_seq] at ht
  obtain ⟨u, hu', ht⟩ := ht
  obtain ⟨lead, hl⟩ := run_step hu'
  obtain ⟨raw, v, -, hv, hp, hq, hc, -⟩ := run_group ht
  obtain ⟨d, hd⟩ := sem_doiBody.1 hv.sem
  have hg : m.tgroup G.doi = raw := by rw [Match.tgroup, h3, hc]; rfl
  have hw : m.txt = lead ++ raw := by
    have := hl.post
    rw [hv.post, h1, hq, ← List.append_assoc] at this
    exact List.append_cancel_right this
  refine ⟨lead, raw, hw, sem_doiLead.1 hl.sem, ?_⟩
  obtain ⟨ds, ps, sl, t, rfl, d1, d2, d3, hps, hsl, t1, t2, t3, rfl⟩ := hd
  refine ⟨ds, ps, sl, t, rfl, d1, d2, d3, hps, hsl, t1, t2, t3, ?_⟩
  have p1 : '%' ∉ py! "10." ++ ds ++ ps.flatMap ('.' :: ·) := by
    simp only [List.mem_append, not_or]
    exact ⟨⟨by decide, fun hm => absurd (d3 _ hm) (by rw [percent_dec]; decide)⟩, percent_flatMap hps⟩
  have p2 : '%' ∉ t := by
    intro hm
    rcases t2 _ hm with h | h
    · exact absurd h (by rw [percent_word]; decide)
    · exact absurd h (by decide)
  rw [doiOf, hg]
  rcases hsl with rfl | hsl
  · split
    · refine hu.plain _ ?_
      simp only [List.mem_append, not_or] at p1 ⊢
      exact ⟨⟨p1, by decide⟩, p2⟩
    · rfl
  · rw [if_pos, hu.slash _ _ _ p1 p2 hsl]
    rw [contains_iff]
    refine ⟨lower (py! "10." ++ ds ++ ps.flatMap ('.' :: ·)), lower t, ?_⟩
    simp only [lower, List.flatMap_append]
    rcases hsl with rfl | rfl <;> rfl

theorem tagDois_eq [UnicodeDB] (lib : Lib) (line : Str) :
    tagDois lib line = (sub Rx.re_doi (fun _ => py! "<cds.DOI />") line, (finditer Rx.re_doi line).map (doiOf lib)) := by
  have key : ∀ (ms : List Match) (l : Str) (ds : List Str), ms.foldl (doiStep lib) (l, ds) =
      (ms.foldl (fun l m => splice l m.start (py! "<cds.DOI />") m.stop) l, ds ++ ms.map (doiOf lib)) := by
    intro ms
    induction ms with
    | nil => intro l ds; simp
    | cons m ms ih => intro l ds; rw [List.foldl_cons, doiStep, ih]; simp [doiOf]
  have := splice_back (fun _ => py! "<cds.DOI />") (scan_scanned' doi_minLen line) [] rfl
  rw [List.nil_append] at this
  simp only [tagDois, key]
  rw [finditer, this]
  simp [sub]

theorem tagged_dois [UnicodeDB] {lib : Lib} (hu : Decodes lib.unquote) {pre line : Str} {ps : List Piece}
    (h : Scanned Rx.re_doi pre line ps) :
    ∃ ws, Tagged (fun w => ∃ d, CitesDoi w d) (py! "<cds.DOI />") line (ps.flatMap (Piece.out fun _ => py! "<cds.DOI />")) ws ∧
      All2 CitesDoi ws ((ps.filterMap Piece.match?).map (doiOf lib)) := by
  induction h with
  | nil => exact ⟨[], .nil, .nil⟩
  | @ch pre c t ps hn _ ih =>
    obtain ⟨ws, h1, h2⟩ := ih
    refine ⟨ws, .ch ?_ h1, by rw [List.filterMap_cons]; exact h2⟩
    rintro ⟨w, r, hw, hP⟩
    exact (matchHere_none _ _ _).1 hn ⟨w, r, hw, sem_doi.2 hP⟩
  | @hit pre t ps m hm _ _ ih =>
    obtain ⟨ws, h1, h2⟩ := ih
    have hc := match_doi hu hm
    refine ⟨m.txt :: ws, .hit ⟨_, hc⟩ h1, by rw [List.filterMap_cons]; exact .cons hc h2⟩

theorem tagged_restore {P : Str → Prop} {tag s t : Str} {ws : List Str} (h : Tagged P tag s t ws) :
    ∃ gaps : List Str, gaps.length = ws.length + 1 ∧ s = interleave gaps ws ∧ t = interleave gaps (ws.map fun _ => tag) := by
  induction h with
  | nil => exact ⟨[[]], rfl, rfl, rfl⟩
  | @ch c s t ws _ _ ih =>
    obtain ⟨gaps, h1, h2, h3⟩ := ih
    match gaps, h1 with
    | g :: gs, h1 => exact ⟨(c :: g) :: gs, h1, by cases ws <;> simp [interleave, h2], by cases ws <;> simp [interleave, h3]⟩
  | @hit w s t ws _ _ ih =>
    obtain ⟨gaps, h1, h2, h3⟩ := ih
    exact ⟨[] :: gaps, by simp [h1], by simp [interleave, h2], by simp [interleave, h3]⟩

end Py
