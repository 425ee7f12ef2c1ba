import Verif.Spec.KbFile
import Verif.Model.KbFile
import Verif.Lemmas.Document
import Verif.Lemmas.Collab
import Verif.Lemmas.Rebuild2
import Verif.Lemmas.PdfKeys
import Verif.Lemmas.Ident5

/-!
# Helper lemmas: the rows of a knowledge base file
-/

namespace Py
open Spec
open scoped List

variable [UnicodeDB]

/-! ### A greedy word in a group -/

omit [UnicodeDB] in
theorem flatMap_head_split {α β : Type} {f : α → List β} {b : β} : ∀ {l : List α}, (l.flatMap f).head? = some b →
    ∃ l1 a l2, l = l1 ++ a :: l2 ∧ (∀ x ∈ l1, f x = []) ∧ (f a).head? = some b
  | [], h => by simp at h
  | a :: l, h => by
    rw [List.flatMap_cons, List.head?_append] at h
    cases hf : f a with
    | nil =>
      rw [hf] at h
      obtain ⟨l1, x, l2, e, h1, h2⟩ := flatMap_head_split (l := l) (by simpa using h)
      refine ⟨a :: l1, x, l2, by rw [e]; rfl, ?_, h2⟩
      intro y hy
      rcases List.mem_cons.1 hy with rfl | hy
      · exact hf
      · exact h1 y hy
    | cons y ys => exact ⟨[], a, l, rfl, by simp, by rw [hf]; rw [hf] at h; simpa using h⟩

theorem greedy_mem {k : CSet} {caps : List Cap} {f : Str} : ∀ (e pre : Str), (∀ c ∈ e, k.mem c = true) →
    (⟨e.reverse ++ pre, f, caps⟩ : St) ∈ greedySt k caps pre (e ++ f) := by
  intro e
  induction e with
  | nil =>
    intro pre _
    cases f with
    | nil => simp [greedySt]
    | cons x f => simp only [List.reverse_nil, List.nil_append, greedySt]; split <;> simp
  | cons x e ihe =>
    intro pre hx
    simp only [List.cons_append, greedySt, hx x (by simp), if_true]
    refine List.mem_append_left _ ?_
    have := ihe (x :: pre) fun c hc => hx c (by simp [hc])
    simpa using this

/-- Longer readings come first. -/
theorem greedy_before {k : CSet} {caps : List Cap} : ∀ (post pre : Str) (l1 l2 : List St) (u : St), greedySt k caps pre post = l1 ++ u :: l2 →
    ∀ e f, u.post = e ++ f → e ≠ [] → (∀ c ∈ e, k.mem c = true) → (⟨e.reverse ++ u.pre, f, caps⟩ : St) ∈ l1 := by
  intro post
  induction post with
  | nil =>
    intro pre l1 l2 u h e f he hne _
    simp only [greedySt] at h
    cases l1 with
    | nil =>
      simp only [List.nil_append, List.cons.injEq] at h
      obtain ⟨rfl, -⟩ := h
      cases e with
      | nil => exact absurd rfl hne
      | cons c e => simp at he
    | cons a l1 => simp at h
  | cons c r ih =>
    intro pre l1 l2 u h e f he hne hk
    simp only [greedySt] at h
    split at h
    · rcases List.eq_nil_or_concat l2 with rfl | ⟨l2, z, rfl⟩
      · have := List.append_inj' h rfl
        obtain ⟨h1, h2⟩ := this
        simp only [List.cons.injEq, and_true] at h2
        subst h2
        rw [← h1]
        cases e with
        | nil => exact absurd rfl hne
        | cons d e =>
          simp only [List.cons_append, List.cons.injEq] at he
          obtain ⟨rfl, rfl⟩ := he
          have := greedy_mem (k := k) (caps := caps) (f := f) e (c :: pre) fun x hx => hk x (by simp [hx])
          simpa using this
      · have h' : greedySt k caps (c :: pre) r ++ [⟨pre, c :: r, caps⟩] = (l1 ++ u :: l2) ++ [z] := by rw [h]; simp
        exact ih _ _ _ _ (List.append_inj' h' rfl).1 e f he hne hk
    · cases l1 with
      | nil =>
        simp only [List.nil_append, List.cons.injEq] at h
        obtain ⟨rfl, -⟩ := h
        cases e with
        | nil => exact absurd rfl hne
        | cons d e =>
          simp only [List.cons_append, List.cons.injEq] at he
          rename_i hc
          rw [he.1] at hc
          exact absurd (hk d (by simp)) hc
      | cons a l1 => simp at h

/-- A character and then as many as possible, taken into a group. -/
theorem first_word_seq {g : Nat} {k1 k2 : CSet} {b : Re} {s t : St} (h : First (.group g (.set k1 ⬝ .star true (.set k2)) ⬝ b) s t) :
    ∃ c w v, s.post = c :: w ++ v.post ∧ k1.mem c = true ∧ (∀ d ∈ w, k2.mem d = true) ∧ v.cap g = some (c :: w) ∧ (∀ j, j ≠ g → v.cap j = s.cap j) ∧
      First b v t ∧ ∀ e f, v.post = e ++ f → e ≠ [] → (∀ d ∈ e, k2.mem d = true) → ¬ ∃ x y, f = x ++ y ∧ Sem b (e.reverse ++ v.pre) x y := by
  have h0 : ((run (.group g (.set k1 ⬝ .star true (.set k2))) s).flatMap (run b)).head? = some t := h
  obtain ⟨l1, v, l2, e, hl, hb⟩ := flatMap_head_split h0
  have hv : v ∈ run (.group g (.set k1 ⬝ .star true (.set k2))) s := by rw [e]; simp
  obtain ⟨w, hw⟩ := run_step hv
  obtain ⟨a, d, rfl, ⟨c, rfl, hc⟩, hd⟩ := hw.sem
  have hd' := sem_star_set.1 hd
  have hpost := hw.post
  have e1 : run (.set k1 ⬝ .star true (.set k2)) s = greedySt k2 s.caps (c :: s.pre) (d ++ v.post) := by
    have : run (.set k1) s = [⟨c :: s.pre, d ++ v.post, s.caps⟩] := by
      simp only [run, hpost, List.cons_append, List.nil_append, hc, if_true]
    have h2 : run (.set k1 ⬝ .star true (.set k2)) s = (run (.set k1) s).flatMap (run (.star true (.set k2))) := rfl
    rw [h2, this]
    simp only [List.flatMap_cons, List.flatMap_nil, List.append_nil]
    rw [run_star_set]
  have e2 : run (.group g (.set k1 ⬝ .star true (.set k2))) s = (run (.set k1 ⬝ .star true (.set k2)) s).map fun t =>
      ⟨t.pre, t.post, ⟨g, s.pre.length, (t.pre.take (t.pre.length - s.pre.length)).reverse⟩ :: t.caps⟩ := rfl
  rw [e2, e1] at e
  obtain ⟨m1, m2, e3, e4, e5⟩ := List.map_eq_append_iff.1 e
  obtain ⟨u, m3, rfl, e6, e7⟩ := List.map_eq_cons_iff.1 e5
  have hpre := hw.pre
  refine ⟨c, d, v, hpost, hc, hd', ?_, fun j hj => hw.cap j (by simp [Re.groups, hj]), hb, ?_⟩
  · obtain ⟨w', x, -, hx, h1, h2, h3, -⟩ := run_group hv
    rw [h3]
    have := hx.post
    rw [hw.post, h2] at this
    exact congrArg some (List.append_cancel_right this).symm
  · intro x y he hne hk hs
    have hu : u.post = v.post ∧ u.pre = v.pre := by rw [← e6]; exact ⟨rfl, rfl⟩
    have hm := greedy_before _ _ _ _ _ e3 x y (by rw [hu.1, he]) hne hk
    have hm' := hl _ (by rw [← e4]; exact List.mem_map_of_mem hm)
    refine run_nil hm' ?_
    rw [hu.2]
    exact hs

/-! ### One row -/

/-- What follows the search term in the pattern. -/
abbrev kbTailRe : Re := (.star true (Re.space)) ⬝ (.str (py! "---")) ⬝ (.star true (Re.space)) ⬝
  (.group G.repl ((.set ⟨true, false, [.space]⟩) ⬝ (.star true (Re.any)))) ⬝ (.star true (Re.space)) ⬝ .eos

theorem notSpace_mem (c : Char) : (⟨true, false, [.space]⟩ : CSet).mem c = true ↔ isSpace c = false := by
  simp [CSet.mem, CItem.mem]

/-- What the rest of the pattern matches. -/
theorem sem_kbTail {pre g r nl : Str} (hg : Spaces g) (hr : r ≠ []) (hr' : NoSpaceFirst r) (hl : '\n' ∉ r) (hn : nl = [] ∨ nl = ['\n']) :
    Sem kbTailRe pre (py! "---" ++ g ++ r) nl := by
  cases r with
  | nil => exact absurd rfl hr
  | cons c r =>
    refine ⟨[], py! "---" ++ g ++ c :: r, rfl, sem_spaces.2 (by intro c hc; cases hc), py! "---", g ++ c :: r, by simp, rfl, g, c :: r, rfl, sem_spaces.2 hg,
      c :: r, [], by simp, ⟨[c], r, rfl, ⟨c, rfl, (notSpace_mem c).2 (hr' c rfl)⟩, sem_star_set.2 fun d hd => (any_mem d).2 fun e => hl (by rw [← e]; simp [hd])⟩,
      [], [], rfl, sem_spaces.2 (by intro c hc; cases hc), rfl, hn⟩

theorem split_first {y : Str} (h : ¬ Spaces y) : ∃ g r, y = g ++ r ∧ Spaces g ∧ r ≠ [] ∧ NoSpaceFirst r := by
  induction y with
  | nil => exact absurd (fun c hc => by cases hc) h
  | cons c y ih =>
    cases hc : isSpace c with
    | false => exact ⟨[], c :: y, rfl, (fun c hc => by cases hc), by simp, (fun d hd => by cases hd; exact hc)⟩
    | true =>
      obtain ⟨g, r, rfl, h1, h2, h3⟩ := ih fun h' => h fun d hd => by
        rcases List.mem_cons.1 hd with rfl | hd
        · exact hc
        · exact h' d hd
      refine ⟨c :: g, r, rfl, fun d hd => ?_, h2, h3⟩
      rcases List.mem_cons.1 hd with rfl | hd
      · exact hc
      · exact h1 d hd

/-- A line feed is the last character. -/
theorem line_inside {l nl a z : Str} (hl : '\n' ∉ l) (hn : nl = [] ∨ nl = ['\n']) (e : l ++ nl = a ++ z) (hz : z ≠ []) : '\n' ∉ a := by
  intro hm
  rcases hn with rfl | rfl
  · rw [List.append_nil] at e
    exact hl (by rw [e]; simp [hm])
  · rcases List.eq_nil_or_concat z with rfl | ⟨z', c, rfl⟩
    · exact hz rfl
    · rw [List.concat_eq_append, ← List.append_assoc] at e
      have := (List.append_inj' e rfl).1
      exact hl (by rw [this]; simp [hm])

/-- At the end of a line. -/
theorem line_end {l nl a z : Str} (hl : '\n' ∉ l) (hn : nl = [] ∨ nl = ['\n']) (e : l ++ nl = a ++ z) (hne : ∀ x ∈ a, x ≠ '\n') : ∃ z', l = a ++ z' ∧ z = z' ++ nl := by
  rcases List.append_eq_append_iff.1 e with ⟨a', h1, h2⟩ | ⟨c', h1, h2⟩
  · have ha : a' = [] := by
      rcases hn with rfl | rfl
      · have := congrArg List.length h2
        simp at this
        exact List.eq_nil_of_length_eq_zero (by omega)
      · cases a' with
        | nil => rfl
        | cons x a' =>
          simp only [List.cons_append, List.cons.injEq] at h2
          exact absurd h2.1.symm (hne x (by rw [h1]; simp))
    subst ha
    exact ⟨[], by simpa using h1.symm, by simpa using h2.symm⟩
  · exact ⟨c', h1, h2⟩

theorem kbLine_row {l nl : Str} (hl : '\n' ∉ l) (hn : nl = [] ∨ nl = ['\n']) {p : Str × Str} (h : kbLine (l ++ nl) = some p) : KbRow l p := by
  unfold kbLine Rx.re_kb_line at h
  rw [search_bos, Option.map_eq_some_iff] at h
  obtain ⟨m, hm, rfl⟩ := h
  obtain ⟨t, ht, e0, -, hg⟩ := matchHere_first hm
  obtain ⟨s1, w1, k1, ht⟩ := first_seq ht
  obtain ⟨rfl, -⟩ := k1.sem
  obtain ⟨s2, sp, k2, ht⟩ := first_seq ht
  have hsp : Spaces sp := sem_spaces.1 k2.sem
  obtain ⟨c, w, s3, e3, hc, hw, c3, o3, ht, hlong⟩ := first_word_seq ht
  obtain ⟨s4, sp2, k4, ht⟩ := first_seq ht
  have hsp2 : Spaces sp2 := sem_spaces.1 k4.sem
  obtain ⟨s5, w5, k5, ht⟩ := first_seq ht
  have e5 : w5 = py! "---" := k5.sem
  subst e5
  obtain ⟨s6, g, k6, ht⟩ := first_seq ht
  have hgs : Spaces g := sem_spaces.1 k6.sem
  obtain ⟨d, x, s7, e7, hd, hx, c7, o7, ht, hlong2⟩ := first_word_seq ht
  obtain ⟨s8, w8, k8, ht⟩ := first_seq ht
  obtain ⟨w9, k9⟩ := ht.step
  obtain ⟨rfl, h9⟩ := k9.sem
  have gseek : m.tgroup G.seek = c :: w := by
    have : m.group G.seek = some (c :: w) := by
      rw [hg, k9.cap _ (by decide), k8.cap _ (by decide), o7 _ (by decide), k6.cap _ (by decide), k5.cap _ (by decide), k4.cap _ (by decide), c3]
    simp [Match.tgroup, this]
  have grepl : m.tgroup G.repl = d :: x := by
    have : m.group G.repl = some (d :: x) := by
      rw [hg, k9.cap _ (by decide), k8.cap _ (by decide), c7]
    simp [Match.tgroup, this]
  rw [gseek, grepl]
  have whole : l ++ nl = sp ++ (c :: w) ++ sp2 ++ py! "---" ++ g ++ (d :: x) ++ s7.post := by
    have h1 := k2.post
    rw [e3, k4.post, k5.post, k6.post, e7] at h1
    have h0 := k1.post
    simp only [List.nil_append] at h0
    rw [h0, h1]
    simp
  have hdn : ∀ y ∈ d :: x, y ≠ '\n' := by
    intro y hy
    rcases List.mem_cons.1 hy with rfl | hy
    · rintro rfl; exact absurd ((notSpace_mem _).1 hd) (by decide)
    · exact (any_mem y).1 (hx y hy)
  have hA : '\n' ∉ sp ++ (c :: w) ++ sp2 ++ py! "---" ++ g := line_inside hl hn (by rw [whole, List.append_assoc]) (by simp)
  obtain ⟨z, hz, hz2⟩ := line_end hl hn whole fun y hy => by
    rcases List.mem_append.1 hy with hy | hy
    · rintro rfl; exact hA hy
    · exact hdn y hy
  have hz0 : z = [] := by
    cases z with
    | nil => rfl
    | cons y z =>
      refine absurd ⟨[], nl, rfl, [], [], rfl, sem_spaces.2 (fun c hc => by cases hc), rfl, hn⟩ (hlong2 (y :: z) nl hz2 (by simp) fun d hd => (any_mem d).2 ?_)
      rintro rfl
      exact hl (by rw [hz]; simp only [List.mem_append]; exact .inr hd)
  subst hz0
  rw [List.append_nil] at hz
  have hpost : s3.post = sp2 ++ (py! "---" ++ g ++ (d :: x)) ++ nl := by
    rw [k4.post, k5.post, k6.post, e7, hz2]
    simp
  have htail : ∀ e g' r', sp2 ++ (py! "---" ++ g ++ (d :: x)) = e ++ (py! "---" ++ g' ++ r') → e ≠ [] → Spaces g' → r' ≠ [] → NoSpaceFirst r' → False := by
    intro e g' r' he hne hg' hr' hf'
    have hin : ∀ y ∈ e ++ (py! "---" ++ g' ++ r'), y ≠ '\n' := by
      rintro y hy rfl
      rw [← he] at hy
      refine hl (by rw [hz]; simp only [List.mem_append] at hy ⊢; rcases hy with h | (h | h) | h <;> simp [h])
    refine hlong e (py! "---" ++ g' ++ r' ++ nl) (by rw [hpost, he]; simp) hne (fun y hy => (any_mem y).2 (hin y (by simp only [List.mem_append]; exact .inl hy)))
      ⟨py! "---" ++ g' ++ r', nl, rfl, sem_kbTail hg' hr' hf' (fun hm => hin _ (by simp only [List.mem_append]; exact .inr (.inr hm)) rfl) hn⟩
  have hsp20 : sp2 = [] := by
    cases sp2 with
    | nil => rfl
    | cons y sp2 => exact (htail (y :: sp2) g (d :: x) rfl (by simp) hgs (by simp) fun y hy => by cases hy; exact (notSpace_mem _).1 hd).elim
  subst hsp20
  refine ⟨sp, g, by rw [hz]; simp, hsp, hgs, by simp, (fun y hy => by cases hy; exact (notSpace_mem _).1 hc), by simp, (fun y hy => by cases hy; exact (notSpace_mem _).1 hd), ?_⟩
  intro x1 y he hne
  refine Classical.byContradiction fun hy => ?_
  obtain ⟨g', r', rfl, h1, h2, h3⟩ := split_first hy
  exact htail x1 g' r' (by rw [List.nil_append, he]; simp) hne h1 h2 h3

omit [UnicodeDB] in
theorem noSpace_append {s t : Str} (h : NoSpaceFirst s) (hs : s ≠ []) : NotFirst (fun c => isSpace c = true) (s ++ t) := by
  intro c hc
  cases s with
  | nil => exact absurd rfl hs
  | cons d s => cases hc; simp [h c rfl]

omit [UnicodeDB] in
theorem kbRow_longer {s s' g g' r r' : Str} (e : s ++ (py! "---" ++ g ++ r) = s' ++ (py! "---" ++ g' ++ r')) (hr' : r' ≠ []) (hf' : NoSpaceFirst r')
    (h : ∀ x y, py! "---" ++ g ++ r = x ++ py! "---" ++ y → x ≠ [] → Spaces y) (hl : s.length ≤ s'.length) : s = s' := by
  rcases List.append_eq_append_iff.1 e with ⟨a, h1, h2⟩ | ⟨c, h1, h2⟩
  · cases a with
    | nil => simpa using h1.symm
    | cons x a =>
      have := h (x :: a) (g' ++ r') (by rw [h2]; simp) (by simp)
      cases r' with
      | nil => exact absurd rfl hr'
      | cons y r' =>
        have h3 := this y (by simp)
        rw [hf' y rfl] at h3
        cases h3
  · have := congrArg List.length h1
    simp at this
    have : c = [] := List.eq_nil_of_length_eq_zero (by omega)
    subst this
    simpa using h1

omit [UnicodeDB] in
/-- A line is a row in one way. -/
theorem kbRow_unique {l : Str} {p q : Str × Str} (hp : KbRow l p) (hq : KbRow l q) : p = q := by
  obtain ⟨sp, g, e, h1, h2, h3, h4, h5, h6, h7⟩ := hp
  obtain ⟨sp', g', e', h1', h2', h3', h4', h5', h6', h7'⟩ := hq
  obtain ⟨s, r⟩ := p
  obtain ⟨s', r'⟩ := q
  dsimp only at *
  have e0 : sp ++ (s ++ (py! "---" ++ g ++ r)) = sp' ++ (s' ++ (py! "---" ++ g' ++ r')) := by
    rw [e] at e'
    simpa using e'
  have e1 := (span_unique (p := fun c => isSpace c = true) e0 h1 h1' (noSpace_append h4 h3) (noSpace_append h4' h3')).2
  have hs : s = s' := by
    rcases Nat.le_total s.length s'.length with hl | hl
    · exact kbRow_longer e1 h5' h6' h7 hl
    · exact (kbRow_longer e1.symm h5 h6 h7' hl).symm
  subst hs
  have e2 := List.append_cancel_left e1
  rw [List.append_assoc, List.append_assoc] at e2
  have e3 := (span_unique (p := fun c => isSpace c = true) (List.append_cancel_left e2) h2 h2' (by simpa using noSpace_append (t := []) h6 h5) (by simpa using noSpace_append (t := []) h6' h5')).2
  rw [e3]

theorem kbLine_iff {l nl : Str} (hl : '\n' ∉ l) (hn : nl = [] ∨ nl = ['\n']) {p : Str × Str} : kbLine (l ++ nl) = some p ↔ KbRow l p := by
  refine ⟨kbLine_row hl hn, fun h => ?_⟩
  have hs : ∃ q, kbLine (l ++ nl) = some q := by
    obtain ⟨sp, g, e, h1, h2, h3, h4, h5, h6, -⟩ := h
    unfold kbLine Rx.re_kb_line
    rw [search_bos]
    have : ∃ m, reMatch (.bos ⬝ (.star true (Re.space)) ⬝ (.group G.seek ((.set ⟨true, false, [.space]⟩) ⬝ (.star true (Re.any)))) ⬝ kbTailRe) (l ++ nl) = some m := by
      unfold reMatch
      rw [matchHere_isSome]
      obtain ⟨s, r⟩ := p
      cases s with
      | nil => exact absurd rfl h3
      | cons c s =>
        refine ⟨l, nl, rfl, [], l, rfl, ⟨rfl, rfl⟩, sp, (c :: s) ++ (py! "---" ++ g ++ r), by rw [e]; simp, sem_spaces.2 h1, c :: s, py! "---" ++ g ++ r, rfl,
          ⟨[c], s, rfl, ⟨c, rfl, (notSpace_mem c).2 (h4 c rfl)⟩, sem_star_set.2 fun y hy => (any_mem y).2 ?_⟩,
          sem_kbTail h2 h5 h6 (fun hm => hl (by rw [e]; simp only [List.mem_append]; exact .inr hm)) hn⟩
        rintro rfl
        exact hl (by rw [e]; simp [hy])
    obtain ⟨m, hm⟩ := this
    exact ⟨_, by rw [hm]; rfl⟩
  obtain ⟨q, hq⟩ := hs
  rw [hq, kbRow_unique h (kbLine_row hl hn hq)]

/-! ### The lines of a file -/

omit [UnicodeDB] in
theorem newlines_end {nl t : Str} (h : nl ∈ lineEnds) (h' : nl = ['\r'] → t.head? ≠ some '\n') : newlines (nl ++ t) = '\n' :: newlines t := by
  simp only [lineEnds, List.mem_cons, List.not_mem_nil, or_false] at h
  rcases h with rfl | rfl | rfl
  · show newlines ('\n' :: t) = _
    rw [newlines, if_neg (by decide)]
  · show newlines ('\r' :: '\n' :: t) = _
    rw [newlines, if_pos rfl, List.head?_cons, if_pos rfl, newlines, if_neg (by decide)]
  · show newlines ('\r' :: t) = _
    rw [newlines, if_pos rfl, if_neg (h' rfl)]

omit [UnicodeDB] in
theorem readLines_last {b : Str} (h : '\n' ∉ b) (hb : b ≠ []) : readLines b = [b] := by
  induction b with
  | nil => exact absurd rfl hb
  | cons c b ih =>
    simp only [List.mem_cons, not_or] at h
    rw [readLines, if_neg fun e => h.1 e.symm]
    cases b with
    | nil => rfl
    | cons d b => rw [ih h.2 (by simp)]

omit [UnicodeDB] in
/-- Each line comes with a line feed, the last perhaps without. -/
theorem fileLines_of {t : Str} {ls : List Str} (h : FileLines t ls) :
    (∀ l ∈ ls, OneLine l) ∧ All2 (fun l r => ∃ nl, (nl = [] ∨ nl = ['\n']) ∧ r = l ++ nl) ls (fileLines t) := by
  induction h with
  | nil => exact ⟨by simp, .nil⟩
  | @last b h1 h2 =>
    refine ⟨by simpa using h1, ?_⟩
    have : newlines b = b := by simpa [newlines] using newlines_line (s := []) h1.2
    rw [fileLines, this, readLines_last h1.1 h2]
    exact .cons ⟨[], .inl rfl, by simp⟩ .nil
  | @cons b nl t ls h1 h2 h3 _ ih =>
    refine ⟨fun l hl => ?_, ?_⟩
    · rcases List.mem_cons.1 hl with rfl | hl
      · exact h1
      · exact ih.1 l hl
    · rw [fileLines, List.append_assoc, newlines_line h1.2, newlines_end h2 h3, readLines_line h1.1]
      exact .cons ⟨['\n'], .inr rfl, rfl⟩ ih.2

omit [UnicodeDB] in
/-- Every text has lines. -/
theorem fileLines_total (t : Str) : ∃ ls, FileLines t ls := by
  generalize hn : t.length = n
  induction n using Nat.strongRecOn generalizing t with
  | _ n ih =>
    have key : ∀ (u b : Str), OneLine b → t = b ++ u → ∃ ls, FileLines t ls := by
      intro u
      induction u with
      | nil =>
        intro b hb e
        rw [List.append_nil] at e
        subst e
        cases t with
        | nil => exact ⟨_, .nil⟩
        | cons c t => exact ⟨_, .last hb (by simp)⟩
      | cons c u ihu =>
        intro b hb e
        by_cases h1 : c = '\n'
        · subst h1
          obtain ⟨ls, hls⟩ := ih u.length (by rw [← hn, e]; simp; omega) u rfl
          exact ⟨_, by rw [e]; simpa using FileLines.cons (nl := ['\n']) hb (by decide) (by simp) hls⟩
        · by_cases h2 : c = '\r'
          · subst h2
            by_cases h3 : u.head? = some '\n'
            · cases u with
              | nil => cases h3
              | cons d u =>
                cases h3
                obtain ⟨ls, hls⟩ := ih u.length (by rw [← hn, e]; simp; omega) u rfl
                exact ⟨_, by rw [e]; simpa using FileLines.cons (nl := ['\r', '\n']) hb (by decide) (by simp) hls⟩
            · obtain ⟨ls, hls⟩ := ih u.length (by rw [← hn, e]; simp; omega) u rfl
              exact ⟨_, by rw [e]; simpa using FileLines.cons (nl := ['\r']) hb (by decide) (fun _ => h3) hls⟩
          · refine ihu (b ++ [c]) ⟨fun hm => ?_, fun hm => ?_⟩ (by simp [e])
            · rcases List.mem_append.1 hm with hm | hm
              · exact hb.1 hm
              · exact h1 (List.mem_singleton.1 hm).symm
            · rcases List.mem_append.1 hm with hm | hm
              · exact hb.2 hm
              · exact h2 (List.mem_singleton.1 hm).symm
    exact key t [] ⟨by simp, by simp⟩ rfl

omit [UnicodeDB] in
theorem comment_iff {l nl : Str} (hn : nl = [] ∨ nl = ['\n']) : startsWith (l ++ nl) ['#'] = decide (l.head? = some '#') := by
  cases l with
  | nil => rcases hn with rfl | rfl <;> rfl
  | cons c l =>
    by_cases h : c = '#'
    · simp [startsWith, List.isPrefixOf, h]
    · simp [startsWith, List.isPrefixOf, h, Ne.symm h]

omit [UnicodeDB] in
theorem rstrip_feed {l nl : Str} (hl : '\n' ∉ l) (hn : nl = [] ∨ nl = ['\n']) : rstripP (inSet ['\n']) (l ++ nl) = l := by
  have h0 : rstripP (inSet ['\n']) l = l := by
    unfold rstripP
    have : l.reverse.dropWhile (inSet ['\n']) = l.reverse := by
      cases hr : l.reverse with
      | nil => rfl
      | cons c r =>
        have hc : c ≠ '\n' := by
          rintro rfl
          exact hl (List.mem_reverse.1 (by rw [hr]; simp))
        rw [List.dropWhile_cons, if_neg (by simpa [inSet] using hc)]
    rw [this, List.reverse_reverse]
  rcases hn with rfl | rfl
  · rw [List.append_nil, h0]
  · unfold rstripP at *
    simpa [inSet] using h0

theorem kbLine_bare {l : Str} (hl : '\n' ∉ l) {p : Str × Str} : kbLine l = some p ↔ KbRow l p := by
  have := kbLine_iff (nl := []) hl (.inl rfl) (p := p)
  rwa [List.append_nil] at this

/-- The rows of the file, or an error. -/
theorem kbPairs_lines {ls raws : List Str} (h1 : ∀ l ∈ ls, OneLine l) (h2 : All2 (fun l r => ∃ nl, (nl = [] ∨ nl = ['\n']) ∧ r = l ++ nl) ls raws) :
    (∀ ps, kbPairs raws = .ok ps ↔ All2 KbRow (DataLines ls) ps) ∧
    ∀ e, kbPairs raws = .error e ↔ e = .valueError ∧ ∃ l ∈ DataLines ls, ¬ ∃ p, KbRow l p := by
  induction h2 with
  | nil =>
    refine ⟨fun ps => ⟨fun h => ?_, fun h => ?_⟩, fun e => ⟨fun h => ?_, fun h => ?_⟩⟩
    · cases h; exact .nil
    · cases h; rfl
    · cases h
    · obtain ⟨-, l, hl, -⟩ := h; cases hl
  | @cons l r ls raws hr _ ih =>
    obtain ⟨nl, hn, rfl⟩ := hr
    obtain ⟨i1, i2⟩ := ih fun x hx => h1 x (by simp [hx])
    have hl := h1 l (by simp)
    unfold kbPairs
    rw [comment_iff hn, rstrip_feed hl.1 hn]
    by_cases hc : l.head? = some '#'
    · have e : DataLines (l :: ls) = DataLines ls := by simp [DataLines, hc]
      simp only [hc, decide_true, if_true, e]
      exact ⟨i1, i2⟩
    · have e : DataLines (l :: ls) = l :: DataLines ls := by simp [DataLines, hc]
      simp only [hc, decide_false, Bool.false_eq_true, if_false, e]
      cases hk : kbLine l with
      | none =>
        have hno : ¬ ∃ p, KbRow l p := fun ⟨p, hp⟩ => by rw [(kbLine_bare hl.1).2 hp] at hk; cases hk
        refine ⟨fun ps => ⟨(fun h => by cases h), fun h => ?_⟩, fun e => ⟨fun h => ?_, fun h => ?_⟩⟩
        · cases h with
          | cons hp _ => exact absurd ⟨_, hp⟩ hno
        · cases h; exact ⟨rfl, l, by simp, hno⟩
        · rw [h.1]
      | some p =>
        have hp := (kbLine_bare hl.1).1 hk
        dsimp only
        cases hr : kbPairs raws with
        | error x =>
          refine ⟨fun ps => ⟨(fun h => by cases h), fun h => ?_⟩, fun e => ⟨fun h => ?_, fun h => ?_⟩⟩
          · cases h with
            | cons _ h => rw [(i1 _).2 h] at hr; cases hr
          · cases h
            obtain ⟨e1, y, hy, h⟩ := (i2 x).1 hr
            exact ⟨e1, y, by simp [hy], h⟩
          · have := ((i2 x).1 hr).1
            rw [this, h.1]
            rfl
        | ok qs =>
          refine ⟨fun ps => ⟨fun h => ?_, fun h => ?_⟩, fun e => ⟨(fun h => by cases h), fun h => ?_⟩⟩
          · cases h; exact .cons hp ((i1 qs).1 hr)
          · cases h with
            | cons hq h =>
              rw [(i1 _).2 h] at hr
              cases hr
              rw [kbRow_unique hp hq]
              rfl
          · obtain ⟨he, y, hy, h⟩ := h
            rcases List.mem_cons.1 hy with rfl | hy
            · exact absurd ⟨p, hp⟩ h
            · rw [(i2 _).2 ⟨rfl, y, hy, h⟩] at hr; cases hr

omit [UnicodeDB] in
theorem ended_inj {l l' nl nl' : Str} (hl : '\n' ∉ l) (hl' : '\n' ∉ l') (hn : nl = [] ∨ nl = ['\n']) (hn' : nl' = [] ∨ nl' = ['\n']) (e : l ++ nl = l' ++ nl') : l = l' := by
  have h1 := rstrip_feed hl hn
  rw [e, rstrip_feed hl' hn'] at h1
  exact h1.symm

omit [UnicodeDB] in
/-- A text has its lines in one way. -/
theorem fileLines_unique {t : Str} {ls ls' : List Str} (h : FileLines t ls) (h' : FileLines t ls') : ls = ls' := by
  obtain ⟨h1, h2⟩ := fileLines_of h
  obtain ⟨h1', h2'⟩ := fileLines_of h'
  generalize fileLines t = raws at h2 h2'
  clear h h'
  induction h2 generalizing ls' with
  | nil => cases h2'; rfl
  | @cons l r ls raws hr _ ih =>
    cases h2' with
    | @cons l' _ ls' _ hr' h2' =>
      obtain ⟨nl, hn, rfl⟩ := hr
      obtain ⟨nl', hn', e⟩ := hr'
      rw [ended_inj (h1 l (by simp)).1 (h1' l' (by simp)).1 hn hn' e, ih (fun x hx => h1 x (by simp [hx])) (fun x hx => h1' x (by simp [hx])) h2']

omit [UnicodeDB] in
theorem fileText_lines {nl : Str} (hl : nl ∈ lineEnds) {ls : List Str} (h : ∀ l ∈ ls, OneLine l) : FileLines (fileText nl ls) ls := by
  induction ls with
  | nil => exact .nil
  | cons l ls ih =>
    have ih := ih fun x hx => h x (by simp [hx])
    have e : fileText nl (l :: ls) = l ++ nl ++ fileText nl ls := by simp [fileText]
    rw [e]
    refine .cons (h l (by simp)) hl (fun hr => ?_) ih
    subst hr
    cases ls with
    | nil => simp [fileText]
    | cons l' ls =>
      have hn := (h l' (by simp)).1
      cases l' with
      | nil => simp [fileText]
      | cons c l' =>
        simp only [List.mem_cons, not_or] at hn
        simpa [fileText] using fun e => hn.1 e.symm

omit [UnicodeDB] in
theorem row_of {p : Str × Str} (h : Writable p) : KbRow (rowText p) p ∧ OneLine (rowText p) ∧ (rowText p).head? ≠ some '#' := by
  refine ⟨⟨[], [], by simp [rowText], (fun c hc => by cases hc), (fun c hc => by cases hc), h.term.1, h.term.2.1, h.repl.1, h.repl.2, by simpa using h.hyphens⟩, ?_, ?_⟩
  · unfold rowText
    refine ⟨fun hm => ?_, fun hm => ?_⟩
    · rcases List.mem_append.1 hm with hm | hm
      · rcases List.mem_append.1 hm with hm | hm
        · exact h.lines.1.1 hm
        · exact absurd hm (by decide)
      · exact h.lines.2.1 hm
    · rcases List.mem_append.1 hm with hm | hm
      · rcases List.mem_append.1 hm with hm | hm
        · exact h.lines.1.2 hm
        · exact absurd hm (by decide)
      · exact h.lines.2.2 hm
  · have := h.term
    unfold rowText
    cases hp : p.1 with
    | nil => exact absurd hp this.1
    | cons c r => rw [hp] at this; simpa using this.2.2

/-- A table written into a file is read from it. -/
theorem load_written {nl : Str} (hl : nl ∈ lineEnds) {ps : List (Str × Str)} (h : ∀ p ∈ ps, Writable p) : loadPairs (.file (fileText nl (ps.map rowText))) = .ok ps := by
  have hf : FileLines (fileText nl (ps.map rowText)) (ps.map rowText) := fileText_lines hl fun l hl => by
    obtain ⟨p, hp, rfl⟩ := List.mem_map.1 hl
    exact (row_of (h p hp)).2.1
  obtain ⟨h1, h2⟩ := fileLines_of hf
  refine ((kbPairs_lines h1 h2).1 ps).2 ?_
  clear hf h1 h2
  induction ps with
  | nil => exact .nil
  | cons p ps ih =>
    have hp := row_of (h p (by simp))
    have e : DataLines ((p :: ps).map rowText) = rowText p :: DataLines (ps.map rowText) := by simp [DataLines, hp.2.2]
    rw [e]
    exact .cons hp.1 (ih fun q hq => h q (by simp [hq]))

/-! ### The other tables -/

theorem authors_lines {ls raws : List Str} (h1 : ∀ l ∈ ls, OneLine l) (h2 : All2 (fun l r => ∃ nl, (nl = [] ∨ nl = ['\n']) ∧ r = l ++ nl) ls raws) :
    ∃ os, All2 RowOf (DataLines ls) os ∧ buildAuthors raws = os.filterMap id := by
  induction h2 with
  | nil => exact ⟨[], .nil, rfl⟩
  | @cons l r ls raws hr _ ih =>
    obtain ⟨nl, hn, rfl⟩ := hr
    obtain ⟨os, i1, i2⟩ := ih fun x hx => h1 x (by simp [hx])
    have hl := h1 l (by simp)
    unfold buildAuthors at i2 ⊢
    rw [List.filter_cons, comment_iff hn]
    by_cases hc : l.head? = some '#'
    · have e : DataLines (l :: ls) = DataLines ls := by simp [DataLines, hc]
      simp only [hc, decide_true, Bool.not_true, Bool.false_eq_true, if_false, e]
      exact ⟨os, i1, i2⟩
    · have e : DataLines (l :: ls) = l :: DataLines ls := by simp [DataLines, hc]
      simp only [hc, decide_false, Bool.not_false, if_true, e]
      refine ⟨kbLine (l ++ nl) :: os, .cons ?_ i1, ?_⟩
      · cases hk : kbLine (l ++ nl) with
        | some p => exact (kbLine_iff hl.1 hn).1 hk
        | none => exact fun p hp => by rw [(kbLine_iff hl.1 hn).2 hp] at hk; cases hk
      · rw [List.filterMap_cons, List.filterMap_cons, i2]
        cases kbLine (l ++ nl) <;> rfl

theorem journalsRe_cons (r : Str) (raws : List Str) : buildJournalsRe (r :: raws) =
    if startsWith r ['#'] then buildJournalsRe raws else match kbLine r with
      | none => .error .attributeError
      | some p => (buildJournalsRe raws).bind fun ps => .ok (p :: ps) := by
  unfold buildJournalsRe
  rw [List.filter_cons]
  cases startsWith r ['#'] with
  | true => rfl
  | false =>
    simp only [Bool.not_false, if_true, List.mapM_cons, Bool.false_eq_true, if_false]
    cases kbLine r <;> rfl

theorem journalsRe_lines {ls raws : List Str} (h1 : ∀ l ∈ ls, OneLine l) (h2 : All2 (fun l r => ∃ nl, (nl = [] ∨ nl = ['\n']) ∧ r = l ++ nl) ls raws) :
    (∀ ps, buildJournalsRe raws = .ok ps ↔ All2 KbRow (DataLines ls) ps) ∧
    ∀ e, buildJournalsRe raws = .error e ↔ e = .attributeError ∧ ∃ l ∈ DataLines ls, ¬ ∃ p, KbRow l p := by
  induction h2 with
  | nil =>
    refine ⟨fun ps => ⟨fun h => ?_, fun h => ?_⟩, fun e => ⟨fun h => ?_, fun h => ?_⟩⟩
    · cases h; exact .nil
    · cases h; rfl
    · cases h
    · obtain ⟨-, l, hl, -⟩ := h; cases hl
  | @cons l r ls raws hr _ ih =>
    obtain ⟨nl, hn, rfl⟩ := hr
    obtain ⟨i1, i2⟩ := ih fun x hx => h1 x (by simp [hx])
    have hl := h1 l (by simp)
    rw [journalsRe_cons, comment_iff hn]
    by_cases hc : l.head? = some '#'
    · have e : DataLines (l :: ls) = DataLines ls := by simp [DataLines, hc]
      simp only [hc, decide_true, if_true, e]
      exact ⟨i1, i2⟩
    · have e : DataLines (l :: ls) = l :: DataLines ls := by simp [DataLines, hc]
      simp only [hc, decide_false, Bool.false_eq_true, if_false, e]
      generalize buildJournalsRe raws = tl at i1 i2
      cases hk : kbLine (l ++ nl) with
      | none =>
        have hno : ¬ ∃ p, KbRow l p := fun ⟨p, hp⟩ => by rw [(kbLine_iff hl.1 hn).2 hp] at hk; cases hk
        refine ⟨fun ps => ⟨(fun h => by cases h), fun h => ?_⟩, fun e => ⟨fun h => ?_, fun h => ?_⟩⟩
        · cases h with
          | cons hp _ => exact absurd ⟨_, hp⟩ hno
        · cases h; exact ⟨rfl, l, by simp, hno⟩
        · rw [h.1]
      | some p =>
        have hp := (kbLine_iff hl.1 hn).1 hk
        cases hr : tl with
        | error x =>
          refine ⟨fun ps => ⟨(fun h => by cases h), fun h => ?_⟩, fun e => ⟨fun h => ?_, fun h => ?_⟩⟩
          · cases h with
            | cons _ h => rw [(i1 _).2 h] at hr; cases hr
          · cases h
            obtain ⟨e1, y, hy, h⟩ := (i2 x).1 hr
            exact ⟨e1, y, by simp [hy], h⟩
          · have := ((i2 x).1 hr).1
            rw [this, h.1]
            rfl
        | ok qs =>
          refine ⟨fun ps => ⟨fun h => ?_, fun h => ?_⟩, fun e => ⟨(fun h => by cases h), fun h => ?_⟩⟩
          · cases h; exact .cons hp ((i1 qs).1 hr)
          · cases h with
            | cons hq h =>
              rw [(i1 _).2 h] at hr
              cases hr
              rw [kbRow_unique hp hq]
              rfl
          · obtain ⟨he, y, hy, h⟩ := h
            rcases List.mem_cons.1 hy with rfl | hy
            · exact absurd ⟨p, hp⟩ h
            · rw [(i2 _).2 ⟨rfl, y, hy, h⟩] at hr; cases hr

theorem special_lines {ls raws : List Str} (h1 : ∀ l ∈ ls, OneLine l) (h2 : All2 (fun l r => ∃ nl, (nl = [] ∨ nl = ['\n']) ∧ r = l ++ nl) ls raws) :
    ∃ xs, All2 Stripped (DataLines ls) xs ∧ buildSpecial raws = xs.filter fun x => !x.isEmpty := by
  induction h2 with
  | nil => exact ⟨[], .nil, rfl⟩
  | @cons l r ls raws hr _ ih =>
    obtain ⟨nl, hn, rfl⟩ := hr
    obtain ⟨xs, i1, i2⟩ := ih fun x hx => h1 x (by simp [hx])
    unfold buildSpecial at i2 ⊢
    rw [List.filter_cons, comment_iff hn]
    by_cases hc : l.head? = some '#'
    · have e : DataLines (l :: ls) = DataLines ls := by simp [DataLines, hc]
      simp only [hc, decide_true, Bool.not_true, Bool.false_eq_true, if_false, e]
      exact ⟨xs, i1, i2⟩
    · have e : DataLines (l :: ls) = l :: DataLines ls := by simp [DataLines, hc]
      simp only [hc, decide_false, Bool.not_false, if_true, e]
      refine ⟨strip l :: xs, .cons (trimmed_strip l) i1, ?_⟩
      have hs : strip (l ++ nl) = strip l := by
        rcases hn with rfl | rfl
        · rw [List.append_nil]
        · exact strip_ended l
      rw [List.map_cons, hs, List.filter_cons, List.filter_cons, i2]

end Py
