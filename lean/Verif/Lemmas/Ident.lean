import Verif.Lemmas.First
import Verif.Lemmas.Recognise
import Verif.Spec.Ident
import Verif.Model.Tag

/-!
# Identifiers of fixed shape
-/

open Spec

namespace Py

variable [UnicodeDB]

/-- Replacing matches rewrites the text, if the matches are what the description says. -/
theorem rewritten_sub {r : Re} {P : Str → Str → Str → Str → Prop} {f : Match → Str} (hr : 0 < r.minLen)
    (hit : ∀ pre post m, matchHere r false pre (m.txt ++ post) = some m → P pre.reverse m.txt post (f m))
    (sem : ∀ pre w post x, P pre.reverse w post x → Sem r pre w post) (s : Str) : Rewritten P [] s (sub r f s) := by
  have key : ∀ {pre s : Str} {ps : List Piece}, Scanned r pre s ps → Rewritten P pre.reverse s (ps.flatMap (Piece.out f)) := by
    intro pre s ps h
    induction h with
    | nil => exact .nil
    | @ch pre c t ps hn _ ih =>
      rw [List.reverse_cons] at ih
      refine .ch ?_ ih
      rintro ⟨w, r', x, hw, hP⟩
      exact (matchHere_none _ _ _).1 hn ⟨w, r', hw, sem _ _ _ _ hP⟩
    | @hit pre t ps m hm hne _ ih =>
      rw [List.reverse_append, List.reverse_reverse] at ih
      exact .hit hne (hit _ _ _ hm) ih
  have := key (scan_scanned' hr s)
  rwa [List.reverse_nil] at this

theorem sem_seq_intro {a b : Re} {pre u v post : Str} (h : Sem a pre u (v ++ post)) (h' : Sem b (u.reverse ++ pre) v post) :
    Sem (a ⬝ b) pre (u ++ v) post := ⟨u, v, rfl, h, h'⟩

theorem sem_look_set {k : CSet} {pre w post : Str} :
    Sem (.look true (.set k)) pre w post ↔ w = [] ∧ NotFirst (fun c => k.mem c = true) post := by
  simp only [Sem]
  refine and_congr_right fun _ => ?_
  constructor
  · intro h c hc hk
    cases post with
    | nil => simp at hc
    | cons d post =>
      simp only [List.head?_cons, Option.some.injEq] at hc
      subst hc
      exact absurd (h.2 ⟨[d], post, rfl, d, rfl, hk⟩) (by decide)
  · refine fun h => ⟨fun h' => absurd h' (by decide), ?_⟩
    rintro ⟨u, v, rfl, c, rfl, hk⟩
    exact absurd hk (h c rfl)

theorem digitSet_mem {c : Char} : CSet.mem ⟨false, false, [.digit]⟩ c = true ↔ isDec c = true := by simp [CSet.mem, CItem.mem]

theorem sem_digits {n : Nat} {pre w post : Str} : Sem (Re.times n Re.digit) pre w post ↔ DigitsOf n w := by
  rw [Re.digit, sem_times_set]
  simp only [digitSet_mem]
  rfl

omit [UnicodeDB] in
theorem char_between {c : Char} {lo hi : Nat} (h1 : lo ≤ c.toNat) (h2 : c.toNat ≤ hi) :
    c ∈ (List.range (hi + 1 - lo)).map fun i => Char.ofNat (lo + i) := by
  rw [List.mem_map]
  refine ⟨c.toNat - lo, by simp; omega, ?_⟩
  rw [show lo + (c.toNat - lo) = c.toNat by omega, Char.ofNat_toNat]

/-- A range of characters as a list. -/
theorem range_mem {c lo hi : Char} {l : Str} (hl : l = (List.range (hi.toNat + 1 - lo.toNat)).map fun i => Char.ofNat (lo.toNat + i))
    (hl' : ∀ d ∈ l, lo.toNat ≤ d.toNat ∧ d.toNat ≤ hi.toNat) :
    CSet.mem ⟨false, false, [.range lo hi]⟩ c = true ↔ c ∈ l := by
  simp only [CSet.mem, CItem.mem, List.any_cons, List.any_nil, Bool.or_false, Bool.false_eq_true, if_false, Bool.and_eq_true,
    decide_eq_true_eq]
  exact ⟨fun h => hl ▸ char_between h.1 h.2, hl' c⟩

/-! ### Quoted titles -/

omit [UnicodeDB] in
theorem quoted_minLen : 0 < Rx.re_quoted.minLen := by decide

theorem notQuote_mem {c : Char} : CSet.mem ⟨true, false, [.ch '"']⟩ c = true ↔ c ≠ '"' := by simp [CSet.mem, CItem.mem]

theorem tagQuoted_rewritten (line : Str) : Rewritten QuotedTitle [] line (tagQuoted line) := by
  refine rewritten_sub quoted_minLen ?_ ?_ line
  · intro pre post m h
    obtain ⟨t, ht, hp, -, hg⟩ := matchHere_first h
    obtain ⟨s1, w1, k1, h⟩ := first_seq ht
    obtain ⟨s2, w2, k2, c2, h⟩ := first_group_seq h
    obtain ⟨w3, k3⟩ := h.step
    have e1 := sem_ch.1 k1.sem
    have e3 := sem_ch.1 k3.sem
    obtain ⟨hne, hq⟩ := sem_plus_set.1 k2.sem
    refine ⟨w2, ?_, hne, fun hc => notQuote_mem.1 (hq _ hc) rfl, ?_⟩
    · have := k1.post
      simp only [k2.post, k3.post] at this
      rw [hp] at this
      refine List.append_cancel_right (bs := t.post) ?_
      rw [this, e1, e3]
      simp
    · have : m.tgroup G.title = w2 := by
        rw [Match.tgroup, hg, k3.cap _ (by decide), c2]; rfl
      rw [this]
      simp [tagged]
  · rintro pre w post x ⟨t, rfl, hne, hq, -⟩
    exact ⟨['"'], t ++ ['"'], by simp, sem_ch.2 rfl, t, ['"'], rfl,
      sem_plus_set.2 ⟨hne, fun c hc => notQuote_mem.2 fun e => hq (e ▸ hc)⟩, sem_ch.2 rfl⟩

/-! ### Book numbers -/

omit [UnicodeDB] in
theorem isbn_minLen : 0 < Rx.re_isbn.minLen := by decide

/-- Digits and hyphens of a book number. -/
def isbnSet : CSet := ⟨false, false, [.ch '-', .ch '–', .range '0' '9', .ch 'X', .ch 'x']⟩

theorem isbnSet_mem {c : Char} : isbnSet.mem c = true ↔ IsbnChar c := by
  have := range_mem (c := c) (lo := '0') (hi := '9') (l := py! "0123456789") (by decide) (by decide)
  simp only [CSet.mem, CItem.mem, List.any_cons, List.any_nil, Bool.or_false, Bool.false_eq_true, if_false] at this
  simp only [isbnSet, CSet.mem, CItem.mem, List.any_cons, List.any_nil, Bool.or_false, Bool.false_eq_true, if_false, Bool.or_eq_true,
    this, beq_iff_eq, IsbnChar, List.mem_cons, List.not_mem_nil, or_false]
  constructor
  · intro h; simp only [or_assoc] at h ⊢; exact h
  · intro h; simp only [or_assoc] at h ⊢; exact h

omit [UnicodeDB] in
theorem upTo_total {a : Re} : ∀ n, (Re.upTo n a).total = true
  | 0 => rfl
  | n + 1 => by simp [Re.upTo, Re.total]

/-- A bounded repetition takes all it can. -/
theorem first_upTo {k : CSet} : ∀ {n : Nat} {s t : St}, First (Re.upTo n (.set k)) s t →
    ∃ w, s.post = w ++ t.post ∧ (w.length = n ∨ NotFirst (fun c => k.mem c = true) t.post)
  | 0, s, t, h => by
    simp only [First, Re.upTo, run, List.head?_cons, Option.some.injEq] at h
    exact ⟨[], by rw [h]; rfl, .inl rfl⟩
  | n + 1, s, t, h => by
    rcases first_opt (a := .seq (.set k) (Re.upTo n (.set k))) h with h | ⟨h, rfl⟩
    · obtain ⟨u, w, hw, hu⟩ := first_seq h
      obtain ⟨c, rfl, hc⟩ := hw.sem
      obtain ⟨v, e, hv⟩ := first_upTo hu
      refine ⟨c :: v, by rw [hw.post, e]; rfl, hv.imp (fun h => by simp [h]) id⟩
    · refine ⟨[], rfl, .inr fun c hc hk => ?_⟩
      cases hp : t.post with
      | nil => rw [hp] at hc; simp at hc
      | cons d r =>
        rw [hp] at hc
        simp only [List.head?_cons, Option.some.injEq] at hc
        subst hc
        exact run_nil h ⟨[d], r, by rw [hp]; rfl, [d], [], by simp, ⟨d, rfl, hk⟩, sem_upTo_set.2 ⟨by simp, by simp⟩⟩

theorem first_rep {k : CSet} {m n : Nat} (hmn : m ≤ n) {s t : St} (h : First (Re.rep m n (.set k)) s t) :
    ∃ w, Step (Re.rep m n (.set k)) s t w ∧ m ≤ w.length ∧ w.length ≤ n ∧ (∀ c ∈ w, k.mem c = true) ∧
      (w.length = n ∨ NotFirst (fun c => k.mem c = true) t.post) := by
  obtain ⟨w, hw⟩ := h.step
  obtain ⟨h1, h2, h3⟩ := (sem_rep_set hmn).1 hw.sem
  refine ⟨w, hw, h1, h2, h3, ?_⟩
  obtain ⟨u, fu, ft⟩ := first_seq_total (run_total _ (upTo_total _)) h
  obtain ⟨w1, k1⟩ := fu.step
  obtain ⟨w2, e2, h4⟩ := first_upTo ft
  refine h4.imp (fun h4 => ?_) id
  have e1 := (sem_times_set.1 k1.sem).1
  have := congrArg List.length hw.post
  rw [k1.post, e2] at this
  simp at this
  omega

theorem isbn_sep_mem {c : Char} : CSet.mem ⟨false, false, [.ch '-', .ch '–', .ch ' ']⟩ c = true ↔ c ∈ py! "-– " := by
  simp [CSet.mem, CItem.mem]

theorem colon_space_mem {c : Char} : CSet.mem ⟨false, false, [.ch ':', .space]⟩ c = true ↔ (c = ':' ∨ isSpace c = true) := by
  simp [CSet.mem, CItem.mem]

/-- Colons and blanks. -/
def colonRe : Re := .star true (.set ⟨false, false, [.ch ':', .space]⟩)

/-- The number itself. -/
def codeRe : Re := .group G.code (Re.rep 10 25 (.set isbnSet))

theorem isbnHere_sem {u : Str} (h : IsbnHere u) (pre : Str) : ∃ w rest, u = w ++ rest ∧ Sem (colonRe ⬝ codeRe) pre w rest := by
  obtain ⟨k, code, r, rfl, hk, h10, hc⟩ := h
  refine ⟨k ++ code.take 10, code.drop 10 ++ r, ?_, sem_seq_intro (sem_star_set.2 fun c hc => colon_space_mem.2 (hk c hc))
    ((sem_rep_set (by decide)).2 ⟨?_, ?_, fun c hc' => isbnSet_mem.2 (hc c (List.mem_of_mem_take hc'))⟩)⟩
  · rw [List.append_assoc, List.append_assoc, ← List.append_assoc (code.take 10), List.take_append_drop]
  · simp; omega
  · simp; omega

/-- The numbers in the label. -/
def labelNumRe : Re := Re.alts [.eps, .str (py! "10"), .str (py! "13")]

theorem sem_labelNum {pre n post : Str} : Sem labelNumRe pre n post ↔ (n = [] ∨ n = py! "10" ∨ n = py! "13") := by
  constructor
  · rintro (h | h | h)
    · exact .inl h
    · exact .inr (.inl h)
    · exact .inr (.inr h)
  · rintro (h | h | h)
    · exact .inl h
    · exact .inr (.inl h)
    · exact .inr (.inr h)

theorem labelNum_nil {s : St} (h : run (labelNumRe ⬝ colonRe ⬝ codeRe) s = []) :
    ¬ ∃ n' u', s.post = n' ++ u' ∧ (n' = [] ∨ n' = py! "10" ∨ n' = py! "13") ∧ IsbnHere u' := by
  rintro ⟨n, u, e, hn, hu⟩
  obtain ⟨w, rest, rfl, hs⟩ := isbnHere_sem hu (n.reverse ++ s.pre)
  exact run_nil h ⟨n ++ w, rest, by simpa using e, sem_seq_intro (sem_labelNum.2 hn) hs⟩

omit [UnicodeDB] in
theorem isbn_eq : Rx.re_isbn = (Re.ch 'I') ⬝ (.alt ((.str (py! "SBN")) ⬝ (.star true (.set ⟨false, false, [.ch '-', .ch '–', .ch ' ']⟩)) ⬝ labelNumRe)
    (.str (py! "nternationalStandardBookNumber"))) ⬝ colonRe ⬝ codeRe := rfl

/-- The end of the pattern. -/
theorem first_code {s t : St} (h : First (colonRe ⬝ codeRe) s t) : ∃ k code, s.post = k ++ code ++ t.post ∧
    (∀ c ∈ k, c = ':' ∨ isSpace c = true) ∧ 10 ≤ code.length ∧ code.length ≤ 25 ∧ (∀ c ∈ code, IsbnChar c) ∧
    (code.length = 25 ∨ NotFirst IsbnChar t.post) ∧ t.cap G.code = some code := by
  obtain ⟨s3, k, k3, h⟩ := first_seq h
  obtain ⟨u, code', fu, k4', e5, e6, e7, -⟩ := first_group h
  obtain ⟨code, k4, h1, h2, h3, h4⟩ := first_rep (by decide) fu
  have : code' = code := List.append_cancel_right (bs := u.post) (by rw [← k4'.post, k4.post])
  subst this
  refine ⟨k, code', ?_, fun c hc => colon_space_mem.1 (sem_star_set.1 k3.sem c hc), h1, h2, fun c hc => isbnSet_mem.1 (h3 c hc), ?_, e7⟩
  · rw [k3.post, k4.post, e6, List.append_assoc]
  · rw [e6]
    exact h4.imp id fun h c hc hi => h c hc (isbnSet_mem.2 hi)

theorem tagIsbn_rewritten (line : Str) : Rewritten IsbnText [] line (tagIsbn line) := by
  refine rewritten_sub isbn_minLen ?_ ?_ line
  · intro pre post m h
    obtain ⟨t, ht, hp, -, hg⟩ := matchHere_first h
    have hpost : post = t.post := List.append_cancel_left hp
    rw [isbn_eq] at ht
    obtain ⟨s1, w1, k1, h⟩ := first_seq ht
    obtain rfl := sem_ch.1 k1.sem
    rcases first_alt_seq h with h | ⟨-, h⟩
    · obtain ⟨s2, w2, k2, h⟩ := first_seq (first_assoc.1 h)
      obtain rfl : w2 = py! "SBN" := k2.sem
      obtain ⟨s3, s, k3, h, hmax⟩ := first_star_seq (first_assoc.1 h)
      obtain ⟨s4, n, k4, h', hn⟩ : ∃ s4 n, Step labelNumRe s3 s4 n ∧ First (colonRe ⬝ codeRe) s4 t ∧ (n = [] ∨ ¬ IsbnHere s3.post) := by
        have hf := first_alt_seq (a := .eps) (b := .alt (.str (py! "10")) (.str (py! "13"))) (c := colonRe ⬝ codeRe) h
        rcases hf with hf | ⟨hf, -⟩
        · refine ⟨s3, [], ⟨rfl, rfl, .inl rfl, fun _ _ => rfl⟩, ?_, .inl rfl⟩
          unfold First at hf ⊢
          simpa [run] using hf
        · obtain ⟨s4, n, k4, h4⟩ := first_seq h
          refine ⟨s4, n, k4, h4, .inr fun hu => ?_⟩
          obtain ⟨w, rest, e, hs⟩ := isbnHere_sem hu s3.pre
          exact run_nil hf ⟨w, rest, e, [], w, rfl, rfl, hs⟩
      obtain ⟨k, code, e, hk, h1, h2, h3, h4, h5⟩ := first_code h'
      have e3 : s3.post = n ++ (k ++ code ++ post) := by rw [k4.post, e, hpost]
      refine ⟨py! "ISBN" ++ s ++ n, k, code, ?_, .inl ⟨s, n, rfl, ?_, sem_labelNum.1 k4.sem, ?_, ?_⟩, hk, h1, h2, h3, by rw [hpost]; exact h4, ?_⟩
      · have := k1.post
        simp only [k2.post, k3.post, k4.post, e] at this
        rw [hp] at this
        refine List.append_cancel_right (bs := t.post) ?_
        rw [this]
        simp
      · exact fun c hc => isbn_sep_mem.1 (sem_star_set.1 k3.sem c hc)
      · intro a f ha hne hs
        exact labelNum_nil (hmax a f (by rw [e3, ha]) hne fun c hc => isbn_sep_mem.2 (hs c hc))
      · rw [← e3]; exact hn
      · rw [Match.tgroup, hg, h5]
        simp [tagged]
    · obtain ⟨s2, w2, k2, h⟩ := first_seq h
      obtain rfl : w2 = py! "nternationalStandardBookNumber" := k2.sem
      obtain ⟨k, code, e, hk, h1, h2, h3, h4, h5⟩ := first_code h
      refine ⟨py! "InternationalStandardBookNumber", k, code, ?_, .inr rfl, hk, h1, h2, h3, by rw [hpost]; exact h4, ?_⟩
      · have := k1.post
        simp only [k2.post, e] at this
        rw [hp] at this
        refine List.append_cancel_right (bs := t.post) ?_
        rw [this]
        simp
      · rw [Match.tgroup, hg, h5]
        simp [tagged]
  · rintro pre w post x ⟨l, k, code, rfl, hl, hk, h1, h2, h3, -, -⟩
    have hc : ∀ pre post, Sem codeRe pre code post := fun pre post =>
      (sem_rep_set (by decide)).2 ⟨h1, h2, fun c hc => isbnSet_mem.2 (h3 c hc)⟩
    have hk' : ∀ pre post, Sem colonRe pre k post := fun pre post =>
      sem_star_set.2 fun c hc => colon_space_mem.2 (hk c hc)
    rw [isbn_eq]
    rcases hl with ⟨s, n, rfl, hs, hn, -⟩ | rfl
    · have : py! "ISBN" ++ s ++ n ++ k ++ code = ['I'] ++ ((py! "SBN" ++ (s ++ n)) ++ (k ++ code)) := by simp
      rw [this]
      exact sem_seq_intro (sem_ch.2 rfl) (sem_seq_intro (.inl (sem_seq_intro rfl (sem_seq_intro
        (sem_star_set.2 fun c hc => isbn_sep_mem.2 (hs c hc)) (sem_labelNum.2 hn)))) (sem_seq_intro (hk' _ _) (hc _ _)))
    · have : py! "InternationalStandardBookNumber" ++ k ++ code = ['I'] ++ (py! "nternationalStandardBookNumber" ++ (k ++ code)) := by simp
      rw [this]
      exact sem_seq_intro (sem_ch.2 rfl) (sem_seq_intro (.inr rfl) (sem_seq_intro (hk' _ _) (hc _ _)))

end Py
