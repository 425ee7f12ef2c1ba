import Verif.Model.Kbs
import Verif.Spec.Titles
import Verif.Lemmas.Tag
import Verif.Lemmas.Url2
import Verif.Lemmas.Lines
import Verif.Lemmas.Spaces

/-!
# Lemmas about recognised titles
-/

open Spec

namespace Py

/-! ### Matches of a scan -/

/-- A position where a pattern matches lies in one of the matches found. -/
theorem scanned_covers [UnicodeDB] {r : Re} {pre s : Str} {ps : List Piece} (h : Scanned r pre s ps) :
    ∀ {a b : Str}, s = a ++ b → b ≠ [] → (∃ m, matchHere r false (a.reverse ++ pre) b = some m) →
      ∃ m, Piece.hit m ∈ ps ∧ m.start ≤ pre.length + a.length ∧ pre.length + a.length < m.start + m.txt.length := by
  induction h with
  | nil pre =>
    intro a b e hb _
    have : b = [] := by cases b with
      | nil => rfl
      | cons => cases a <;> cases e
    exact absurd this hb
  | @ch pre c t ps hn _ ih =>
    intro a b e hb hm
    cases a with
    | nil =>
      obtain ⟨m, hm⟩ := hm
      simp only [List.reverse_nil, List.nil_append] at hm e
      rw [← e, hn] at hm
      cases hm
    | cons d a =>
      simp only [List.cons_append, List.cons.injEq] at e
      obtain ⟨rfl, e⟩ := e
      obtain ⟨m, h1, h2, h3⟩ := ih e hb (by simpa using hm)
      refine ⟨m, by simp [h1], ?_, ?_⟩
      · simp only [List.length_cons] at h2 ⊢; omega
      · simp only [List.length_cons] at h3 ⊢; omega
  | @hit pre t ps m hm hne _ ih =>
    intro a b e hb hx
    have hs : m.start = pre.length := (matchHere_ok hm).1.start
    by_cases hlt : a.length < m.txt.length
    · exact ⟨m, by simp, by omega, by omega⟩
    · obtain ⟨a', rfl⟩ : ∃ a', a = m.txt ++ a' := by
        have := congrArg (List.take m.txt.length) e
        rw [List.take_left, List.take_append_of_le_length (by omega)] at this
        exact ⟨a.drop m.txt.length, by conv => lhs; rw [← List.take_append_drop m.txt.length a, ← this]⟩
      rw [List.append_assoc] at e
      obtain ⟨m', h1, h2, h3⟩ := ih (List.append_cancel_left e) hb (by simpa using hx)
      refine ⟨m', by simp [h1], ?_, ?_⟩
      · simp only [List.length_append, List.length_reverse] at h2 ⊢; omega
      · simp only [List.length_append, List.length_reverse] at h3 ⊢; omega

/-- The matches found by a scan: each is a match where it stands, and they do not overlap. -/
theorem scanned_hits [UnicodeDB] {r : Re} {pre s : Str} {ps : List Piece} (h : Scanned r pre s ps) :
    (∀ m ∈ ps.filterMap Piece.match?, pre.length ≤ m.start ∧ m.txt ≠ [] ∧ ∃ a b, s = a ++ (m.txt ++ b) ∧
      m.start = pre.length + a.length ∧ Sem r (a.reverse ++ pre) m.txt b ∧ matchHere r false (a.reverse ++ pre) (m.txt ++ b) = some m) ∧
    (ps.filterMap Piece.match?).Pairwise (fun m n => m.start + m.txt.length ≤ n.start) := by
  induction h with
  | nil pre => exact ⟨by simp, .nil⟩
  | @ch pre c t ps hn _ ih =>
    rw [List.filterMap_cons]
    refine ⟨fun m hm => ?_, ih.2⟩
    obtain ⟨h1, h0, a, b, rfl, h2, h3, h4⟩ := ih.1 m hm
    simp only [List.length_cons] at h1 h2
    exact ⟨by omega, h0, c :: a, b, rfl, by simp only [List.length_cons]; omega, by simpa using h3, by simpa using h4⟩
  | @hit pre t ps m hm hne _ ih =>
    have hs : m.start = pre.length := (matchHere_ok hm).1.start
    rw [List.filterMap_cons]
    refine ⟨fun n hn => ?_, .cons (fun n hn => ?_) ih.2⟩
    · rcases List.mem_cons.1 hn with rfl | hn
      · obtain ⟨rest, e, hsem⟩ := matchHere_sem hm
        refine ⟨by omega, hne, [], t, rfl, by simp [hs], ?_, hm⟩
        rw [← List.append_cancel_left e] at hsem
        exact hsem
      · obtain ⟨h1, h0, a, b, rfl, h2, h3, h4⟩ := ih.1 n hn
        simp only [List.length_append, List.length_reverse] at h1 h2
        exact ⟨by omega, h0, m.txt ++ a, b, by simp, by simp only [List.length_append]; omega, by simpa using h3, by simpa using h4⟩
    · have := (ih.1 n hn).1
      simp only [List.length_append, List.length_reverse] at this
      omega

/-! ### The patterns of titles -/

/-- One of the two patterns built for a title. -/
def TitleRe (t : Str) (r : Re) : Prop := r = seekRe t ∨ r = replRe t

theorem titleRe_minLen {t : Str} {r : Re} (h : TitleRe t r) : 0 < r.minLen := by
  rcases h with rfl | rfl
  · simp [seekRe, Re.minLen]
  · simp [replRe, Re.minLen]

theorem sem_str [UnicodeDB] {x pre w post : Str} : Sem (.str x) pre w post ↔ w = x := Iff.rfl

theorem sem_titleRe [UnicodeDB] {t : Str} {r : Re} (h : TitleRe t r) {pre w post : Str} (hs : Sem r pre w post) :
    ∃ c, w = t ++ [c] := by
  rcases h with rfl | rfl
  · obtain ⟨_, _, rfl, ⟨rfl, -⟩, _, _, rfl, rfl, c, rfl, -⟩ := hs
    exact ⟨c, by simp⟩
  · obtain ⟨_, _, rfl, ⟨rfl, -⟩, _, _, rfl, ⟨rfl, -⟩, _, _, rfl, rfl, c, rfl, -⟩ := hs
    exact ⟨c, by simp⟩

theorem upper_word [UnicodeDB] {c : Char} (h : isWord c = false) :
    CSet.mem ⟨true, false, [.range 'A' 'Z', .range '0' '9']⟩ c = true := by
  cases hm : CSet.mem ⟨true, false, [.range 'A' 'Z', .range '0' '9']⟩ c with
  | true => rfl
  | false =>
    exfalso
    have e1 : ('A' : Char).toNat = 65 := rfl
    have e2 : ('Z' : Char).toNat = 90 := rfl
    have e3 : ('0' : Char).toNat = 48 := rfl
    have e4 : ('9' : Char).toNat = 57 := rfl
    simp only [CSet.mem, CItem.mem, List.any_cons, List.any_nil, Bool.or_false, e1, e2, e3, e4] at hm
    have hr : (65 ≤ c.toNat ∧ c.toNat ≤ 90) ∨ (48 ≤ c.toNat ∧ c.toNat ≤ 57) := by
      have h' := hm
      simp at h'
      omega
    have ha : isAscii c = true := by simp only [isAscii, decide_eq_true_eq]; omega
    unfold isWord at h
    rw [if_pos ha] at h
    have : isAsciiDigit c = true ∨ isAsciiUpper c = true := by
      rcases hr with hr | hr
      · right; simp only [isAsciiUpper, Bool.and_eq_true, decide_eq_true_eq]; omega
      · left; simp only [isAsciiDigit, Bool.and_eq_true, decide_eq_true_eq]; omega
    rcases this with h' | h' <;> simp [h'] at h

/-- A title that stands alone is matched by its pattern. -/
theorem alone_sem [UnicodeDB] {t : Str} {r : Re} (h : TitleRe t r) (ht : ∃ x t', t = x :: t' ∧ isWord x = true) {a b : Str} {c : Char}
    (ha : ∀ x, a.getLast? = some x → isWord x = false ∧ x ≠ '/') (hc : isWord c = false) :
    Sem r a.reverse (t ++ [c]) b := by
  obtain ⟨x, t', rfl, hx⟩ := ht
  rcases List.eq_nil_or_concat a with rfl | ⟨a', y, rfl⟩
  · rcases h with rfl | rfl
    · exact ⟨[], _, rfl, ⟨rfl, by simp [behindOk]⟩, _, [c], rfl, rfl, c, rfl, by simp [CSet.mem, CItem.mem, hc]⟩
    · exact ⟨[], _, rfl, ⟨rfl, by simp [behindOk]⟩, [], _, rfl, ⟨rfl, by simp [headWord, hx]⟩, _, [c], rfl, rfl, c, rfl, upper_word hc⟩
  · obtain ⟨hy, hy'⟩ := ha y (by simp)
    rw [List.concat_eq_append, List.reverse_append]
    rcases h with rfl | rfl
    · exact ⟨[], _, rfl, ⟨rfl, by simp [behindOk, CSet.mem, CItem.mem, hy]⟩, _, [c], rfl, rfl, c, rfl, by simp [CSet.mem, CItem.mem, hc]⟩
    · exact ⟨[], _, rfl, ⟨rfl, by simp [behindOk, CSet.mem, CItem.mem, hy']⟩, [], _, rfl, ⟨rfl, by simp [headWord, hx, hy]⟩, _, [c], rfl,
        rfl, c, rfl, upper_word hc⟩

/-! ### Overwriting -/

/-- The text stands at a position, character by character. -/
def AtPos (l : Str) (i : Nat) (t : Str) : Prop := ∀ k, k < t.length → l[i + k]? = t[k]?

theorem atPos_append (a t b : Str) : AtPos (a ++ (t ++ b)) a.length t := by
  intro k hk
  rw [List.getElem?_append_right (by omega), List.getElem?_append_left (by omega)]
  congr 1; omega

theorem atPos_stands {l t : Str} {i : Nat} (h : AtPos l i t) (ht : t ≠ []) : StandsAt t l i := by
  refine ⟨l.take i, l.drop (i + t.length), ?_, ?_⟩
  · have e : (l.drop i).take t.length = t := by
      apply List.ext_getElem?
      intro k
      by_cases hk : k < t.length
      · rw [List.getElem?_take_of_lt hk, List.getElem?_drop, h k hk]
      · rw [List.getElem?_eq_none (by simp; omega), List.getElem?_eq_none (by omega)]
    conv => lhs; rw [← List.take_append_drop i l, ← List.take_append_drop t.length (l.drop i), e, List.drop_drop]
    rw [List.append_assoc]
  · have := h 0 (List.length_pos_iff.2 ht)
    have : i < l.length := by
      rcases Nat.lt_or_ge i l.length with h' | h'
      · exact h'
      · rw [List.getElem?_eq_none (by simpa using h')] at this
        obtain ⟨c, t', rfl⟩ := List.exists_cons_of_ne_nil ht
        cases this
    simp; omega

theorem atPos_le {l t : Str} {i : Nat} (h : AtPos l i t) (ht : t ≠ []) : i + t.length ≤ l.length := by
  obtain ⟨a, b, rfl, rfl⟩ := atPos_stands h ht
  simp

theorem splice_get {l : Str} {i n : Nat} (h : i + n ≤ l.length) (k : Nat) :
    (splice l i (underscores n) (i + n))[k]? = if i ≤ k ∧ k < i + n then some '_' else l[k]? := by
  have h1 : (l.take i).length = i := by simp; omega
  unfold splice underscores
  by_cases hk : k < i
  · rw [if_neg (by omega), List.append_assoc, List.getElem?_append_left (by omega), List.getElem?_take_of_lt hk]
  · by_cases hk2 : k < i + n
    · rw [if_pos ⟨by omega, hk2⟩, List.append_assoc, List.getElem?_append_right (by omega), List.getElem?_append_left (by simp; omega)]
      rw [h1, List.getElem?_replicate, if_pos (by omega)]
    · rw [if_neg (by omega), List.getElem?_append_right (by simp; omega), List.getElem?_drop]
      congr 1
      simp; omega

theorem splice_length {l : Str} {i n : Nat} (h : i + n ≤ l.length) : (splice l i (underscores n) (i + n)).length = l.length := by
  simp [splice, underscores]; omega

/-- What holds of the titles recorded so far. -/
structure TitlesOk (line : Str) (st : Titles) : Prop where
  over : Overwritten st.found line st.line
  stands : ∀ p ∈ st.found, p.2 ≠ [] ∧ '_' ∉ p.2 ∧ AtPos line p.1 p.2
  disjoint : Disjoint st.found

theorem covered_append {f g : List (Nat × Str)} {k : Nat} : Covered (f ++ g) k ↔ Covered f k ∨ Covered g k := by
  constructor
  · rintro ⟨p, hp, h⟩
    rcases List.mem_append.1 hp with hp | hp
    · exact .inl ⟨p, hp, h⟩
    · exact .inr ⟨p, hp, h⟩
  · rintro (⟨p, hp, h⟩ | ⟨p, hp, h⟩)
    · exact ⟨p, by simp [hp], h⟩
    · exact ⟨p, by simp [hp], h⟩

theorem covered_one {i k : Nat} {t : Str} : Covered [(i, t)] k ↔ i ≤ k ∧ k < i + t.length := by
  constructor
  · rintro ⟨p, hp, h⟩
    rw [List.mem_singleton.1 hp] at h; exact h
  · intro h; exact ⟨(i, t), by simp, h⟩

theorem not_covered {line : Str} {st : Titles} (h : TitlesOk line st) {t : Str} (h_ : '_' ∉ t) {i : Nat} (ht : AtPos st.line i t)
    {k : Nat} (hk : i ≤ k) (hk' : k < i + t.length) : ¬ Covered st.found k := by
  intro hc
  have h1 := ht (k - i) (by omega)
  rw [Nat.add_sub_cancel' hk] at h1
  have hlt : k < line.length := by
    rw [← h.over.1]
    rcases Nat.lt_or_ge k st.line.length with h' | h'
    · exact h'
    · rw [List.getElem?_eq_none h', List.getElem?_eq_getElem (by omega)] at h1
      cases h1
  rw [h.over.2.1 k hlt hc] at h1
  exact h_ (List.mem_of_getElem? h1.symm)

theorem titleStep_ok {line : Str} {st : Titles} (h : TitlesOk line st) {t : Str} (ht : t ≠ []) (h_ : '_' ∉ t) {m : Match}
    (hm : AtPos st.line m.start t) :
    TitlesOk line (titleStep t st m) ∧ (titleStep t st m).found = st.found ++ [(m.start, t)] := by
  have hpos := List.length_pos_iff.2 ht
  have hle := atPos_le hm ht
  have hline : AtPos line m.start t := by
    intro k hk
    rw [← hm k hk]
    exact (h.over.2.2 _ (not_covered h h_ hm (by omega) (by omega))).symm
  have hfresh : m.start ∉ st.found.map (·.1) := by
    intro hmem
    obtain ⟨p, hp, e⟩ := List.mem_map.1 hmem
    have := List.length_pos_iff.2 (h.stands p hp).1
    exact not_covered h h_ hm (Nat.le_refl _) (by omega) ⟨p, hp, by omega, by omega⟩
  have hfound : (titleStep t st m).found = st.found ++ [(m.start, t)] := dset_fresh _ hfresh
  refine ⟨⟨?_, ?_, ?_⟩, hfound⟩
  · rw [hfound]
    refine ⟨?_, fun k hk hc => ?_, fun k hc => ?_⟩
    · show (splice st.line m.start (underscores t.length) (m.start + t.length)).length = _
      rw [splice_length hle, h.over.1]
    · show (splice st.line m.start (underscores t.length) (m.start + t.length))[k]? = _
      rw [splice_get hle]
      split
      · rfl
      · rw [covered_append, covered_one] at hc
        rcases hc with hc | hc
        · exact h.over.2.1 k hk hc
        · exact absurd hc ‹_›
    · show (splice st.line m.start (underscores t.length) (m.start + t.length))[k]? = _
      rw [covered_append, covered_one] at hc
      rw [splice_get hle, if_neg (fun h => hc (.inr h))]
      exact h.over.2.2 k (fun h => hc (.inl h))
  · rw [hfound]
    intro p hp
    rcases List.mem_append.1 hp with hp | hp
    · exact h.stands p hp
    · rw [List.mem_singleton.1 hp]; exact ⟨ht, h_, hline⟩
  · rw [hfound]
    refine List.pairwise_append.2 ⟨h.disjoint, List.pairwise_singleton _ _, fun p hp q hq => ?_⟩
    rw [List.mem_singleton.1 hq]
    have h2 := List.length_pos_iff.2 (h.stands p hp).1
    rcases Nat.lt_or_ge m.start (p.1 + p.2.length) with h1 | h1
    · right
      show m.start + t.length ≤ p.1
      rcases Nat.lt_or_ge p.1 (m.start + t.length) with h3 | h3
      · exfalso
        rcases Nat.lt_or_ge p.1 m.start with h4 | h4
        · exact not_covered h h_ hm (Nat.le_refl _) (by omega) ⟨p, hp, by omega, by omega⟩
        · exact not_covered h h_ hm (k := p.1) h4 h3 ⟨p, hp, by omega, by omega⟩
      · exact h3
    · exact .inl h1

/-- The matches of one title. -/
theorem titleMatches_ok {line : Str} {t : Str} (ht : t ≠ []) (h_ : '_' ∉ t) :
    ∀ (ms : List Match) (st : Titles), TitlesOk line st → (∀ m ∈ ms, AtPos st.line m.start t) →
      ms.Pairwise (fun m n => m.start + t.length ≤ n.start) →
      TitlesOk line (ms.foldl (titleStep t) st) ∧ (ms.foldl (titleStep t) st).found = st.found ++ ms.map fun m => (m.start, t)
  | [], st, h, _, _ => ⟨h, by simp⟩
  | m :: ms, st, h, hat, hp => by
    obtain ⟨h1, h2⟩ := titleStep_ok h ht h_ (hat m (by simp))
    obtain ⟨h3, h4⟩ := titleMatches_ok ht h_ ms (titleStep t st m) h1 (fun n hn k hk => by
        have hmn := List.rel_of_pairwise_cons hp hn
        show (splice st.line m.start (underscores t.length) (m.start + t.length))[n.start + k]? = _
        rw [splice_get (atPos_le (hat m (by simp)) ht), if_neg (by omega)]
        exact hat n (by simp [hn]) k hk) hp.of_cons
    refine ⟨h3, ?_⟩
    rw [List.foldl_cons, h4, h2]
    simp

theorem titleLoop_ok [UnicodeDB] {line : Str} {t : Str} {r : Re} {pats : List (Str × Re)} (hr : dget pats t = some r) (hre : TitleRe t r)
    (ht : t ≠ []) (h_ : '_' ∉ t) {st : Titles} (h : TitlesOk line st) :
    ∃ st', titleLoop pats st t = .ok st' ∧ TitlesOk line st' ∧ (∃ new, st'.found = st.found ++ new ∧ ∀ p ∈ new, p.2 = t) ∧
      ((∃ x t', t = x :: t' ∧ isWord x = true) → ∀ i, Alone t line i → ∃ p ∈ st'.found, (p ∈ st.found ∨ p.2 = t) ∧ p.1 ≤ i + t.length ∧ i ≤ p.1 + p.2.length) := by
  have hsc := scan_scanned' (titleRe_minLen hre) st.line
  obtain ⟨hh, hpw⟩ := scanned_hits hsc
  have key : ∀ m ∈ finditer r st.line, m.txt.length = t.length + 1 ∧ AtPos st.line m.start t := by
    intro m hm
    obtain ⟨-, -, a, b, e, hs, hsem, -⟩ := hh m hm
    obtain ⟨c, hc⟩ := sem_titleRe hre hsem
    refine ⟨by simp [hc], ?_⟩
    rw [hc] at e
    have : m.start = a.length := by simpa using hs
    rw [this, e]
    have := atPos_append a t ([c] ++ b)
    simpa using this
  obtain ⟨h1, h2⟩ := titleMatches_ok ht h_ (finditer r st.line) st h (fun m hm => (key m hm).2)
    (List.Pairwise.imp_of_mem (fun hm _ hmn => by have := (key _ hm).1; omega) hpw)
  refine ⟨(finditer r st.line).foldl (titleStep t) st, by simp [titleLoop, hr, getKey]; rfl, h1, ⟨_, h2, by simp⟩, ?_⟩
  rintro htw i ⟨a, c, b, hl, hi, ha, hc⟩
  by_cases htouch : ∃ p ∈ st.found, p.1 ≤ i + t.length ∧ i ≤ p.1 + p.2.length
  · obtain ⟨p, hp, hp'⟩ := htouch
    exact ⟨p, by rw [h2]; simp [hp], .inl hp, hp'⟩
  · have hsame : ∀ k, i ≤ k + 1 → k ≤ i + t.length → st.line[k]? = line[k]? := by
      intro k hk hk'
      refine h.over.2.2 k ?_
      rintro ⟨p, hp, hp1, hp2⟩
      exact htouch ⟨p, hp, by omega, by omega⟩
    -- the working line around the title
    have hlen : st.line.length = line.length := h.over.1
    obtain ⟨a', c', b', hl', hi', ha', hc'⟩ : Alone t st.line i := by
      refine ⟨st.line.take i, c, st.line.drop (i + t.length + 1), ?_, ?_, ?_, hc⟩
      · apply List.ext_getElem?
        intro k
        have hL : line.length = i + t.length + 1 + b.length := by rw [hl]; simp; omega
        have htl : (st.line.take i).length = i := by simp; omega
        by_cases h1 : k < i
        · rw [List.append_assoc, List.getElem?_append_left (by omega), List.getElem?_take_of_lt h1]
        · by_cases h2 : k < i + t.length
          · rw [hsame k (by omega) (by omega), List.getElem?_append_left (by simp; omega), List.getElem?_append_right (by omega), htl, hl,
              List.getElem?_append_left (by simp; omega), List.getElem?_append_right (by omega), hi]
          · by_cases h3 : k = i + t.length
            · rw [hsame k (by omega) (by omega), List.getElem?_append_right (by simp; omega), hl,
                List.getElem?_append_right (by simp; omega)]
              have e1 : k - (a ++ t).length = 0 := by simp; omega
              have e2 : k - (st.line.take i ++ t).length = 0 := by simp; omega
              rw [e1, e2]; rfl
            · rw [List.getElem?_append_right (by simp; omega)]
              have e : k - (st.line.take i ++ t).length = (k - (i + t.length + 1)) + 1 := by simp; omega
              rw [e, List.getElem?_cons_succ, List.getElem?_drop]
              congr 1; omega
      · simp
        have : line.length = i + t.length + 1 + b.length := by rw [hl]; simp; omega
        omega
      · intro x hx
        apply ha x
        rw [List.getLast?_eq_getElem?] at hx ⊢
        have hL : line.length = i + t.length + 1 + b.length := by rw [hl]; simp; omega
        have htl : (st.line.take i).length = i := by simp; omega
        rw [htl] at hx
        rw [hi]
        by_cases h0 : i = 0
        · subst h0; simp at hx
        · rw [List.getElem?_take_of_lt (by omega), hsame (i - 1) (by omega) (by omega), hl, List.append_assoc,
            List.getElem?_append_left (by omega)] at hx
          exact hx
    have hsem := alone_sem (b := b') hre htw ha' hc'
    obtain ⟨m, hm, hm1, hm2⟩ := scanned_covers hsc (a := a') (b := t ++ c' :: b') (by rw [hl']; simp) (by simp)
      ((matchHere_isSome _ _ _).2 ⟨t ++ [c'], b', by simp, by simpa using hsem⟩)
    have hmem : m ∈ finditer r st.line := List.mem_filterMap.2 ⟨.hit m, hm, rfl⟩
    have hk := (key m hmem).1
    simp only [List.length_nil, Nat.zero_add] at hm1 hm2
    refine ⟨(m.start, t), ?_, .inr rfl, ?_, ?_⟩
    · rw [h2]
      exact List.mem_append_right _ (List.mem_map.2 ⟨m, hmem, rfl⟩)
    · show m.start ≤ i + t.length; omega
    · show i ≤ m.start + t.length; omega

theorem identifyJournals_ok [UnicodeDB] {line : Str} {pats : List (Str × Re)} :
    ∀ (keys : List Str) (st : Titles), TitlesOk line st →
      (∀ t ∈ keys, t ≠ [] ∧ '_' ∉ t ∧ ∃ r, dget pats t = some r ∧ TitleRe t r) →
      keys.Pairwise (fun a b => b.length ≤ a.length) → (∀ p ∈ st.found, ∀ t ∈ keys, t.length ≤ p.2.length) →
      ∃ st', keys.foldlM (titleLoop pats) st = .ok st' ∧ TitlesOk line st' ∧
        (∃ new, st'.found = st.found ++ new ∧ ∀ p ∈ new, p.2 ∈ keys) ∧
        ∀ t ∈ keys, (∃ x t', t = x :: t' ∧ isWord x = true) → ∀ i, Alone t line i →
          ∃ p ∈ st'.found, t.length ≤ p.2.length ∧ p.1 ≤ i + t.length ∧ i ≤ p.1 + p.2.length
  | [], st, h, _, _, _ => ⟨st, rfl, h, ⟨[], by simp, by simp⟩, by simp⟩
  | t :: keys, st, h, hk, hs, hl => by
    obtain ⟨ht, h_, r, hr, hre⟩ := hk t (by simp)
    obtain ⟨st1, e1, h1, ⟨new1, n1, n1'⟩, p1⟩ := titleLoop_ok hr hre ht h_ h
    obtain ⟨st2, e2, h2, ⟨new2, n2, n2'⟩, p2⟩ := identifyJournals_ok keys st1 h1 (fun t ht => hk t (by simp [ht])) hs.of_cons
      (fun p hp u hu => by
        rw [n1] at hp
        rcases List.mem_append.1 hp with hp | hp
        · exact hl p hp u (by simp [hu])
        · rw [n1' p hp]; exact List.rel_of_pairwise_cons hs hu)
    refine ⟨st2, by rw [List.foldlM_cons, e1]; exact e2, h2, ⟨new1 ++ new2, by rw [n2, n1, List.append_assoc], ?_⟩, ?_⟩
    · intro p hp
      rcases List.mem_append.1 hp with hp | hp
      · rw [n1' p hp]; simp
      · simp [n2' p hp]
    · intro u hu hw i ha
      rcases List.mem_cons.1 hu with rfl | hu
      · obtain ⟨p, hp, hp1, hp2⟩ := p1 hw i ha
        refine ⟨p, by rw [n2]; simp [hp], ?_, hp2⟩
        rcases hp1 with hp1 | hp1
        · exact hl p hp1 u (by simp)
        · rw [hp1]; exact Nat.le_refl _
      · exact p2 u hu hw i ha

/-! ### The knowledge base of journals -/

theorem buildJournals_pats [UnicodeDB] (pairs : List (Str × Str)) :
    ∀ t ∈ (buildJournals pairs).keys, ∃ r, dget (buildJournals pairs).pats t = some r ∧ TitleRe t r := by
  have step1 : ∀ (l : List (Str × Str)) (kb : JournalKb), (∀ t ∈ kb.keys, ∃ r, dget kb.pats t = some r ∧ TitleRe t r) →
      ∀ t ∈ (l.foldl seekStep kb).keys, ∃ r, dget (l.foldl seekStep kb).pats t = some r ∧ TitleRe t r := by
    intro l
    induction l with
    | nil => intro kb h; exact h
    | cons p l ih =>
      intro kb h
      refine ih _ fun t ht => ?_
      simp only [seekStep, List.mem_append, List.mem_singleton] at ht ⊢
      rw [dget_dset]
      split
      · next e => exact ⟨_, rfl, .inl (by rw [e])⟩
      · next e =>
        rcases ht with ht | ht
        · exact h t ht
        · exact absurd ht.symm e
  have step2 : ∀ (l : List Str) (kb : JournalKb), (∀ t ∈ kb.keys, ∃ r, dget kb.pats t = some r ∧ TitleRe t r) →
      ∀ t ∈ (l.foldl replStep kb).keys, ∃ r, dget (l.foldl replStep kb).pats t = some r ∧ TitleRe t r := by
    intro l
    induction l with
    | nil => intro kb h; exact h
    | cons p l ih =>
      intro kb h
      refine ih _ ?_
      unfold replStep
      split
      · exact h
      · intro t ht
        simp only [List.mem_append, List.mem_singleton] at ht ⊢
        rw [dget_dset]
        split
        · next e => exact ⟨_, rfl, .inr (by rw [e])⟩
        · next e =>
          rcases ht with ht | ht
          · exact h t ht
          · exact absurd ht.symm e
  intro t ht
  exact step2 _ _ (step1 pairs ⟨[], [], []⟩ (by simp)) t ((sortBy_perm _).mem_iff.1 ht)

theorem buildJournals_sorted [UnicodeDB] (pairs : List (Str × Str)) :
    (buildJournals pairs).keys.Pairwise (fun a b => b.length ≤ a.length) := by
  have := sortBy_sorted (le := fun (a b : Str) => decide (b.length ≤ a.length))
    (fun a b => by simp only [Bool.or_eq_true, decide_eq_true_eq]; omega)
    (fun a b c h1 h2 => by simp only [decide_eq_true_eq] at *; omega)
    ((replTerms pairs).foldl replStep (pairs.foldl seekStep ⟨[], [], []⟩)).keys
  exact this.imp fun h => by simpa using h

theorem replace_char (s : Str) (c d : Char) : replace s [c] [d] = s.map fun x => if x = c then d else x := by
  unfold replace
  induction s with
  | nil => rfl
  | cons x s ih =>
    by_cases h : x = c
    · subst h
      simp [replaceGo, List.isPrefixOf, ih]
    · simp [replaceGo, List.isPrefixOf, ih, h, Ne.symm h]

theorem sub_chars [UnicodeDB] (k : CSet) (d : Char) (s : Str) : sub (.set k) (fun _ => [d]) s = s.map fun x => if k.mem x then d else x := by
  suffices H : ∀ pre ps, Scanned (.set k) pre s ps → ps.flatMap (Piece.out fun _ => [d]) = s.map fun x => if k.mem x then d else x from
    H [] _ (scan_scanned' (by simp [Re.minLen]) s)
  intro pre ps h
  induction h with
  | nil => rfl
  | @ch pre c t ps hn _ ih =>
    have : k.mem c = false := by
      cases hk : k.mem c with
      | false => rfl
      | true => exact absurd ⟨[c], t, rfl, c, rfl, hk⟩ ((matchHere_none _ _ _).1 hn)
    simp [Piece.out, ih, this]
  | @hit pre t ps m hm _ _ ih =>
    obtain ⟨rest, e, c, hc, hk⟩ := matchHere_sem hm
    rw [hc]
    simp [Piece.out, ih, hk]

theorem seekPhrase_eq [UnicodeDB] (s : Str) : seekPhrase s = searchTerm s := by
  rw [seekPhrase, replace_char]; rfl

theorem replPhrase_plain [UnicodeDB] (s : Str) : PlainTitle s (replPhrase s) := by
  refine ⟨(compressSpaces (sub Rx.re_punctuation (fun _ => [' ']) (upper s))).2, ?_, sub_multi_adj _, rfl⟩
  have h := squeezes_pieces (multi_hits (scan_scanned' multi_minLen (sub Rx.re_punctuation (fun _ => [' ']) (upper s))))
  rw [scan_orig] at h
  have e : ((upper s).map fun c => if c ∈ py! ".,;'()-" then ' ' else c) = sub Rx.re_punctuation (fun _ => [' ']) (upper s) := by
    rw [Rx.re_punctuation, sub_chars]
    apply List.map_congr_left
    intro c _
    simp [CSet.mem, CItem.mem]
  rw [e]
  exact h

/-- Patterns, standard titles and search terms have the same keys. -/
structure KbOk (kb : JournalKb) : Prop where
  pats : ∀ t, (dget kb.pats t).isSome ↔ t ∈ kb.keys
  std : ∀ t, (dget kb.std t).isSome ↔ t ∈ kb.keys

theorem kbOk_add {kb : JournalKb} (h : KbOk kb) (k : Str) (r : Re) (v : Str) :
    KbOk ⟨dset kb.pats k r, dset kb.std k v, kb.keys ++ [k]⟩ := by
  constructor <;> intro t <;> simp only [dget_dset, List.mem_append, List.mem_singleton]
  · split
    · next e => simp [e]
    · next e => rw [h.pats t]; simp [Ne.symm e]
  · split
    · next e => simp [e]
    · next e => rw [h.std t]; simp [Ne.symm e]

theorem kbOk_seek [UnicodeDB] (l : List (Str × Str)) : ∀ kb, KbOk kb → KbOk (l.foldl seekStep kb) := by
  induction l with
  | nil => intro kb h; exact h
  | cons p l ih => intro kb h; exact ih _ (kbOk_add h _ _ _)

theorem kbOk_repl [UnicodeDB] (l : List Str) : ∀ kb, KbOk kb → KbOk (l.foldl replStep kb) := by
  induction l with
  | nil => intro kb h; exact h
  | cons p l ih =>
    intro kb h
    refine ih _ ?_
    unfold replStep
    split
    · exact h
    · exact kbOk_add h _ _ _

theorem seek_keys [UnicodeDB] (l : List (Str × Str)) : ∀ kb, (l.foldl seekStep kb).keys = kb.keys ++ l.map fun p => seekPhrase p.1 := by
  induction l with
  | nil => intro kb; simp
  | cons p l ih => intro kb; rw [List.foldl_cons, ih]; simp [seekStep]

/-- The last pair given for a term counts. -/
theorem seek_std [UnicodeDB] (l : List (Str × Str)) (t : Str) : ∀ kb,
    dget (l.foldl seekStep kb).std t = ((l.reverse.find? fun p => seekPhrase p.1 == t).map (·.2)).or (dget kb.std t) := by
  induction l with
  | nil => intro kb; rfl
  | cons p l ih =>
    intro kb
    rw [List.foldl_cons, ih, List.reverse_cons, List.find?_append]
    cases h : l.reverse.find? fun p => seekPhrase p.1 == t with
    | some q => simp
    | none =>
      simp only [Option.none_or, seekStep, dget_dset]
      by_cases e : seekPhrase p.1 = t
      · simp [e]
      · simp [e]

/-- Adding replacement terms keeps what is there and adds the missing ones. -/
theorem repl_keeps [UnicodeDB] (l : List Str) : ∀ kb, KbOk kb →
    (∃ new, (l.foldl replStep kb).keys = kb.keys ++ new ∧ new.Nodup ∧ ∀ k ∈ new, k ∉ kb.keys ∧ ∃ r ∈ l, replPhrase r = k) ∧
    (∀ t, (dget kb.std t).isSome → dget (l.foldl replStep kb).std t = dget kb.std t) ∧
    (∀ r ∈ l, replPhrase r ∈ (l.foldl replStep kb).keys) ∧
    (∀ t r, dget kb.std t = none → dget (l.foldl replStep kb).std t = some r → (l.find? fun r => replPhrase r == t) = some r) := by
  induction l with
  | nil =>
    intro kb _
    exact ⟨⟨[], by simp, by simp, by simp⟩, fun _ _ => rfl, by simp, fun t r h1 h2 => by rw [List.foldl_nil, h1] at h2; cases h2⟩
  | cons x l ih =>
    intro kb h
    by_cases hx : (dget kb.pats (replPhrase x)).isSome
    · have e : replStep kb x = kb := by unfold replStep; rw [if_pos hx]
      obtain ⟨⟨new, n1, n2, n3⟩, h2, h3, h4⟩ := ih kb h
      rw [List.foldl_cons, e]
      refine ⟨⟨new, n1, n2, fun k hk => ⟨(n3 k hk).1, ?_⟩⟩, h2, ?_, ?_⟩
      · obtain ⟨r, hr, e⟩ := (n3 k hk).2
        exact ⟨r, by simp [hr], e⟩
      · intro r hr
        rcases List.mem_cons.1 hr with rfl | hr
        · rw [n1]; exact List.mem_append_left _ ((h.pats _).1 hx)
        · exact h3 r hr
      · intro t r ht hr
        rw [List.find?_cons]
        have : replPhrase x ≠ t := by
          rintro rfl
          have := (h.std (replPhrase x)).2 ((h.pats _).1 hx)
          rw [ht] at this; cases this
        rw [beq_false_of_ne this]
        exact h4 t r ht hr
    · have e : replStep kb x = ⟨dset kb.pats (replPhrase x) (replRe (replPhrase x)), dset kb.std (replPhrase x) x, kb.keys ++ [replPhrase x]⟩ := by
        unfold replStep; rw [if_neg hx]
      have hnot : replPhrase x ∉ kb.keys := fun hm => hx ((h.pats _).2 hm)
      obtain ⟨⟨new, n1, n2, n3⟩, h2, h3, h4⟩ := ih (replStep kb x) (by rw [e]; exact kbOk_add h _ _ _)
      rw [List.foldl_cons]
      refine ⟨⟨replPhrase x :: new, by rw [n1, e]; simp, ?_, ?_⟩, ?_, ?_, ?_⟩
      · refine List.nodup_cons.2 ⟨fun hm => ?_, n2⟩
        have := (n3 _ hm).1
        rw [e] at this
        simp at this
      · intro k hk
        rcases List.mem_cons.1 hk with rfl | hk
        · exact ⟨hnot, x, by simp, rfl⟩
        · obtain ⟨a, r, hr, er⟩ := n3 k hk
          rw [e] at a
          exact ⟨fun hm => a (by simp [hm]), r, by simp [hr], er⟩
      · intro t ht
        have hne : replPhrase x ≠ t := by
          rintro rfl
          exact hnot ((h.std _).1 ht)
        have e2 : dget (replStep kb x).std t = dget kb.std t := by rw [e]; simp [dget_dset, hne]
        rw [h2 t (by rw [e2]; exact ht), e2]
      · intro r hr
        rcases List.mem_cons.1 hr with rfl | hr
        · rw [n1, e]; simp
        · exact h3 r hr
      · intro t r ht hr
        rw [List.find?_cons]
        by_cases hne : replPhrase x = t
        · rw [hne, beq_self_eq_true]
          have e2 : dget (replStep kb x).std t = some x := by rw [e]; simp [dget_dset, hne]
          rw [h2 t (by rw [e2]; rfl), e2] at hr
          exact hr
        · rw [beq_false_of_ne hne]
          refine h4 t r ?_ hr
          rw [e]; simp [dget_dset, hne, ht]

theorem replTerms_mem {pairs : List (Str × Str)} {r : Str} : r ∈ replTerms pairs ↔ ∃ p ∈ pairs, p.2 = r := by
  have : ∀ (l : List (Str × Unit)) (d : List (Str × Unit)), r ∈ (dupdate d l).map (·.1) ↔ r ∈ d.map (·.1) ∨ r ∈ l.map (·.1) := by
    intro l
    induction l with
    | nil => intro d; simp [dupdate]
    | cons p l ih =>
      intro d
      rw [dupdate, List.foldl_cons]
      have := ih (dset d p.1 p.2)
      rw [dupdate] at this
      rw [this, dset_keys]
      split
      · next h =>
        rw [dget_isSome] at h
        constructor
        · rintro (h' | h')
          · exact .inl h'
          · exact .inr (by simp only [List.map_cons]; exact List.mem_cons_of_mem _ h')
        · rintro (h' | h')
          · exact .inl h'
          · rcases List.mem_cons.1 h' with rfl | h'
            · exact .inl h
            · exact .inr h'
      · simp only [List.map_cons, List.mem_append, List.mem_cons, List.not_mem_nil, or_false, or_assoc]
  rw [replTerms, this]
  simp

/-! ### Report numbers and ibids -/

theorem gstart_within [UnicodeDB] {r : Re} {adv : Bool} {pre post : Str} {m : Match} (h : matchHere r adv pre post = some m) {g : Nat}
    {x : Str} {i : Nat} (hx : m.group g = some x) (hi : m.gstart g = some i) :
    ∃ p q, pre.reverse ++ post = p ++ x ++ q ∧ p.length = i := by
  unfold Match.group at hx
  unfold Match.gstart at hi
  cases hc : m.caps.find? (·.g == g) with
  | none => rw [hc] at hx; cases hx
  | some c =>
    rw [hc] at hx hi
    cases hx; cases hi
    exact ((matchHere_ok h).1.caps c (List.mem_of_find?_eq_some hc)).2

/-- What holds of the report numbers recorded so far. -/
structure RepsOk (stds : List ((Nat × Str) × Str)) (line : Str) (st : Repnums) : Prop where
  len : st.line.length = line.length
  keys : st.lens.map (·.1) = st.repls.map (·.1)
  nodup : (st.lens.map (·.1)).Nodup
  within : ∀ p ∈ st.lens, p.1 + p.2 ≤ line.length ∧ ∀ k, p.1 ≤ k → k < p.1 + p.2 → st.line[k]? = some '_'
  rest : ∀ k < line.length, st.line[k]? = some '_' ∨ st.line[k]? = line[k]?
  std : ∀ p ∈ st.repls, ∃ q ∈ stds, ∃ x, p.2 = q.2 ++ x

theorem dset_mem {κ α : Type} [DecidableEq κ] {d : List (κ × α)} {k : κ} {v : α} {p : κ × α} (h : p ∈ dset d k v) : p ∈ d ∨ p = (k, v) := by
  induction d with
  | nil => exact .inr (List.mem_singleton.1 h)
  | cons q d ih =>
    obtain ⟨j, w⟩ := q
    rw [dset] at h
    split at h
    · next e =>
      rcases List.mem_cons.1 h with h | h
      · exact .inr (by rw [h, e])
      · exact .inl (List.mem_cons_of_mem _ h)
    · rcases List.mem_cons.1 h with h | h
      · exact .inl (by rw [h]; simp)
      · rcases ih h with h | h
        · exact .inl (List.mem_cons_of_mem _ h)
        · exact .inr h

theorem repnumStep_ok [UnicodeDB] {stds : List ((Nat × Str) × Str)} {line std : Str} (hstd : ∃ q ∈ stds, q.2 = std) {st st' : Repnums} {m : Match}
    (h : RepsOk stds line st) (hm : ∀ x i, m.group 1 = some x → m.gstart 1 = some i → i + x.length ≤ line.length)
    (he : repnumStep std st m = .ok st') : RepsOk stds line st' := by
  unfold repnumStep at he
  split at he
  · next g start numn h1 h2 _ =>
    cases he
    have hle := hm g start h1 h2
    have hle' : start + g.length ≤ st.line.length := by rw [h.len]; exact hle
    refine ⟨?_, ?_, ?_, ?_, ?_, ?_⟩
    · show (splice st.line start (underscores g.length) (start + g.length)).length = _
      rw [splice_length hle', h.len]
    · show (dset st.lens start g.length).map (·.1) = (dset st.repls start _).map (·.1)
      rw [dset_keys, dset_keys, h.keys]
      have : (dget st.lens start).isSome = (dget st.repls start).isSome := by
        rw [Bool.eq_iff_iff, dget_isSome, dget_isSome, h.keys]
      rw [this]
    · exact dset_nodup _ _ _ h.nodup
    · intro p hp
      have hget : ∀ k, (splice st.line start (underscores g.length) (start + g.length))[k]? = _ := splice_get hle'
      show p.1 + p.2 ≤ line.length ∧ ∀ k, p.1 ≤ k → k < p.1 + p.2 →
        (splice st.line start (underscores g.length) (start + g.length))[k]? = some '_'
      rcases dset_mem hp with hp | rfl
      · refine ⟨(h.within p hp).1, fun k h1 h2 => ?_⟩
        rw [hget]; split
        · rfl
        · exact (h.within p hp).2 k h1 h2
      · exact ⟨hle, fun k h1 h2 => by rw [hget, if_pos ⟨h1, h2⟩]⟩
    · intro k hk
      show (splice st.line start (underscores g.length) (start + g.length))[k]? = some '_' ∨
        (splice st.line start (underscores g.length) (start + g.length))[k]? = line[k]?
      rw [splice_get hle']
      split
      · exact .inl rfl
      · exact h.rest k hk
    · intro p hp
      rcases dset_mem hp with hp | rfl
      · exact h.std p hp
      · obtain ⟨q, hq, e⟩ := hstd
        exact ⟨q, hq, repnumNumeration numn, by rw [e]⟩
  · cases he

theorem foldlM_keeps {α β : Type} {P : β → Prop} {f : β → α → Py β} : ∀ {l : List α} {b c : β}, l.foldlM f b = .ok c → P b →
    (∀ b a c, a ∈ l → P b → f b a = .ok c → P c) → P c
  | [], b, c, h, hb, _ => by cases h; exact hb
  | a :: l, b, c, h, hb, hf => by
    rw [List.foldlM_cons] at h
    obtain ⟨d, h1, h2⟩ := bind_ok h
    exact foldlM_keeps h2 (hf b a d (by simp) hb h1) fun b a c ha => hf b a c (by simp [ha])

theorem repnumCateg_ok [UnicodeDB] {pats : List ((Nat × Str) × Re)} (hp : ∀ p ∈ pats, 0 < p.2.minLen) {stds : List ((Nat × Str) × Str)}
    {line : Str} {st st' : Repnums} {c : Nat × Str} (h : RepsOk stds line st) (he : repnumCateg pats stds st c = .ok st') : RepsOk stds line st' := by
  unfold repnumCateg at he
  cases hr : dget pats c with
  | none => rw [hr] at he; cases he
  | some r =>
    cases hs : dget stds c with
    | none => rw [hr, hs] at he; cases he
    | some std =>
      rw [hr, hs] at he
      have he' : (finditer r st.line).foldlM (repnumStep std) st = .ok st' := he
      obtain ⟨hh, -⟩ := scanned_hits (scan_scanned' (hp _ (dget_mem _ _ _ hr)) st.line)
      refine foldlM_keeps (P := RepsOk stds line) he' h fun b m c hm hb hc => ?_
      refine repnumStep_ok ⟨(_, std), dget_mem _ _ _ hs, rfl⟩ hb ?_ hc
      intro x i hx hi
      obtain ⟨-, -, a, b', e, hst, -, hmh⟩ := hh m hm
      obtain ⟨p, q, e1, rfl⟩ := gstart_within hmh hx hi
      have : st.line = p ++ x ++ q := by rw [e, ← e1]; simp
      rw [← h.len, this]
      simp

theorem identifyIbids_ok [UnicodeDB] (line : Str) :
    (∀ p ∈ (identifyIbids line).1, p.2 ≠ [] ∧ AtPos line p.1 p.2 ∧ ∃ b, Sem Rx.re_ibid (line.take p.1).reverse p.2 b) ∧
    Disjoint (identifyIbids line).1 ∧ Overwritten (identifyIbids line).1 line (identifyIbids line).2 := by
  have hmin : 0 < Rx.re_ibid.minLen := by decide
  obtain ⟨hh, hpw⟩ := scanned_hits (scan_scanned' hmin line)
  have key : ∀ (ms : List Match) (f : List (Nat × Str)) (l : Str),
      (∀ m ∈ ms, m.txt ≠ [] ∧ AtPos line m.start m.txt) → ms.Pairwise (fun m n => m.start + m.txt.length ≤ n.start) →
      (∀ p ∈ f, ∀ m ∈ ms, p.1 + p.2.length ≤ m.start ∧ p.2 ≠ []) → Disjoint f → Overwritten f line l →
      (ms.foldl (fun st m => (dset st.1 m.start m.txt, splice st.2 m.start (underscores m.txt.length) m.stop)) (f, l)).1 =
        f ++ ms.map (fun m => (m.start, m.txt)) ∧
      Disjoint (ms.foldl (fun st m => (dset st.1 m.start m.txt, splice st.2 m.start (underscores m.txt.length) m.stop)) (f, l)).1 ∧
      Overwritten (ms.foldl (fun st m => (dset st.1 m.start m.txt, splice st.2 m.start (underscores m.txt.length) m.stop)) (f, l)).1 line
        (ms.foldl (fun st m => (dset st.1 m.start m.txt, splice st.2 m.start (underscores m.txt.length) m.stop)) (f, l)).2 := by
    intro ms
    induction ms with
    | nil => intro f l _ _ _ h1 h2; exact ⟨by simp, h1, h2⟩
    | cons m ms ih =>
      intro f l hm hp hf hd ho
      obtain ⟨hne, hat⟩ := hm m (by simp)
      have hle := atPos_le hat hne
      have hle' : m.start + m.txt.length ≤ l.length := by rw [ho.1]; exact hle
      have hpos := List.length_pos_iff.2 hne
      have hfresh : m.start ∉ f.map (·.1) := by
        intro hmem
        obtain ⟨p, hp, e⟩ := List.mem_map.1 hmem
        have := hf p hp m (by simp)
        have := List.length_pos_iff.2 this.2
        omega
      rw [List.foldl_cons, dset_fresh _ hfresh]
      have := ih (f ++ [(m.start, m.txt)]) (splice l m.start (underscores m.txt.length) m.stop) (fun n hn => hm n (by simp [hn])) hp.of_cons
        (fun p hp' n hn => by
          rcases List.mem_append.1 hp' with hp' | hp'
          · exact hf p hp' n (by simp [hn])
          · rw [List.mem_singleton.1 hp']; exact ⟨List.rel_of_pairwise_cons hp hn, hne⟩)
        (List.pairwise_append.2 ⟨hd, List.pairwise_singleton _ _, fun p hp' q hq => by
          rw [List.mem_singleton.1 hq]; exact .inl (hf p hp' m (by simp)).1⟩)
        ⟨by rw [Match.stop, splice_length hle', ho.1], fun k hk hc => by
          rw [Match.stop, splice_get hle']
          split
          · rfl
          · rw [covered_append, covered_one] at hc
            rcases hc with hc | hc
            · exact ho.2.1 k hk hc
            · exact absurd hc ‹_›, fun k hc => by
          rw [covered_append, covered_one] at hc
          rw [Match.stop, splice_get hle', if_neg (fun h => hc (.inr h))]
          exact ho.2.2 k (fun h => hc (.inl h))⟩
      refine ⟨by rw [this.1]; simp, this.2⟩
  have hat : ∀ m ∈ finditer Rx.re_ibid line, m.txt ≠ [] ∧ AtPos line m.start m.txt ∧ ∃ b, Sem Rx.re_ibid (line.take m.start).reverse m.txt b := by
    intro m hm
    obtain ⟨-, hne, a, b, e, hs, hsem, -⟩ := hh m hm
    have hs' : m.start = a.length := by simpa using hs
    refine ⟨hne, ?_, b, ?_⟩
    · rw [hs', e]; exact atPos_append a m.txt b
    · rw [hs', e, List.take_left]; simpa using hsem
  obtain ⟨h1, h2, h3⟩ := key (finditer Rx.re_ibid line) [] line (fun m hm => ⟨(hat m hm).1, (hat m hm).2.1⟩) hpw (by simp) .nil
    ⟨rfl, fun k _ hc => by (obtain ⟨p, hp, -⟩ := hc; cases hp), fun _ _ => rfl⟩
  refine ⟨fun p hp => ?_, h2, h3⟩
  have hp' : p ∈ ([] : List (Nat × Str)) ++ (finditer Rx.re_ibid line).map (fun m => (m.start, m.txt)) := by
    rw [← h1]; exact hp
  obtain ⟨m, hm, rfl⟩ := List.mem_map.1 (by simpa using hp')
  exact hat m hm

end Py
