import Verif.Lemmas.Tokens
import Verif.Lemmas.Doi3
import Verif.Lemmas.Automaton

/-!
# Helper lemmas: a line with several DOIs, from the line to the marked line
-/

namespace Py
open Spec
open scoped List

variable [UnicodeDB]

/-- A DOI that is written plainly. -/
def PlainDoi (t : DoiItem) : Prop :=
  (t.lead = [] ∨ DoiWord t.lead) ∧ DoiText t.doi t.doi ∧ (∀ c ∈ t.lead ++ t.doi, c ∈ calmChars ++ py! "/_") ∧ t.doi.count '/' = 1

theorem plainDoi_first {t : DoiItem} (h : PlainDoi t) : ∃ c r, t.lead ++ t.doi = c :: r ∧ 'h' ∉ caseVariants c := by
  have one : 'h' ∉ caseVariants '1' := by
    have : caseVariants '1' = ['1', swapCase '1'] := rfl
    rw [this]; decide
  have par : 'h' ∉ caseVariants '(' := by
    have : caseVariants '(' = ['(', swapCase '('] := rfl
    rw [this]; decide
  obtain ⟨hw, ⟨ds, ps, sl, t', hd, -⟩, hc, -⟩ := h
  rcases hw with hw | ⟨o, x, s1, k, q, s2, hx, ho, ⟨x1, y1, z1, hf, hx1, -, -⟩, -⟩
  · exact ⟨'1', _, by rw [hw, hd]; rfl, one⟩
  · rcases ho with rfl | rfl
    · cases hf with
      | @cons c _ x' _ f1 hf =>
        refine ⟨c, x' ++ s1 ++ k ++ q ++ s2 ++ t.doi, by rw [hx]; simp, ?_⟩
        have hm : c ∈ calmChars ++ py! "/_" := hc c (by rw [hx]; simp)
        have ha : isAscii c = true := (by decide : ∀ c ∈ calmChars ++ py! "/_", isAscii c = true) c hm
        have hv : caseVariants c = [c, swapCase c] := by simp [caseVariants, ha]
        rw [hv] at f1 ⊢
        exact (by decide : ∀ c ∈ calmChars ++ py! "/_", ∀ x ∈ ['D', 'd'], x ∈ [c, swapCase c] → 'h' ∉ [c, swapCase c]) c hm x1 hx1 f1
    · exact ⟨'(', x ++ s1 ++ k ++ q ++ s2 ++ t.doi, by rw [hx]; simp, par⟩

/-- The match at the place of a DOI. -/
theorem match_item {t : DoiItem} {rest b : Str} (h : PlainDoi t) (hlast : ∀ y r, rest = y ++ r → y ≠ [] → (∀ c ∈ y, DoiChar c) → y.getLast? = some '.') {m : Match}
    (hm : matchHere Rx.re_doi false b ((t.lead ++ t.doi) ++ rest) = some m) : m.txt = t.lead ++ t.doi ∧ m.tgroup G.doi = t.doi := by
  obtain ⟨lead', raw, d', r, e1, e2, hl, hd, hg, hmax⟩ := match_doi_longest hm
  have hp : '%' ∉ t.doi := fun hc => absurd (h.2.2.1 '%' (by simp [hc])) (by decide)
  have hl' : '1' ∉ lead' := by
    rcases hl with rfl | hl | ⟨y, hy, hf⟩
    · simp
    · exact one_doiWord hl
    · exfalso
      have : ∃ y', y = 'h' :: y' := by
        simp only [List.mem_cons, List.not_mem_nil, or_false] at hy
        rcases hy with rfl | rfl | rfl | rfl <;> exact ⟨_, rfl⟩
      obtain ⟨y', rfl⟩ := this
      obtain ⟨c, z, hz, hn⟩ := plainDoi_first h
      cases hf with
      | cons f1 hf =>
        rw [hz, e1] at e2
        simp only [List.cons_append, List.cons.injEq] at e2
        rw [e2.1] at hn
        exact hn f1
  have hl0 : '1' ∉ t.lead := by
    rcases h.1 with hw | hw
    · rw [hw]; simp
    · exact one_doiWord hw
  have st : ∀ {x y : Str}, DoiText x y → ∃ x', x = '1' :: x' := by
    rintro x y ⟨ds, ps, sl, t, rfl, -⟩
    exact ⟨_, rfl⟩
  obtain ⟨x, hx⟩ := st h.2.1
  obtain ⟨x', hx'⟩ := st hd
  obtain ⟨hll, -, e3⟩ := doi_split (p := fun c => c == '1') (a := t.lead) (a' := lead') (x := '1') (x' := '1') (r := x ++ rest) (r' := x' ++ r)
    (fun c hc => by simpa using fun e : c = '1' => hl0 (e ▸ hc)) (fun c hc => by simpa using fun e : c = '1' => hl' (e ▸ hc)) rfl rfl (by
      rw [e1, hx, hx'] at e2
      simpa using e2)
  obtain ⟨e5, -, -⟩ := doiText_unique h.2.1 hd hp (r := rest) (r' := r) (by rw [hx, hx']; simp [e3]) hlast hmax
  exact ⟨by rw [e1, e5, hll], by rw [hg, e5]⟩

/-- The pieces up to the first DOI. -/
theorem scan_item {t : DoiItem} {rest : Str} (h : PlainDoi t) (hlast : ∀ y r, rest = y ++ r → y ≠ [] → (∀ c ∈ y, DoiChar c) → y.getLast? = some '.')
    (hfirst : ∀ a b w r d, t.pre = a ++ b → b ≠ [] → b ++ (t.lead ++ t.doi) ++ rest = w ++ r → ¬ CitesDoi w d) : ∀ {a b q : Str} {ps : List Piece}, t.pre = a ++ b →
    Scanned Rx.re_doi q (b ++ (t.lead ++ t.doi) ++ rest) ps → ∃ (m : Match) (q' : Str) (ps' : List Piece), m.tgroup G.doi = t.doi ∧ ps = b.map .ch ++ (.hit m :: ps') ∧ Scanned Rx.re_doi q' rest ps'
  | a, [], q, ps, _, hs => by
    rw [List.nil_append] at hs
    have hne : t.lead ++ t.doi ≠ [] := by
      intro e
      have : t.doi = [] := (List.append_eq_nil_iff.1 e).2
      have h1 := h.2.2.2
      rw [this] at h1
      cases h1
    generalize hX : (t.lead ++ t.doi) ++ rest = X at hs
    cases hs with
    | nil => exact absurd (List.append_eq_nil_iff.1 hX).1 hne
    | @ch _ c _ ps hn _ =>
      refine absurd ⟨t.lead ++ t.doi, rest, hX.symm, sem_doi.2 ⟨t.doi, t.lead, t.doi, rfl, ?_, h.2.1⟩⟩ ((matchHere_none _ _ _).1 hn)
      rcases h.1 with hw | hw
      · exact .inl hw
      · exact .inr (.inl hw)
    | @hit _ t' ps m hm hmn hs =>
      have hm' := hm
      rw [← hX] at hm'
      obtain ⟨e1, e2⟩ := match_item h hlast hm'
      have et : t' = rest := by
        rw [e1] at hX
        exact (List.append_cancel_left hX).symm
      subst et
      exact ⟨m, _, ps, e2, rfl, hs⟩
  | a, c :: b, q, ps, e, hs => by
    generalize hX : (c :: b) ++ (t.lead ++ t.doi) ++ rest = X at hs
    cases hs with
    | nil => simp at hX
    | @ch _ c' t' ps hn hs =>
      simp only [List.cons_append, List.cons.injEq] at hX
      obtain ⟨rfl, rfl⟩ := hX
      obtain ⟨m, q', ps', h1, h2, h3⟩ := scan_item h hlast hfirst (a := a ++ [c]) (b := b) (by rw [e]; simp) hs
      exact ⟨m, q', ps', h1, by rw [h2]; rfl, h3⟩
    | @hit _ t' ps m hm hmn hs =>
      obtain ⟨lead', raw, d', r, e1, e2, hl, hd, -, -⟩ := match_doi_longest hm
      exact absurd ⟨lead', raw, e1, hl, hd⟩ (hfirst a (c :: b) m.txt t' d' e (by simp) hX)

/-- The line with marks in place of the DOIs. -/
abbrev marked (toks : List DoiItem) : List (Str × Str) := toks.map fun t => (t.pre, doiMark)

omit [UnicodeDB] in
theorem chars_out (s : Str) : (s.map Piece.ch).flatMap (Piece.out fun _ => doiMark) = s := by
  induction s with
  | nil => rfl
  | cons c s ih => rw [List.map_cons, List.flatMap_cons, ih]; rfl

omit [UnicodeDB] in
theorem chars_match (s : Str) : (s.map Piece.ch).filterMap Piece.match? = [] := by
  induction s with
  | nil => rfl
  | cons c s ih => rw [List.map_cons, List.filterMap_cons]; exact ih

theorem scan_items {tail : Str} (ht : Calm tail) : ∀ {toks : List DoiItem} {q : Str} {ps : List Piece}, (∀ t ∈ toks, PlainDoi t) → Apart toks tail →
    Scanned Rx.re_doi q (inLine (toks.map DoiItem.written) tail) ps →
    ps.flatMap (Piece.out fun _ => doiMark) = inLine (marked toks) tail ∧ (ps.filterMap Piece.match?).map (·.tgroup G.doi) = toks.map (·.doi)
  | [], q, ps, _, _, hs => by
    have := calm_scan ht hs
    rw [this, chars_out, chars_match]
    exact ⟨rfl, rfl⟩
  | t :: ts, q, ps, hp, ha, hs => by
    obtain ⟨h1, h2, h3⟩ := ha
    obtain ⟨m, q', ps', e1, e2, hs'⟩ := scan_item (t := t) (hp t (by simp)) h2 h1 (a := []) (b := t.pre) rfl hs
    obtain ⟨r1, r2⟩ := scan_items ht (fun t h => hp t (by simp [h])) h3 hs'
    rw [e2, List.flatMap_append, List.filterMap_append, List.flatMap_cons, chars_out, chars_match, r1, List.filterMap_cons]
    simp only [Piece.match?, List.nil_append, List.map_cons, r2, e1]
    exact ⟨by simp [Piece.out, inLine, marked], trivial⟩

/-- The DOIs are taken out of the line. -/
theorem dois_list {lib : Lib} (hu : ∀ s, '%' ∉ s → lib.unquote s = s) {toks : List DoiItem} {tail : Str} (ht : Calm tail) (hp : ∀ t ∈ toks, PlainDoi t) (ha : Apart toks tail) :
    tagDois lib (inLine (toks.map DoiItem.written) tail) = (inLine (marked toks) tail, toks.map (·.doi)) := by
  obtain ⟨h1, h2⟩ := scan_items ht hp ha (scan_scanned' doi_minLen _)
  have key : ∀ (ms : List Match) (ts : List DoiItem), (∀ t ∈ ts, PlainDoi t) → ms.map (·.tgroup G.doi) = ts.map (·.doi) → ms.map (doiOf lib) = ts.map (·.doi) := by
    intro ms
    induction ms with
    | nil => intro ts _ h; cases ts with
      | nil => rfl
      | cons => cases h
    | cons m ms ih =>
      intro ts hp h
      cases ts with
      | nil => cases h
      | cons t ts =>
        simp only [List.map_cons, List.cons.injEq] at h
        have hp1 : '%' ∉ t.doi := fun hc => absurd ((hp t (by simp)).2.2.1 '%' (by simp [hc])) (by decide)
        have hd : doiOf lib m = t.doi := by
          unfold doiOf
          rw [h.1, hu _ hp1]
          split <;> rfl
        rw [List.map_cons, hd, ih ts (fun t h => hp t (by simp [h])) h.2, List.map_cons]
  rw [tagDois_eq, sub, finditer, h1, key _ _ hp h2]

/-! ### The marked line is clean -/

omit [UnicodeDB] in
theorem cut_after {P Q : Str} {d : Char} (hP : d ∉ P) : ∀ {a b : Str}, a ++ d :: b = P ++ d :: Q → (a = P ∧ b = Q) ∨ ∃ w, a = P ++ d :: w ∧ w ++ d :: b = Q := by
  intro a b e
  rcases List.append_eq_append_iff.1 e with ⟨w, h1, h2⟩ | ⟨w, h1, h2⟩
  · cases w with
    | nil => exact .inl ⟨by simpa using h1.symm, by simpa using h2⟩
    | cons x w =>
      rw [List.cons_append, List.cons.injEq] at h2
      rw [h1, h2.1] at hP
      simp at hP
  · cases w with
    | nil => exact .inl ⟨by simpa using h1, by simpa using h2.symm⟩
    | cons x w =>
      rw [List.cons_append, List.cons.injEq] at h2
      exact .inr ⟨w, by rw [h1, h2.1], h2.2.symm⟩

omit [UnicodeDB] in
/-- A calm text and a placeholder in front of a clean text. -/
theorem clean_more {pre n rest : Str} (hp : Calm pre) (hn : Calm (n ++ [' '])) (hr : CleanText rest) (hh : rest.head? ≠ some '/') :
    CleanText (pre ++ ('<' :: n ++ py! " />") ++ rest) := by
  have shape : pre ++ ('<' :: n ++ py! " />") ++ rest = pre ++ '<' :: ((n ++ [' ']) ++ '/' :: '>' :: rest) := by simp
  have hslash : ∀ {s : Str}, Calm s → '/' ∉ s := fun h hm => absurd (h.chars _ hm) (by decide)
  constructor
  · intro c hc
    rw [shape, List.mem_append, List.mem_cons, List.mem_append, List.mem_cons, List.mem_cons] at hc
    rcases hc with hc | rfl | hc | rfl | rfl | hc
    · exact List.mem_append_left _ (hp.chars c hc)
    · decide
    · exact List.mem_append_left _ (hn.chars c hc)
    · decide
    · decide
    · exact hr.1 c hc
  · rintro ⟨f, hf, x, hx, hfx⟩
    rw [shape] at hx
    by_cases h : f ∈ [[markChars.filter (· != ' '), ['/']], [['/'], markChars.filter (· != '>')]]
    · have cnt : (pre ++ '<' :: ((n ++ [' ']) ++ '/' :: '>' :: rest)) = (pre ++ '<' :: (n ++ [' '])) ++ '/' :: '>' :: rest := by simp
      have hno1 : '/' ∉ pre ++ '<' :: (n ++ [' ']) := by
        rw [List.mem_append, List.mem_cons, not_or, not_or]
        exact ⟨hslash hp, by decide, hslash hn⟩
      rw [cnt] at hx
      obtain ⟨u, v, e⟩ := hx
      rcases List.mem_cons.1 h with rfl | h
      · cases hfx with
        | @cons _ c _ _ h1 hfx => cases hfx with
          | @cons _ d _ _ h2 hfx =>
            cases hfx
            rw [List.mem_singleton.1 h2] at e
            rcases cut_after hno1 (a := u ++ [c]) (b := v) (by rw [← e]; simp) with ⟨h3, -⟩ | ⟨w, h3, h4⟩
            · have hl := congrArg List.getLast? h3
              have hs : pre ++ '<' :: (n ++ [' ']) = (pre ++ '<' :: n) ++ [' '] := by simp
              rw [hs, List.getLast?_append, List.getLast?_append] at hl
              have : c = ' ' := by simpa using hl
              rw [this] at h1
              exact absurd h1 (by decide)
            · cases w with
              | nil => simp at h4
              | cons g w =>
                rw [List.cons_append, List.cons.injEq] at h4
                rcases List.eq_nil_or_concat w with rfl | ⟨w', z, rfl⟩
                · rw [← h4.2] at hh; simp at hh
                · have hz : c = z := by
                    have hl := congrArg List.getLast? h3
                    have hs : (pre ++ '<' :: (n ++ [' '])) ++ '/' :: g :: w'.concat z = ((pre ++ '<' :: (n ++ [' '])) ++ '/' :: g :: w') ++ [z] := by simp
                    rw [hs, List.getLast?_append, List.getLast?_append] at hl
                    simpa using hl
                  subst hz
                  exact hr.2 ⟨_, hf, [c, '/'], ⟨w', v, by rw [← h4.2]; simp⟩, .cons h1 (.cons (by simp) .nil)⟩
      · rw [List.mem_singleton] at h
        subst h
        cases hfx with
        | @cons _ c _ _ h1 hfx => cases hfx with
          | @cons _ d _ _ h2 hfx =>
            cases hfx
            rw [List.mem_singleton.1 h1] at e
            rcases cut_after hno1 (a := u) (b := d :: v) (by rw [← e]; simp) with ⟨-, h3⟩ | ⟨w, -, h4⟩
            · rw [(List.cons.inj h3).1] at h2
              exact absurd h2 (by decide)
            · cases w with
              | nil => simp at h4
              | cons g w =>
                rw [List.cons_append, List.cons.injEq] at h4
                exact hr.2 ⟨_, hf, ['/', d], ⟨w, v, by rw [← h4.2]; simp⟩, .cons (by simp) (.cons h2 .nil)⟩
    · have hcl : ∀ c ∈ ['<', '/', '>'], c ∉ x := by
        have h1 : ∀ f ∈ forbidden, f ∉ [[markChars.filter (· != ' '), ['/']], [['/'], markChars.filter (· != '>')]] → ∀ cs ∈ f, ∀ c ∈ ['<', '/', '>'], c ∉ cs := by decide +kernel
        have h2 := h1 f hf h
        clear h hx hf h1
        induction hfx with
        | nil => simp
        | cons h _ ih =>
          intro c hc hm
          rcases List.mem_cons.1 hm with rfl | hm
          · exact h2 _ (by simp) _ hc h
          · exact ih (fun cs h => h2 cs (by simp [h])) c hc hm
      have fin : ∀ {s : Str}, Calm s → ¬ x <:+: s := fun h hi => calm_not_bad h ⟨f, hf, x, hi, hfx⟩
      rcases infix_beside (hcl '<' (by simp)) hx with h | h
      · exact fin hp h
      rcases infix_beside (hcl '/' (by simp)) h with h | h
      · exact fin hn h
      rcases infix_beside (a := []) (hcl '>' (by simp)) h with h | h
      · exact hr.2 ⟨f, hf, x, h.trans List.nil_infix, hfx⟩
      · exact hr.2 ⟨f, hf, x, h, hfx⟩

omit [UnicodeDB] in
theorem calm_doiMark : Calm (py! "cds.DOI" ++ [' ']) :=
  ⟨by decide, by decide +kernel, by decide +kernel, by
    intro x hx hlen
    cases x with
    | nil => cases hlen
    | cons c x => exact ⟨c, by simp, (by decide : ∀ c ∈ py! "cds.DOI" ++ [' '], c ∉ py! "0123456789") c (hx.subset (by simp))⟩, by decide +kernel⟩

omit [UnicodeDB] in
theorem clean_list {tail : Str} (ht : Calm tail) : ∀ {toks : List DoiItem}, (∀ t ∈ toks, Calm t.pre) → CleanText (inLine (marked toks) tail) ∧ (inLine (marked toks) tail).head? ≠ some '/'
  | [], _ => by
    refine ⟨⟨fun c hc => List.mem_append_left _ (ht.chars c hc), calm_not_bad ht⟩, ?_⟩
    intro h
    exact absurd (ht.chars _ (List.mem_of_head? h)) (by decide)
  | t :: ts, hp => by
    obtain ⟨h1, h2⟩ := clean_list ht (toks := ts) fun t h => hp t (by simp [h])
    refine ⟨clean_more (n := py! "cds.DOI") (hp t (by simp)) calm_doiMark h1 h2, ?_⟩
    have hc := (hp t (by simp)).chars
    show (t.pre ++ doiMark ++ _).head? ≠ _
    cases h : t.pre with
    | nil => simp
    | cons c p =>
      rw [h] at hc
      have := hc c (by simp)
      intro e
      simp only [List.cons_append, List.head?_cons, Option.some.injEq] at e
      rw [e] at this
      exact absurd this (by decide)

/-! ### The line is not repaired -/

/-- Every slash is behind a character of a word. -/
def SlashesBehindWords (s : Str) : Prop := ∀ u v, s = u ++ '/' :: v → ∃ u' c, u = u' ++ [c] ∧ isWord c = true

theorem slashes_append {a b : Str} (ha : SlashesBehindWords a) (hb : SlashesBehindWords b) : SlashesBehindWords (a ++ b) := by
  intro u v e
  rcases List.append_eq_append_iff.1 e with ⟨w, h1, h2⟩ | ⟨w, h1, h2⟩
  · obtain ⟨u', c, h3, h4⟩ := hb w v h2
    exact ⟨a ++ u', c, by rw [h1, h3]; simp, h4⟩
  · cases w with
    | nil =>
      rw [List.nil_append] at h2
      obtain ⟨u', c, h3, -⟩ := hb [] v h2.symm
      simp at h3
    | cons x w =>
      rw [List.cons_append, List.cons.injEq] at h2
      rw [← h2.1] at h1
      exact ha u w h1

theorem slashes_none {a : Str} (h : '/' ∉ a) : SlashesBehindWords a := fun u v e => absurd (by rw [e]; simp) h

theorem slashes_doi {d : Str} (h : DoiText d d) (h1 : d.count '/' = 1) : SlashesBehindWords d := by
  intro u v e
  obtain ⟨ds, ps, sl, t, e2, d1, -, d3, d4, -, -, -, -, e3⟩ := h
  have e4 : d = (py! "10." ++ ds ++ ps.flatMap ('.' :: ·)) ++ '/' :: t := by rw [e3]; simp
  have c1 : '/' ∉ u := by
    rw [e, List.count_append, List.count_cons_self] at h1
    exact List.count_eq_zero.1 (by omega)
  have c2 : '/' ∉ py! "10." ++ ds ++ ps.flatMap ('.' :: ·) := by
    rw [e4, List.count_append, List.count_cons_self] at h1
    exact List.count_eq_zero.1 (by omega)
  obtain ⟨rfl, -⟩ := cut_at c1 c2 (e.symm.trans e4)
  rcases List.eq_nil_or_concat ps with rfl | ⟨ps', p, rfl⟩
  · rcases List.eq_nil_or_concat ds with rfl | ⟨ds', c, rfl⟩
    · simp at d1
    · exact ⟨py! "10." ++ ds', c, by simp, isDec_isWord (d3 c (by simp))⟩
  · obtain ⟨hne, hw⟩ := d4 p (by simp)
    rcases List.eq_nil_or_concat p with rfl | ⟨p', c, rfl⟩
    · exact absurd rfl hne
    · exact ⟨py! "10." ++ ds ++ ps'.flatMap ('.' :: ·) ++ '.' :: p', c, by simp, hw c (by simp)⟩

theorem slashes_item {t : DoiItem} (h : PlainDoi t) : SlashesBehindWords (t.lead ++ t.doi) := by
  refine slashes_append (slashes_none ?_) (slashes_doi h.2.1 h.2.2.2)
  rcases h.1 with h | h
  · rw [h]; simp
  · exact slash_doiWord h

theorem slashes_line {tail : Str} (ht : Calm tail) : ∀ {toks : List DoiItem}, (∀ t ∈ toks, PlainDoi t ∧ Calm t.pre) → SlashesBehindWords (inLine (toks.map DoiItem.written) tail)
  | [], _ => slashes_none fun h => absurd (ht.chars _ h) (by decide)
  | t :: ts, h => slashes_append (slashes_append (slashes_none fun hm => absurd ((h t (by simp)).2.chars _ hm) (by decide)) (slashes_item (h t (by simp)).1))
      (slashes_line ht fun t ht => h t (by simp [ht]))

/-- The parts of the line. -/
theorem _root_.Spec.DoiList.plain {n : Nat} {toks : List DoiItem} {tail : Str} (h : DoiList n toks tail) : ∀ t ∈ toks, PlainDoi t := h.dois

theorem _root_.Spec.DoiList.all {n : Nat} {toks : List DoiItem} {tail : Str} (h : DoiList n toks tail) :
    ∀ c ∈ bracketed n ++ ' ' :: inLine (toks.map DoiItem.written) tail, c ∈ calmChars ++ py! "/_" := by
  intro c hc
  rw [List.mem_append, List.mem_cons] at hc
  rcases hc with hc | rfl | hc
  · exact (by decide : ∀ c ∈ py! "[]0123456789", c ∈ calmChars ++ py! "/_") c (bracketed_chars n c hc)
  · decide
  · refine inLine_mem (P := fun c => c ∈ calmChars ++ py! "/_") ?_ (fun c hc => List.mem_append_left _ (h.back.1.chars c hc)) c hc
    intro p hp
    obtain ⟨t, ht, rfl⟩ := List.mem_map.1 hp
    exact ⟨fun c hc => List.mem_append_left _ ((h.texts t ht).1.chars c hc), (h.dois t ht).2.2.1⟩

theorem _root_.Spec.DoiList.repair {undesirable : Str → Str} {n : Nat} {toks : List DoiItem} {tail : Str} (h : DoiList n toks tail)
    (hw : undesirable (bracketed n ++ ' ' :: inLine (toks.map DoiItem.written) tail) = bracketed n ++ ' ' :: inLine (toks.map DoiItem.written) tail) :
    washRepair undesirable (bracketed n ++ ' ' :: inLine (toks.map DoiItem.written) tail) = bracketed n ++ ' ' :: inLine (toks.map DoiItem.written) tail := by
  have hA : ∀ c ∈ calmChars ++ py! "/_", isAscii c = true := by decide
  have hsl : SlashesBehindWords (bracketed n ++ ' ' :: inLine (toks.map DoiItem.written) tail) := by
    have shape : bracketed n ++ ' ' :: inLine (toks.map DoiItem.written) tail = (bracketed n ++ [' ']) ++ inLine (toks.map DoiItem.written) tail := by simp
    rw [shape]
    refine slashes_append (slashes_none ?_) (slashes_line h.back.1 fun t ht => ⟨h.dois t ht, (h.texts t ht).1⟩)
    intro hm
    rcases List.mem_append.1 hm with hm | hm
    · exact absurd (bracketed_chars n _ hm) (by decide)
    · exact absurd hm (by decide)
  have hall := h.all
  have htidy := h.tidy
  generalize bracketed n ++ ' ' :: inLine (toks.map DoiItem.written) tail = s at *
  have w1 : isWord ' ' = false := rfl
  have w2 : isWord ':' = false := rfl
  have e1 : repairUrls s = s := by
    refine secure_repair hA hall ?_ ?_ (by decide +kernel)
    · rintro ⟨u, v, e⟩
      obtain ⟨u', c, h3, h4⟩ := hsl (u ++ [' ']) v (by rw [← e]; simp)
      have : c = ' ' := by simpa using (congrArg List.getLast? h3).symm
      rw [this, w1] at h4
      cases h4
    · rintro d ⟨u, v, e⟩
      exfalso
      obtain ⟨u', c, h3, h4⟩ := hsl (u ++ [d, ':']) v (by rw [← e]; simp)
      have : c = ':' := by simpa using (congrArg List.getLast? h3).symm
      rw [this, w2] at h4
      cases h4
  have e2 : finditer Rx.quoted_comma s = [] := by
    refine few_finditer (c := '"') hA hall ?_
    rw [List.count_eq_zero.2 fun hm => absurd (hall _ hm) (by decide)]
    decide +kernel
  have e3 : finditer Rx.re_multiple_space s = [] :=
    tidy_finditer (fun c hc hs => (by decide : ∀ c ∈ calmChars ++ py! "/_", isSpace c = true → c = ' ') c (hall c hc) hs) htidy
  unfold washRepair
  simp only [e1, hw, sub_of_no_match e2, sub_of_no_match e3]

end Py
