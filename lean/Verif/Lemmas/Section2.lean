import Verif.Lemmas.Section

/-!
# Lemmas about documents with a numbered list of references: titles
-/

open Py Spec
open scoped List

namespace Py

variable [UnicodeDB]

/-! ### Lines that are titles -/

theorem toLower_variant {x : Char} (h : isAscii x.toLower = true) : x.toLower ∈ caseVariants x := by
  by_cases hx : isAscii x = true
  · unfold caseVariants
    rw [if_pos hx]
    exact ascii_all (P := fun c => c.toLower ∈ [c, swapCase c]) (by decide +kernel) (by simpa [isAscii] using hx)
  · have : x.toLower = x := by
      unfold Char.toLower
      rw [dif_neg]
      intro hu
      apply hx
      simp only [ge_iff_le, UInt32.le_iff_toNat_le] at hu
      have h2 : x.val.toNat ≤ 90 := hu.2
      have : x.toNat < 128 := by show x.val.toNat < 128; omega
      simpa [isAscii] using this
    rw [this] at h
    exact absurd h hx

/-- A text of small letters, in any case, in which a blank stands for any white space. -/
def FitsText : Str → Str → Prop
  | [], h => h = []
  | d :: t, h => if d = ' ' then ∃ a h', h = a ++ h' ∧ Spaces a ∧ FitsText t h'
    else ∃ x h', h = x :: h' ∧ x.toLower = d ∧ isAscii d = true ∧ FitsText t h'

/-- What is left of such a text behind a match, for some of the matches. -/
def Re.can (full : Nat) : Re → Str → List Str
  | .eps, t => [t]
  | .set ⟨false, true, [.ch c]⟩, d :: t => if c = d && d != ' ' then [t] else []
  | .seq a b, t => (a.can full t).flatMap (b.can full)
  | .alt a b, t => a.can full t ++ b.can full t
  | .star _ (.set ⟨false, false, [.space]⟩), d :: t => if d = ' ' then [d :: t, t] else [d :: t]
  | .star _ _, t => [t]
  | .group _ a, t => a.can full t
  | .bos, t => if t.length = full then [t] else []
  | .eos, t => if t.isEmpty then [t] else []
  | _, _ => []

theorem chain_singles {k : CSet} : ∀ (w : Str), (∀ c ∈ w, k.mem c = true) → ∀ pre post, Chain (Sem (.set k)) pre (w.map fun c => [c]) post
  | [], _, _, _ => trivial
  | c :: w, h, pre, post => ⟨by simp, ⟨c, rfl, h c (by simp)⟩, chain_singles w (fun c hc => h c (by simp [hc])) _ _⟩

omit [UnicodeDB] in
theorem flatten_singles : ∀ w : Str, w = (w.map fun c => [c]).flatten
  | [] => rfl
  | c :: w => by simpa using flatten_singles w

theorem can_sem (full : Nat) (r : Re) : ∀ pre h t t', t' ∈ r.can full t → FitsText t h → t.length ≤ full → (t.length = full → pre = []) →
    ∃ u h', h = u ++ h' ∧ FitsText t' h' ∧ Sem r pre u h' ∧ t'.length ≤ t.length ∧ (t'.length = t.length → u = []) := by
  induction r with
  | eps =>
    intro pre h t t' ht hf hl hp
    simp only [Re.can, List.mem_singleton] at ht
    subst ht
    exact ⟨[], h, rfl, hf, rfl, Nat.le_refl _, fun _ => rfl⟩
  | set k =>
    intro pre h t t' ht hf hl hp
    unfold Re.can at ht
    split at ht
    all_goals try (simp at ht; done)
    all_goals try contradiction
    next c d t hk =>
      cases hk
      split at ht
      · next hc =>
        simp only [Bool.and_eq_true, decide_eq_true_eq, bne_iff_ne, ne_eq] at hc
        obtain ⟨rfl, hd⟩ := hc
        rw [List.mem_singleton] at ht
        subst ht
        rw [FitsText, if_neg hd] at hf
        obtain ⟨x, h', rfl, hx, hax, hf⟩ := hf
        refine ⟨[x], h', rfl, hf, ⟨x, rfl, chI_mem.2 ?_⟩, by simp, fun e => ?_⟩
        · rw [← hx]
          exact toLower_variant (by rw [hx]; exact hax)
        · simp at e
      · cases ht
  | seq a b iha ihb =>
    intro pre h t t' ht hf hl hp
    simp only [Re.can, List.mem_flatMap] at ht
    obtain ⟨t1, h1, h2⟩ := ht
    obtain ⟨u, h', rfl, f1, s1, l1, k1⟩ := iha pre h t t1 h1 hf hl hp
    obtain ⟨v, h'', rfl, f2, s2, l2, k2⟩ := ihb (u.reverse ++ pre) h' t1 t' h2 f1 (by omega) (by
      intro e
      rw [hp (by omega), k1 (by omega)]; rfl)
    exact ⟨u ++ v, h'', by simp, f2, ⟨u, v, rfl, s1, s2⟩, by omega, fun e => by rw [k1 (by omega), k2 (by omega)]; rfl⟩
  | alt a b iha ihb =>
    intro pre h t t' ht hf hl hp
    simp only [Re.can, List.mem_append] at ht
    rcases ht with ht | ht
    · obtain ⟨u, h', e1, e2, s, e3⟩ := iha pre h t t' ht hf hl hp
      exact ⟨u, h', e1, e2, .inl s, e3⟩
    · obtain ⟨u, h', e1, e2, s, e3⟩ := ihb pre h t t' ht hf hl hp
      exact ⟨u, h', e1, e2, .inr s, e3⟩
  | star g a _ =>
    intro pre h t t' ht hf hl hp
    have none : t' = t → ∃ u h', h = u ++ h' ∧ FitsText t' h' ∧ Sem (.star g a) pre u h' ∧ t'.length ≤ t.length ∧ (t'.length = t.length → u = []) := by
      rintro rfl
      exact ⟨[], h, rfl, hf, ⟨[], rfl, trivial⟩, Nat.le_refl _, fun _ => rfl⟩
    unfold Re.can at ht
    split at ht
    all_goals try contradiction
    · next d t hr =>
      cases hr
      split at ht
      · next hd =>
        subst hd
        simp only [List.mem_cons, List.not_mem_nil, or_false] at ht
        rcases ht with rfl | rfl
        · exact none rfl
        · rw [FitsText, if_pos rfl] at hf
          obtain ⟨a, h', rfl, ha, hf⟩ := hf
          refine ⟨a, h', rfl, hf, ⟨a.map fun c => [c], flatten_singles a, chain_singles a (fun c hc => ?_) _ _⟩, by simp, fun e => ?_⟩
          · simpa [CSet.mem, CItem.mem] using ha c hc
          · simp at e
      · exact none (by simpa using ht)
    · exact none (by simpa using ht)
  | group g a ih =>
    intro pre h t t' ht hf hl hp
    exact ih pre h t t' ht hf hl hp
  | bos =>
    intro pre h t t' ht hf hl hp
    simp only [Re.can] at ht
    split at ht
    · next e =>
      rw [List.mem_singleton] at ht
      subst ht
      exact ⟨[], h, rfl, hf, ⟨rfl, hp e⟩, Nat.le_refl _, fun _ => rfl⟩
    · cases ht
  | eos =>
    intro pre h t t' ht hf hl hp
    simp only [Re.can] at ht
    split at ht
    · next e =>
      rw [List.mem_singleton] at ht
      subst ht
      have : t' = [] := by simpa using e
      subst this
      have : h = [] := hf
      subst this
      exact ⟨[], [], rfl, rfl, ⟨rfl, .inl rfl⟩, Nat.le_refl _, fun _ => rfl⟩
    · cases ht
  | _ =>
    intro pre h t t' ht hf hl hp
    simp [Re.can] at ht

theorem can_match {r : Re} {t l : Str} (h : r.can t.length t ≠ []) (hf : FitsText t l) : ∃ m, reMatch r l = some m := by
  obtain ⟨t', ht⟩ := List.exists_mem_of_ne_nil _ h
  obtain ⟨u, h', e, -, s, -⟩ := can_sem t.length r [] l t t' ht hf (Nat.le_refl _) fun _ => rfl
  exact (matchHere_isSome r [] l).2 ⟨u, h', e, s⟩

omit [UnicodeDB] in
theorem fits_letters {b : Str} (hb : Spaces b) : ∀ {w : Str}, (∀ c ∈ w.map Char.toLower, isAscii c = true ∧ c ≠ ' ') →
    FitsText (w.map Char.toLower ++ [' ']) (w ++ b)
  | [], _ => by
    show FitsText [' '] b
    rw [FitsText, if_pos rfl]
    exact ⟨b, [], by simp, hb, rfl⟩
  | c :: w, h => by
    obtain ⟨h1, h2⟩ := h c.toLower (by simp)
    show FitsText (c.toLower :: (w.map Char.toLower ++ [' '])) (c :: (w ++ b))
    rw [FitsText, if_neg h2]
    exact ⟨c, w ++ b, rfl, rfl, h1, fits_letters hb fun c hc => h c (by simp at hc ⊢; exact .inr hc)⟩

omit [UnicodeDB] in
theorem fits_line {l : Str} (h : ∀ c ∈ (strip l).map Char.toLower, isAscii c = true ∧ c ≠ ' ') : FitsText (' ' :: ((strip l).map Char.toLower ++ [' '])) l := by
  obtain ⟨a, b, e, ha, hb, -⟩ := stripP_split isSpace l
  rw [FitsText, if_pos rfl]
  exact ⟨a, strip l ++ b, by rw [← List.append_assoc]; exact e, ha, fits_letters hb h⟩

omit [UnicodeDB] in
theorem headings_can : ∀ t ∈ headings, (∀ c ∈ t, isAscii c = true ∧ c ≠ ' ') ∧
    ∃ r ∈ Rx.section_title_patterns, r.can (' ' :: (t ++ [' '])).length (' ' :: (t ++ [' '])) ≠ [] := by
  decide +kernel

omit [UnicodeDB] in
theorem closings_can : ∀ t ∈ closings, (∀ c ∈ t, isAscii c = true ∧ c ≠ ' ') ∧
    ∃ r ∈ Rx.post_title_patterns, r.can (' ' :: (t ++ [' '])).length (' ' :: (t ++ [' '])) ≠ [] := by
  decide +kernel

theorem heading_match {l : Str} (h : Heading l) : ∃ r ∈ Rx.section_title_patterns, ∃ m, reMatch r l = some m := by
  obtain ⟨h1, r, hr, h2⟩ := headings_can _ h
  exact ⟨r, hr, can_match h2 (fits_line h1)⟩

theorem closing_match {l : Str} (h : Closing l) : ∃ r ∈ Rx.post_title_patterns, ∃ m, reMatch r (strip l) = some m := by
  obtain ⟨h1, r, hr, h2⟩ := closings_can _ h
  refine ⟨r, hr, can_match h2 ?_⟩
  rw [FitsText, if_pos rfl]
  refine ⟨[], strip l, rfl, by simp [Spaces], ?_⟩
  have := fits_letters (b := []) (by simp [Spaces]) h1
  rwa [List.append_nil] at this

/-- A character whose small letter is a small letter. -/
theorem letter_of_lower {x : Char} (h : isAsciiLower x.toLower = true) : isAscii x = true ∧ (isAsciiUpper x || isAsciiLower x) = true := by
  have hx : isAscii x = true := by
    by_cases hx : isAscii x = true
    · exact hx
    · have h1 : isAscii x.toLower = true := by
        simp only [isAsciiLower, Bool.and_eq_true, decide_eq_true_eq] at h
        simp only [isAscii, decide_eq_true_eq]
        omega
      have := toLower_variant h1
      unfold Char.toLower at h1
      split at h1
      · next hu =>
        simp only [ge_iff_le, UInt32.le_iff_toNat_le] at hu
        have h2 : x.val.toNat ≤ 90 := hu.2
        have : x.toNat < 128 := by show x.val.toNat < 128; omega
        simpa [isAscii] using this
      · exact absurd h1 hx
  refine ⟨hx, ?_⟩
  have := ascii_all (P := fun c => isAsciiLower c.toLower = true → (isAsciiUpper c || isAsciiLower c) = true) (by decide +kernel)
    (c := x) (by simpa [isAscii] using hx)
  exact this h

omit [UnicodeDB] in
theorem headings_lower : ∀ t ∈ headings ++ closings, t ≠ [] ∧ ∀ c ∈ t, isAsciiLower c = true := by decide +kernel

theorem letters_of {l : Str} (h : (strip l).map Char.toLower ∈ headings ++ closings) :
    (∃ c ∈ l, isAscii c = true ∧ (isAsciiUpper c || isAsciiLower c) = true) ∧
    ∀ c ∈ l, isSpace c = true ∨ isAscii c = true ∧ (isAsciiUpper c || isAsciiLower c) = true := by
  obtain ⟨h1, h2⟩ := headings_lower _ h
  obtain ⟨a, b, e, ha, hb, -⟩ := stripP_split isSpace l
  have key : ∀ c ∈ strip l, isAscii c = true ∧ (isAsciiUpper c || isAsciiLower c) = true := fun c hc => letter_of_lower (h2 _ (List.mem_map_of_mem hc))
  constructor
  · obtain ⟨c, hc⟩ := List.exists_mem_of_ne_nil (strip l) fun e => h1 (by simp [e])
    exact ⟨c, by rw [e]; exact List.mem_append_left _ (List.mem_append_right _ hc), key c hc⟩
  · intro c hc
    rw [e, List.mem_append, List.mem_append] at hc
    rcases hc with (hc | hc) | hc
    · exact .inl (ha c hc)
    · exact .inr (key c hc)
    · exact .inl (hb c hc)

theorem letter_facts {c : Char} (h : isAscii c = true ∧ (isAsciiUpper c || isAsciiLower c) = true) :
    isSpace c = false ∧ markChar c = false ∧ isDigitC c = false ∧ c ∉ ['.', '-', '+', '×', '−'] := by
  obtain ⟨h1, h2⟩ := h
  have := ascii_all (P := fun c => (isAsciiUpper c || isAsciiLower c) = true → isSpace c = false ∧ isAsciiDigit c = false ∧
    c ≠ '[' ∧ c ≠ '{' ∧ c ≠ '<' ∧ c ≠ '(' ∧ c ≠ '*' ∧ c ∉ ['.', '-', '+', '×', '−']) (by decide +kernel) (c := c) (by simpa [isAscii] using h1) h2
  obtain ⟨a1, a2, a3, a4, a5, a6, a7, a8⟩ := this
  refine ⟨a1, ?_, ?_, a8⟩
  · simp [markChar, isDec, decVal, h1, a2, a3, a4, a5, a6, a7]
  · simp [isDigitC, h1, a2]

theorem space_facts {c : Char} (h : isSpace c = true) : markChar c = false := by
  have hd : isDec c = false := by
    cases hd : isDec c with
    | false => rfl
    | true =>
      rw [isDec_not_space hd] at h
      cases h
  have : ∀ d, isSpace d = false → (c == d) = false := by
    intro d hd
    cases e : c == d with
    | false => rfl
    | true =>
      rw [eq_of_beq e, hd] at h
      cases h
  simp only [markChar, hd, this '[' rfl, this '{' rfl, this '<' rfl, this '(' rfl, this '*' rfl, Bool.or_self]

theorem noMark_line {l : Str} (h : (strip l).map Char.toLower ∈ headings ++ closings) : ∀ c ∈ l, markChar c = false := by
  intro c hc
  rcases (letters_of h).2 c hc with h | h
  · exact space_facts h
  · exact (letter_facts h).2.1

/-! ### The title of the section and its footers -/

omit [UnicodeDB] in
theorem titles_group : (Rx.section_title_patterns.all fun r => r.groups.all fun p => p.1 != G.title || p.2.early sectionTitles 0) = true := by
  decide +kernel

theorem title_opens {r : Re} (hr : r ∈ Rx.section_title_patterns) {l w : Str} {m : Match} (hm : reMatch r l = some m)
    (hw : m.group G.title = some w) : ∃ t ∈ sectionTitles, opensWith t w 0 = true := by
  obtain ⟨body, hb, hl⟩ := (reMatch_ok hm).group_lang hw
  have := List.all_eq_true.1 (List.all_eq_true.1 titles_group r hr) _ hb
  simp only [bne_self_eq_false, Bool.false_or] at this
  obtain ⟨t, ht, h⟩ := early_lang _ _ _ this _ hl []
  exact ⟨t, ht, by simpa using h⟩

theorem footer_none {w l : Str} (hw : ∃ t ∈ sectionTitles, opensWith t w 0 = true) (hl : ∀ t ∈ sectionTitles, opensWith t l 13 = false) :
    reMatch (footerPattern w) l = none := by
  cases hm : reMatch (footerPattern w) l with
  | none => rfl
  | some m =>
    obtain ⟨t, ht, hw⟩ := hw
    obtain ⟨rest, h1, h2⟩ := matchHere_sem hm
    have h3 := sem_lang _ _ _ _ h2
    unfold footerPattern at h3
    obtain ⟨u1, v1, e1, s1, u2, v2, rfl, s2, u3, v3, rfl, s3, u4, v4, rfl, s4, u5, v5, rfl, s5, u6, v6, rfl, s6, u7, v7, rfl, s7,
      u8, v8, rfl, s8, s9⟩ := h3
    have s8 : u8 = w := s8
    subst s8
    have c1 := cost_lang _ 1 rfl _ s1
    have c2 := cost_lang _ 1 rfl _ s2
    have c3 := cost_lang _ 4 rfl _ s3
    have c4 := cost_lang _ 1 rfl _ s4
    have c5 := cost_lang _ 1 rfl _ s5
    have c6 := cost_lang _ 1 rfl _ s6
    have c7 := cost_lang _ 0 rfl _ s7
    have := opensWith_after (k := 13) (u := u1 ++ u2 ++ u3 ++ u4 ++ u5 ++ u6 ++ u7) (by simp only [solidCount_append]; omega) (opensWith_append (v8 ++ rest) hw)
    have e : l = u1 ++ u2 ++ u3 ++ u4 ++ u5 ++ u6 ++ u7 ++ (u8 ++ (v8 ++ rest)) := by rw [h1, e1]; simp
    rw [← e, hl t ht] at this
    cases this

theorem stripFooter_none {w : Str} {ls : List Str} (hw : ∃ t ∈ sectionTitles, opensWith t w 0 = true)
    (hl : ∀ l ∈ ls, ∀ t ∈ sectionTitles, opensWith t l 13 = false) : stripFooter ls w = ls := by
  unfold stripFooter
  rw [List.filter_eq_self]
  intro l h
  rw [footer_none hw (hl l h)]
  rfl

/-! ### Finding the section -/

theorem inner_keep {doc : List Str} {r : Re} {d : Option Details} : ∀ n, (∀ i < n, ∀ l, doc[i]? = some l → reMatch r l = none) →
    sectionInner doc r n d = d
  | 0, _ => rfl
  | n + 1, h => by
    unfold sectionInner
    split
    · exact inner_keep n fun i hi => h i (by omega)
    · next line hl =>
      rw [h n (by omega) line hl]
      exact inner_keep n fun i hi => h i (by omega)

theorem inner_heading {body rest : List Str} {l : Str} {r : Re} {m : Match} {t : Details} (hm : reMatch r l = some m)
    (hb : ∀ x ∈ body, reMatch r x = none) (hr : ∀ x ∈ rest, reMatch r x = none)
    (ht : findSectionNumeration ((l :: rest).take 6) body.length ((m.group G.title).getD []) = (t, false)) :
    ∀ k, body.length < k → sectionInner (body ++ l :: rest) r k none = some t
  | 0, h => absurd h (Nat.not_lt_zero _)
  | k + 1, h => by
    unfold sectionInner
    by_cases hk : k = body.length
    · subst hk
      have e : (body ++ l :: rest)[body.length]? = some l := by simp
      simp only [e, hm, List.drop_left, ht]
      simp only [Bool.false_eq_true, if_false]
      refine inner_keep _ fun i hi x hx => hb x ?_
      rw [List.getElem?_append_left hi] at hx
      exact List.mem_of_getElem? hx
    · have ih := inner_heading hm hb hr ht k (by omega)
      split
      · exact ih
      · next line hl =>
        have : line ∈ rest := by
          rw [List.getElem?_append_right (by omega)] at hl
          obtain ⟨j, hj⟩ : ∃ j, k - body.length = j + 1 := ⟨k - body.length - 1, by omega⟩
          rw [hj, List.getElem?_cons_succ] at hl
          exact List.mem_of_getElem? hl
        rw [hr line this]
        exact ih

theorem outer_heading {body rest : List Str} {l : Str} {f : Str → Details} 
    (hb : ∀ x ∈ body ++ rest, ∀ t ∈ sectionTitles, opensWith t x 13 = false)
    (ht : ∀ w, findSectionNumeration ((l :: rest).take 6) body.length w = (f w, false)) :
    ∀ rs : List Re, (∀ r ∈ rs, r ∈ Rx.section_title_patterns) → (∃ r ∈ rs, ∃ m, reMatch r l = some m) →
    ∃ w, (∃ t ∈ sectionTitles, opensWith t w 0 = true) ∧ sectionOuter (body ++ l :: rest) rs = some (f w)
  | [], _, h => by obtain ⟨r, hr, _⟩ := h; cases hr
  | r :: rs, hr, h => by
    have hrm := hr r (by simp)
    unfold sectionOuter
    cases hm : reMatch r l with
    | some m =>
      obtain ⟨w, hw⟩ := reMatch_must1 (List.all_eq_true.1 titles_must r hrm) hm
      refine ⟨w, title_opens hrm hm hw, ?_⟩
      rw [inner_heading hm (fun x hx => title_none (hb x (by simp [hx])) hrm) (fun x hx => title_none (hb x (by simp [hx])) hrm) (ht _) _
        (by simp), hw, Option.getD_some]
    | none =>
      have hn : sectionInner (body ++ l :: rest) r (body ++ l :: rest).length none = none := by
        refine inner_none (fun x hx => ?_) _
        simp only [List.mem_append, List.mem_cons] at hx
        rcases hx with hx | rfl | hx
        · exact title_none (hb x (by simp [hx])) hrm
        · exact hm
        · exact title_none (hb x (by simp [hx])) hrm
      rw [hn]
      simp only
      obtain ⟨r', hr', h⟩ := h
      refine outer_heading hb ht rs (fun r hr' => hr r (by simp [hr'])) ⟨r', ?_, h⟩
      rcases List.mem_cons.1 hr' with rfl | hr'
      · obtain ⟨m, h⟩ := h
        rw [hm] at h
        cases h
      · exact hr'

theorem body_gap {rest : List Str} : ∀ g : Nat, numerationInBody (List.replicate g [] ++ rest) = numerationInBody rest
  | 0 => rfl
  | g + 1 => by
    rw [List.replicate_succ, List.cons_append]
    conv => lhs; unfold numerationInBody
    rw [show isspace [] = false from rfl, noMarks (by simp)]
    simpa using body_gap g

theorem numeration_heading {l t : Str} {g : Nat} {rest : List Str} (hg : g ≤ 4) (hl : ∃ c ∈ l, isSpace c = false) (hc : ∀ c ∈ l, markChar c = false) (k : Nat) :
    ∃ mk, ∀ w, findSectionNumeration ((l :: (List.replicate g [] ++ (bracketed 1 ++ t) :: rest)).take 6) k w =
      (⟨k, some w, some mk, some lineNumber, false⟩, false) := by
  obtain ⟨m, h1, h2, h3, h4⟩ := lineNumber_here (d := decimal 1) (t := t) (pre := []) (decimal_decimals 1) false
  have hm : reMatch lineNumber (bracketed 1 ++ t) = some m := by simpa [bracketed, reMatch] using h1
  refine ⟨(m.group G.mark).getD [], fun w => ?_⟩
  have e : (l :: (List.replicate g [] ++ (bracketed 1 ++ t) :: rest)).take 6 = l :: (List.replicate g [] ++ (bracketed 1 ++ t) :: rest.take (4 - g)) := by
    rw [List.take_succ_cons, List.take_append, List.take_of_length_le (by simp; omega), List.length_replicate]
    obtain ⟨j, hj⟩ : ∃ j, 5 - g = j + 1 := ⟨4 - g, by omega⟩
    rw [hj, List.take_succ_cons, show j = 4 - g by omega]
  have a1 : ∀ ls : List Str, numerationInTitle (l :: ls) w = none := by
    intro ls
    unfold numerationInTitle
    simp only
    rw [noMarks hc]
  have a2 : numerationInBody (l :: (List.replicate g [] ++ (bracketed 1 ++ t) :: rest.take (4 - g))) = some ((m.group G.mark).getD [], lineNumber) := by
    have s1 : isspace l = false := by
      obtain ⟨c, hc, hs⟩ := hl
      cases e : isspace l with
      | false => rfl
      | true =>
        simp only [isspace, Bool.and_eq_true, List.all_eq_true] at e
        rw [e.2 c hc] at hs
        cases hs
    have s2 : isspace (bracketed 1 ++ t) = false := by
      have : isSpace '[' = false := rfl
      simp [isspace, bracketed, this]
    unfold numerationInBody
    rw [s1, noMarks hc]
    simp only [Bool.false_eq_true, if_false]
    rw [body_gap]
    unfold numerationInBody
    rw [s2]
    simp only [Bool.false_eq_true, if_false]
    have : matchList (bracketed 1 ++ t) (Rx.marker_patterns .eps) = some (lineNumber, m) := by
      unfold Rx.marker_patterns matchList
      rw [show Rx.marker_pattern_0 .eps = lineNumber from rfl, hm]
    rw [this]
    simp only [h4]
    rw [if_neg]
    rw [show (some (decimal 1) != some (py! "1")) = false from rfl, Bool.and_false]
    simp
  unfold findSectionNumeration
  rw [e]
  simp only [a1, a2]

theorem findSection_heading {body rest : List Str} {l t : Str} {g : Nat} (hg : g ≤ 4) (hh : Heading l)
    (hb : ∀ x ∈ body ++ (List.replicate g [] ++ (bracketed 1 ++ t) :: rest), ∀ t ∈ sectionTitles, opensWith t x 13 = false) :
    ∃ w mk, (∃ t ∈ sectionTitles, opensWith t w 0 = true) ∧
      findSection (body ++ l :: (List.replicate g [] ++ (bracketed 1 ++ t) :: rest)) = some ⟨body.length, some w, some mk, some lineNumber, false⟩ := by
  have hh' : (strip l).map Char.toLower ∈ headings ++ closings := List.mem_append_left _ hh
  obtain ⟨⟨c, hc, h1⟩, h2⟩ := letters_of hh'
  obtain ⟨mk, hf⟩ := numeration_heading (t := t) (rest := rest) hg ⟨c, hc, (letter_facts h1).1⟩ (noMark_line hh') body.length
  obtain ⟨w, hw, h3⟩ := outer_heading (f := fun w => ⟨body.length, some w, some mk, some lineNumber, false⟩) hb hf Rx.section_title_patterns
    (fun r hr => hr) (heading_match hh)
  exact ⟨w, mk, hw, h3⟩

end Py
