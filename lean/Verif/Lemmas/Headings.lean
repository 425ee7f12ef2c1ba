import Verif.Spec.Headings
import Verif.Lemmas.Find

/-!
# Which heading is chosen
-/

open Py Spec

namespace Py

variable [UnicodeDB]

theorem firstMatch_iff {rs : List Re} {line : Str} {r : Re} {m : Match} :
    matchList line rs = some (r, m) ↔ FirstMatch rs line r m := by
  induction rs with
  | nil =>
    refine ⟨fun h => (by cases h), fun ⟨b, a, e, _⟩ => ?_⟩
    cases b <;> cases e
  | cons q rs ih =>
    unfold matchList
    cases hq : reMatch q line with
    | some k =>
      constructor
      · intro h
        cases h
        exact ⟨[], rs, rfl, by simp, hq⟩
      · rintro ⟨b, a, e, h1, h2⟩
        cases b with
        | nil => cases e; rw [hq] at h2; cases h2; rfl
        | cons x b => cases e; have := h1 q (by simp); rw [hq] at this; cases this
    | none =>
      dsimp only
      rw [ih]
      constructor
      · rintro ⟨b, a, e, h1, h2⟩
        refine ⟨q :: b, a, by rw [e]; rfl, fun x hx => ?_, h2⟩
        rcases List.mem_cons.1 hx with rfl | hx
        · exact hq
        · exact h1 x hx
      · rintro ⟨b, a, e, h1, h2⟩
        cases b with
        | nil => cases e; rw [hq] at h2; cases h2
        | cons x b => cases e; exact ⟨b, a, rfl, fun x hx => h1 x (by simp [hx]), h2⟩

theorem noMatch_iff {rs : List Re} {line : Str} : matchList line rs = none ↔ ∀ r m, ¬ FirstMatch rs line r m := by
  constructor
  · intro h r m hf
    rw [← firstMatch_iff, h] at hf
    cases hf
  · intro h
    cases e : matchList line rs with
    | none => rfl
    | some p => exact absurd (firstMatch_iff.1 e) (h p.1 p.2)

/-- The mark found in the line of the title. -/
theorem title_own {l : Str} {ls : List Str} {title : Str} :
    match numerationInTitle (l :: ls) title with
    | none => ∀ r mark, ¬ OwnMark l title r mark
    | some (mk, r, found) => OwnMark l title r mk ∧ (∀ r' mark', OwnMark l title r' mark' → r' = r ∧ mark' = mk) ∧
        (found = true ↔ ∃ m, search Rx.re_num mk = some m ∧ m.txt = py! "1") := by
  unfold numerationInTitle
  dsimp only
  cases h : matchList l (Rx.marker_patterns (Re.strI title)) with
  | none =>
    rintro r mark ⟨m, hm, -⟩
    exact noMatch_iff.1 h r m hm
  | some p =>
    obtain ⟨r, m⟩ := p
    refine ⟨⟨m, firstMatch_iff.1 h, rfl⟩, ?_, ?_⟩
    · rintro r' mark' ⟨m', hm, rfl⟩
      have := firstMatch_iff.2 hm
      rw [h] at this
      cases this
      exact ⟨rfl, rfl⟩
    · generalize (m.group G.mark).getD [] = mk
      cases hs : search Rx.re_num mk with
      | none => simp
      | some k => simp

theorem body_list {lines : List Str} :
    match numerationInBody lines with
    | none => ∀ r mark, ¬ ListMark lines r mark
    | some (mk, r) => ListMark lines r mk ∧ ∀ r' mark', ListMark lines r' mark' → r' = r ∧ mark' = mk := by
  have skip : ∀ {l : Str} {ls : List Str}, (∀ r mark, ¬ OpensList l r mark) → ∀ {r mark}, ListMark (l :: ls) r mark ↔ ListMark ls r mark := by
    intro l ls hl r mark
    constructor
    · rintro ⟨b, x, a, e, h1, h2⟩
      cases b with
      | nil => cases e; exact absurd h2 (hl r mark)
      | cons y b => cases e; exact ⟨b, x, a, rfl, fun l hl => h1 l (by simp [hl]), h2⟩
    · rintro ⟨b, x, a, e, h1, h2⟩
      refine ⟨l :: b, x, a, by rw [e]; rfl, fun y hy => ?_, h2⟩
      rcases List.mem_cons.1 hy with rfl | hy
      · exact hl
      · exact h1 y hy
  induction lines with
  | nil =>
    rintro r mark ⟨b, x, a, e, -⟩
    cases b <;> cases e
  | cons l ls ih =>
    have rest : (∀ r mark, ¬ OpensList l r mark) →
        match numerationInBody ls with
        | none => ∀ r mark, ¬ ListMark (l :: ls) r mark
        | some (mk, r) => ListMark (l :: ls) r mk ∧ ∀ r' mark', ListMark (l :: ls) r' mark' → r' = r ∧ mark' = mk := by
      intro hl
      cases h : numerationInBody ls with
      | none => rw [h] at ih; exact fun r mark hm => ih r mark ((skip hl).1 hm)
      | some p =>
        rw [h] at ih
        exact ⟨(skip hl).2 ih.1, fun r' mark' hm => ih.2 r' mark' ((skip hl).1 hm)⟩
    unfold numerationInBody
    by_cases hs : isspace l = true
    · rw [if_pos hs]
      exact rest fun r mark ho => by rw [ho.1] at hs; cases hs
    · rw [if_neg hs]
      cases hm : matchList l (Rx.marker_patterns .eps) with
      | none =>
        refine rest ?_
        rintro r mark ⟨-, m, h1, -⟩
        exact noMatch_iff.1 hm r m h1
      | some p =>
        obtain ⟨r, m⟩ := p
        dsimp only
        have one : ∀ {r' mark'}, OpensList l r' mark' → r' = r ∧ mark' = (m.group G.mark).getD [] ∧
            (r.hasGroup G.marknum = true → m.group G.marknum = some (py! "1")) := by
          rintro r' mark' ⟨-, m', h1, rfl, h2⟩
          have := firstMatch_iff.2 h1
          rw [hm] at this
          cases this
          exact ⟨rfl, rfl, h2⟩
        by_cases hg : (r.hasGroup G.marknum && m.group G.marknum != some (py! "1")) = true
        · rw [if_pos hg]
          refine rest fun r' mark' ho => ?_
          simp only [Bool.and_eq_true, bne_iff_ne, ne_eq] at hg
          exact hg.2 ((one ho).2.2 hg.1)
        · rw [if_neg hg]
          simp only [Bool.and_eq_true, bne_iff_ne, ne_eq, not_and, Classical.not_not] at hg
          have ho : OpensList l r ((m.group G.mark).getD []) := ⟨by simpa using hs, m, firstMatch_iff.1 hm, rfl, hg⟩
          refine ⟨⟨[], l, ls, rfl, by simp, ho⟩, ?_⟩
          rintro r' mark' ⟨b, x, a, e, h1, h2⟩
          cases b with
          | nil => cases e; exact ⟨(one h2).1, (one h2).2.1⟩
          | cons y b => cases e; exact absurd ho (h1 _ (by simp) _ _)

theorem details_of {doc : List Str} {n : Nat} {line : Str} (hl : doc[n]? = some line) (title : Str) :
    DetailsOf doc n title (findSectionNumeration ((doc.drop n).take 6) n title).1 ∧
      (∀ own p mark, MarkOf doc n title own p mark → (findSectionNumeration ((doc.drop n).take 6) n title).1.marker = some mark) ∧
      ((findSectionNumeration ((doc.drop n).take 6) n title).2 = true ↔
        ∃ p mark m, MarkOf doc n title true p mark ∧ search Rx.re_num mark = some m ∧ m.txt = py! "1") := by
  obtain ⟨rest, he⟩ : ∃ rest, (doc.drop n).take 6 = line :: rest := by
    have : doc.drop n = line :: doc.drop (n + 1) := by
      have hlt : n < doc.length := by
        rcases Nat.lt_or_ge n doc.length with h | h
        · exact h
        · rw [List.getElem?_eq_none h] at hl; cases hl
      rw [List.drop_eq_getElem_cons hlt]
      rw [List.getElem?_eq_getElem hlt] at hl
      cases hl
      rfl
    exact ⟨(doc.drop (n + 1)).take 5, by rw [this]; rfl⟩
  have ht := title_own (l := line) (ls := rest) (title := title)
  have hb := body_list (lines := (doc.drop n).take 6)
  have hline : ∀ {l'}, doc[n]? = some l' → l' = line := fun h => by rw [hl] at h; cases h; rfl
  unfold findSectionNumeration
  rw [he] at hb ⊢
  cases h1 : numerationInTitle (line :: rest) title with
  | some q =>
    obtain ⟨mk, r, found⟩ := q
    rw [h1] at ht
    dsimp only at ht ⊢
    have hm : MarkOf doc n title true r mk := ⟨line, hl, by simpa using ht.1⟩
    have uniq : ∀ {own p mark}, MarkOf doc n title own p mark → mark = mk ∧ own = true := by
      rintro own p mark ⟨l', hl', h⟩
      cases hline hl'
      cases own with
      | true => exact ⟨(ht.2.1 _ _ (by simpa using h)).2, rfl⟩
      | false => simp only [Bool.false_eq_true, if_false] at h; exact absurd ht.1 (h.1 _ _)
    refine ⟨⟨rfl, rfl, .inl ⟨mk, r, rfl, rfl, hm⟩⟩, fun own p mark h => by rw [(uniq h).1], ?_⟩
    rw [ht.2.2]
    constructor
    · rintro ⟨m, h2, h3⟩; exact ⟨r, mk, m, hm, h2, h3⟩
    · rintro ⟨p, mark, m, h2, h3, h4⟩
      rw [(uniq h2).1] at h3
      exact ⟨m, h3, h4⟩
  | none =>
    rw [h1] at ht
    dsimp only at ht ⊢
    have noOwn : ∀ {p mark}, ¬ MarkOf doc n title true p mark := by
      rintro p mark ⟨l', hl', h⟩
      cases hline hl'
      exact ht _ _ (by simpa using h)
    cases h2 : numerationInBody (line :: rest) with
    | some q =>
      obtain ⟨mk, r⟩ := q
      rw [h2] at hb
      dsimp only at hb ⊢
      have hm : MarkOf doc n title false r mk := ⟨line, hl, by simpa [he] using ⟨ht, hb.1⟩⟩
      refine ⟨⟨rfl, rfl, .inl ⟨mk, r, rfl, rfl, hm⟩⟩, ?_, by simp [noOwn]⟩
      rintro own p mark h
      cases own with
      | true => exact absurd h noOwn
      | false =>
        obtain ⟨l', hl', h⟩ := h
        simp only [Bool.false_eq_true, if_false, he] at h
        rw [(hb.2 _ _ h.2).2]
    | none =>
      rw [h2] at hb
      dsimp only at hb ⊢
      have none' : ∀ own p mark, ¬ MarkOf doc n title own p mark := by
        rintro own p mark h
        cases own with
        | true => exact noOwn h
        | false =>
          obtain ⟨l', hl', h⟩ := h
          simp only [Bool.false_eq_true, if_false, he] at h
          exact hb _ _ h.2
      exact ⟨⟨rfl, rfl, .inr ⟨rfl, rfl, rfl, none'⟩⟩, fun own p mark h => absurd h (none' own p mark), by simp [noOwn]⟩

theorem heading_unique {r : Re} {doc : List Str} {n : Nat} {t t' : Str} (h : IsHeading r doc n t) (h' : IsHeading r doc n t') : t = t' := by
  obtain ⟨l, m, h1, h2, rfl⟩ := h
  obtain ⟨l', m', h1', h2', rfl⟩ := h'
  rw [h1] at h1'
  cases h1'
  rw [h2] at h2'
  cases h2'
  rfl

theorem ownFirst_marked {r : Re} {doc : List Str} {n : Nat} (h : OwnFirst r doc n) : Marked r doc n := by
  obtain ⟨t, p, mark, m, h1, h2, h3, h4⟩ := h
  refine ⟨t, true, p, mark, h1, h2, ?_⟩
  rintro rfl
  revert h3
  have : search Rx.re_num [] = none := by rfl
  rw [this]
  exact fun h => by cases h

/-- What the loop leaves, from what it has found at the positions from `n` on. -/
def Leaves (doc : List Str) (r : Re) (n : Nat) (d e : Option Details) : Prop :=
    (∃ f t x, f < n ∧ OwnFirst r doc f ∧ (∀ k, f < k → k < n → ¬ OwnFirst r doc k) ∧ e = some x ∧ IsHeading r doc f t ∧ DetailsOf doc f t x) ∨
    ((∀ k < n, ¬ OwnFirst r doc k) ∧
      ((∃ f t x, f < n ∧ Marked r doc f ∧ (∀ k < f, ¬ Marked r doc k) ∧ e = some x ∧ IsHeading r doc f t ∧ DetailsOf doc f t x) ∨
        ((∀ k < n, ¬ Marked r doc k) ∧
          ((someTruthy (d.bind (·.marker)) = true ∧ e = d) ∨
            (someTruthy (d.bind (·.marker)) = false ∧
              ((∃ f t x, f < n ∧ (∀ k < f, ∀ t, ¬ IsHeading r doc k t) ∧ e = some x ∧ IsHeading r doc f t ∧ DetailsOf doc f t x) ∨
                ((∀ k < n, ∀ t, ¬ IsHeading r doc k t) ∧ e = d)))))))

theorem inner_spec {doc : List Str} {r : Re} (n : Nat) (hn : n ≤ doc.length) : ∀ (d e : Option Details), sectionInner doc r n d = e →
    Leaves doc r n d e := by
  induction n with
  | zero =>
    intro d e h
    cases h
    refine .inr ⟨by simp, .inr ⟨by simp, ?_⟩⟩
    cases someTruthy (d.bind (·.marker)) with
    | true => exact .inl ⟨rfl, rfl⟩
    | false => exact .inr ⟨rfl, .inr ⟨by simp, rfl⟩⟩
  | succ n ih =>
    intro d e h
    have ih := ih (by omega)
    -- a line that is no heading changes nothing
    have pass : (∀ t, ¬ IsHeading r doc n t) → sectionInner doc r n d = e → Leaves doc r (n + 1) d e := fun hno h => by
      have noF : ¬ OwnFirst r doc n := fun ⟨t, _, _, _, h1, _⟩ => hno t h1
      have noM : ¬ Marked r doc n := fun ⟨t, _, _, _, h1, _⟩ => hno t h1
      have ext : ∀ {P : Nat → Prop}, (∀ k < n, P k) → P n → ∀ k < n + 1, P k := fun hp hq k hk => by
        rcases Nat.lt_succ_iff_lt_or_eq.1 hk with h | rfl
        · exact hp k h
        · exact hq
      rcases ih d e h with ⟨f, t, x, h1, h2, h3, h4⟩ | ⟨h1, h2⟩
      · exact Or.inl ⟨f, t, x, by omega, h2, fun k hk hk' => by
          rcases Nat.lt_succ_iff_lt_or_eq.1 hk' with h | rfl
          · exact h3 k hk h
          · exact noF, h4⟩
      · refine Or.inr ⟨ext h1 noF, ?_⟩
        rcases h2 with ⟨f, t, x, h2, h3⟩ | ⟨h2, h3⟩
        · exact .inl ⟨f, t, x, by omega, h3⟩
        · refine .inr ⟨ext h2 noM, ?_⟩
          rcases h3 with h3 | ⟨h3, h4⟩
          · exact .inl h3
          · refine .inr ⟨h3, ?_⟩
            rcases h4 with ⟨f, t, x, h4, h5⟩ | ⟨h4, h5⟩
            · exact .inl ⟨f, t, x, by omega, h5⟩
            · exact .inr ⟨ext (P := fun k => ∀ t, ¬ IsHeading r doc k t) h4 hno, h5⟩
    unfold sectionInner at h
    cases hl : doc[n]? with
    | none =>
      rw [hl] at h
      exact pass (fun t ⟨l, m, h1, _⟩ => by rw [hl] at h1; cases h1) h
    | some line =>
      rw [hl] at h
      dsimp only at h
      cases hm : reMatch r line with
      | none =>
        rw [hm] at h
        refine pass (fun t ⟨l, m, h1, h2, _⟩ => ?_) h
        rw [hl] at h1
        cases h1
        rw [hm] at h2
        cases h2
      | some m =>
        rw [hm] at h
        dsimp only at h
        have hh : IsHeading r doc n ((m.group G.title).getD []) := ⟨line, m, hl, hm, rfl⟩
        obtain ⟨d1, d2, d3⟩ := details_of hl ((m.group G.title).getD [])
        generalize findSectionNumeration ((doc.drop n).take 6) n ((m.group G.title).getD []) = q at h d1 d2 d3
        obtain ⟨x, found⟩ := q
        dsimp only at h d1 d2 d3
        generalize (m.group G.title).getD [] = title at h d1 d2 d3 hh
        have hf : found = true ↔ OwnFirst r doc n := by
          rw [d3]
          constructor
          · rintro ⟨p, mark, k, h1, h2, h3⟩; exact ⟨title, p, mark, k, hh, h1, h2, h3⟩
          · rintro ⟨t, p, mark, k, h0, h1, h2, h3⟩
            rw [heading_unique h0 hh] at h1
            exact ⟨p, mark, k, h1, h2, h3⟩
        have hk : someTruthy x.marker = true ↔ Marked r doc n := by
          constructor
          · intro ht
            obtain ⟨-, -, ⟨mark, p, e1, -, e2⟩ | ⟨e1, -⟩⟩ := d1
            · refine ⟨title, _, p, mark, hh, e2, ?_⟩
              rintro rfl
              rw [e1] at ht
              cases ht
            · rw [e1] at ht
              cases ht
          · rintro ⟨t, own, p, mark, h0, h1, h2⟩
            rw [heading_unique h0 hh] at h1
            rw [d2 _ _ _ h1]
            cases mark with
            | nil => exact absurd rfl h2
            | cons c cs => rfl
        clear pass
        have h : (if (someTruthy (d.bind (·.marker)) && !someTruthy x.marker) = true then sectionInner doc r n d
            else if found = true then some x else sectionInner doc r n (some x)) = e := by
          cases d <;> exact h
        by_cases keep : (someTruthy (d.bind (·.marker)) && !someTruthy x.marker) = true
        · rw [if_pos keep] at h
          cases d with
          | none => cases keep
          | some d =>
            simp only [Bool.and_eq_true, Bool.not_eq_true', Option.bind_some] at keep
            have noM : ¬ Marked r doc n := fun hc => by rw [← hk, keep.2] at hc; cases hc
            have noF : ¬ OwnFirst r doc n := fun hc => noM (ownFirst_marked hc)
            have ext : ∀ {P : Nat → Prop}, (∀ k < n, P k) → P n → ∀ k < n + 1, P k := fun hp hq k hk => by
              rcases Nat.lt_succ_iff_lt_or_eq.1 hk with h | rfl
              · exact hp k h
              · exact hq
            rcases ih (some d) e h with ⟨f, t, y, h1, h2, h3, h4⟩ | ⟨h1, h2⟩
            · exact .inl ⟨f, t, y, by omega, h2, fun k hk hk' => by
                rcases Nat.lt_succ_iff_lt_or_eq.1 hk' with h | rfl
                · exact h3 k hk h
                · exact noF, h4⟩
            · refine .inr ⟨ext h1 noF, ?_⟩
              rcases h2 with ⟨f, t, y, h2, h3⟩ | ⟨h2, h3⟩
              · exact .inl ⟨f, t, y, by omega, h3⟩
              · refine .inr ⟨ext h2 noM, ?_⟩
                rcases h3 with h3 | ⟨h3, -⟩
                · exact .inl h3
                · rw [show someTruthy ((some d).bind (·.marker)) = someTruthy d.marker from rfl, keep.1] at h3
                  cases h3
        · rw [if_neg keep] at h
          by_cases ho : found = true
          · rw [if_pos ho] at h
            exact .inl ⟨n, title, x, by omega, hf.1 ho, fun k h1 h2 => by omega, h.symm, hh, d1⟩
          · rw [if_neg ho] at h
            have noF : ¬ OwnFirst r doc n := fun hc => ho (hf.2 hc)
            have ext : ∀ {P : Nat → Prop}, (∀ k < n, P k) → P n → ∀ k < n + 1, P k := fun hp hq k hk => by
              rcases Nat.lt_succ_iff_lt_or_eq.1 hk with h | rfl
              · exact hp k h
              · exact hq
            rcases ih (some x) e h with ⟨f, t, y, h1, h2, h3, h4⟩ | ⟨h1, h2⟩
            · exact .inl ⟨f, t, y, by omega, h2, fun k hk hk' => by
                rcases Nat.lt_succ_iff_lt_or_eq.1 hk' with h | rfl
                · exact h3 k hk h
                · exact noF, h4⟩
            · refine .inr ⟨ext h1 noF, ?_⟩
              rcases h2 with ⟨f, t, y, h2, h3⟩ | ⟨h2, h3⟩
              · exact .inl ⟨f, t, y, by omega, h3⟩
              · rcases h3 with ⟨h3, h4⟩ | ⟨h3, h4⟩
                · have hM : Marked r doc n := hk.1 h3
                  exact .inl ⟨n, title, x, by omega, hM, h2, h4, hh, d1⟩
                · have hM : ¬ Marked r doc n := fun hc => by
                    have := hk.2 hc
                    rw [show someTruthy ((some x).bind (·.marker)) = someTruthy x.marker from rfl, this] at h3
                    cases h3
                  refine .inr ⟨ext h2 hM, ?_⟩
                  have hd : someTruthy (d.bind (·.marker)) = false := by
                    have hx : someTruthy x.marker = false := h3
                    simpa only [hx, Bool.not_false, Bool.and_true, Bool.not_eq_true] using keep
                  refine .inr ⟨hd, .inl ?_⟩
                  rcases h4 with ⟨f, t, y, h4, h5⟩ | ⟨h4, h5⟩
                  · exact ⟨f, t, y, by omega, h5⟩
                  · exact ⟨n, title, x, by omega, h4, h5, hh, d1⟩

/-- What is chosen for a title pattern, if anything. -/
theorem inner_chosen {doc : List Str} {r : Re} : match sectionInner doc r doc.length none with
    | none => ∀ k t, ¬ IsHeading r doc k t
    | some d => Chosen r doc d.start ∧ ∃ t, IsHeading r doc d.start t ∧ DetailsOf doc d.start t d := by
  have lt : ∀ {k t}, IsHeading r doc k t → k < doc.length := by
    rintro k t ⟨l, m, h, -⟩
    rcases Nat.lt_or_ge k doc.length with h' | h'
    · exact h'
    · rw [List.getElem?_eq_none h'] at h; cases h
  have ltF : ∀ {k}, OwnFirst r doc k → k < doc.length := fun ⟨_, _, _, _, h, _⟩ => lt h
  have ltM : ∀ {k}, Marked r doc k → k < doc.length := fun ⟨_, _, _, _, h, _⟩ => lt h
  rcases inner_spec (doc := doc) (r := r) doc.length (Nat.le_refl _) none _ rfl with
    ⟨f, t, x, h1, h2, h3, e, h4, h5⟩ | ⟨h1, ⟨f, t, x, h2, h3, h4, e, h5, h6⟩ | ⟨h2, ⟨h3, -⟩ | ⟨-, ⟨f, t, x, h3, h4, e, h5, h6⟩ | ⟨h3, e⟩⟩⟩⟩
  · rw [e]
    dsimp only
    have : x.start = f := h5.1
    rw [this]
    exact ⟨.inl ⟨h2, fun k hk hf => h3 k hk (ltF hf) hf⟩, t, h4, h5⟩
  · rw [e]
    dsimp only
    have : x.start = f := h6.1
    rw [this]
    exact ⟨.inr (.inl ⟨fun k hk => h1 k (ltF hk) hk, h3, h4⟩), t, h5, h6⟩
  · cases h3
  · rw [e]
    dsimp only
    have : x.start = f := h6.1
    rw [this]
    exact ⟨.inr (.inr ⟨fun k hk => h2 k (ltM hk) hk, ⟨t, h5⟩, h4⟩), t, h5, h6⟩
  · rw [e]
    exact fun k t hk => h3 k (lt hk) t hk

/-- What is chosen when there is no heading, for one kind of numbers. -/
theorem noTitle_chosen {doc : List Str} {r : Re} : ∀ n ≤ doc.length, match noTitleLoop doc r n with
    | none => ∀ k < n, ¬ ListBegins r doc k
    | some d => d.start < n ∧ ListBegins r doc d.start ∧ (∀ k, d.start < k → k < n → ¬ ListBegins r doc k) ∧ d.title = none ∧ d.sameLine = false ∧
        d.pattern = some r := by
  intro n
  induction n with
  | zero => intro _; simp [noTitleLoop]
  | succ n ih =>
    intro hn
    have ih := ih (by omega)
    have hnum : ∀ {num line : Str}, (hasNumber r num line).isSome = true ↔ HasNumber r num line := by
      intro num line
      unfold hasNumber HasNumber
      cases h : reMatch r (strip line) with
      | none => simp
      | some m =>
        dsimp only
        by_cases h2 : (m.group G.marknum == some num) = true
        · rw [if_pos h2]; simpa using h2
        · rw [if_neg h2]; simpa using h2
    have pass : ¬ ListBegins r doc n → match noTitleLoop doc r n with
        | none => ∀ k < n + 1, ¬ ListBegins r doc k
        | some d => d.start < n + 1 ∧ ListBegins r doc d.start ∧ (∀ k, d.start < k → k < n + 1 → ¬ ListBegins r doc k) ∧ d.title = none ∧
          d.sameLine = false ∧ d.pattern = some r := by
      intro hno
      cases h : noTitleLoop doc r n with
      | none =>
        rw [h] at ih
        intro k hk
        rcases Nat.lt_succ_iff_lt_or_eq.1 hk with h | rfl
        · exact ih k h
        · exact hno
      | some d =>
        rw [h] at ih
        obtain ⟨h1, h2, h3, h4⟩ := ih
        refine ⟨by omega, h2, fun k hk hk' => ?_, h4⟩
        rcases Nat.lt_succ_iff_lt_or_eq.1 hk' with h | rfl
        · exact h3 k hk h
        · exact hno
    unfold noTitleLoop
    cases hl : doc[n]? with
    | none => exact pass fun ⟨l, h1, _⟩ => by rw [hl] at h1; cases h1
    | some line =>
      dsimp only
      cases hm : hasNumber r (py! "1") line with
      | none =>
        refine pass fun ⟨l, h1, h2, _⟩ => ?_
        rw [hl] at h1
        cases h1
        rw [← hnum, hm] at h2
        cases h2
      | some m =>
        dsimp only
        have h1 : HasNumber r (py! "1") line := hnum.1 (by rw [hm]; rfl)
        have hz : (decide (((doc.drop (n + 1)).take 10).length < 5) || ((doc.drop (n + 1)).take 10).any fun l => (hasNumber r (py! "2") l).isSome) = true ↔
            (doc.length < n + 6 ∨ ∃ k l, n < k ∧ k ≤ n + 10 ∧ doc[k]? = some l ∧ HasNumber r (py! "2") l) := by
          simp only [Bool.or_eq_true, decide_eq_true_eq, List.any_eq_true, List.length_take, List.length_drop]
          refine or_congr (by omega) ⟨?_, ?_⟩
          · rintro ⟨l, h2, h3⟩
            obtain ⟨i, hi, e⟩ := List.mem_iff_getElem.1 h2
            simp only [List.length_take, List.length_drop] at hi
            simp only [List.getElem_take, List.getElem_drop] at e
            exact ⟨n + 1 + i, l, by omega, by omega, by rw [← e]; exact List.getElem?_eq_getElem _, hnum.1 h3⟩
          · rintro ⟨k, l, h2, h3, h4, h5⟩
            refine ⟨l, ?_, hnum.2 h5⟩
            rw [List.mem_iff_getElem?]
            refine ⟨k - (n + 1), ?_⟩
            rw [List.getElem?_take, if_pos (by omega), List.getElem?_drop]
            rw [show n + 1 + (k - (n + 1)) = k by omega]
            exact h4
        by_cases hc : (decide (((doc.drop (n + 1)).take 10).length < 5) || ((doc.drop (n + 1)).take 10).any fun l => (hasNumber r (py! "2") l).isSome) = true
        · rw [if_pos hc]
          exact ⟨by simp, ⟨line, hl, h1, hz.1 hc⟩, fun k h2 h3 => by (simp only at h2; omega), rfl, rfl, rfl⟩
        · rw [if_neg hc]
          refine pass fun ⟨l, h2, h3, h4⟩ => hc (hz.2 h4)

end Py
