import Verif.Lemmas.Known2
import Verif.Lemmas.Numbered3
import Verif.Lemmas.Collab2
import Verif.Lemmas.Author2
import Verif.Props.Numeration
import Verif.Props.Tag

/-!
# Helper lemmas: an article in a known journal, from the marker to the tagged line
-/

namespace Py
open Spec
open scoped List

theorem among {a b : List Char} (h : a.all b.contains = true) {c : Char} (hc : c ∈ a) : c ∈ b := by
  simpa using List.all_eq_true.1 h c hc

/-! ### What a written numeration tells -/

theorem written_parts {w : Str} {t : Told} (h : Written w t) :
    (t.series = none ∨ ∃ x ∈ py! "ABCDEFGH", t.series = some [x]) ∧ AsciiDigits t.volume ∧ AsciiYear t.year ∧ AsciiDigits t.page ∧
    (∀ q, t.last = some q → AsciiDigits q) ∧ ∃ c w', w = c :: w' ∧ c ∈ py! "0123456789ABCDEFGH" := by
  have hd : ∀ {v : Str}, AsciiDigits v → ∀ r : Str, ∃ c w', v ++ r = c :: w' ∧ c ∈ py! "0123456789ABCDEFGH" := by
    intro v hv r
    cases v with
    | nil => exact absurd rfl hv.1
    | cons c v => exact ⟨c, v ++ r, rfl, among (by decide) (hv.2 c (by simp))⟩
  have hx : ∀ {x : Char}, x ∈ py! "ABCDEFGH" → x ∈ py! "0123456789ABCDEFGH" := among (by decide)
  cases h with
  | volYearPage v y p h1 h2 h3 => exact ⟨.inl rfl, h1, h2, h3, by simp, by simp only [List.append_assoc]; exact hd h1 _⟩
  | volYearPageTight v y p h1 h2 h3 => exact ⟨.inl rfl, h1, h2, h3, by simp, by simp only [List.append_assoc]; exact hd h1 _⟩
  | volYearPages v y p q h1 h2 h3 h4 => exact ⟨.inl rfl, h1, h2, h3, by rintro q ⟨⟩; exact h4, by simp only [List.append_assoc]; exact hd h1 _⟩
  | volPageYear v y p h1 h2 h3 => exact ⟨.inl rfl, h1, h2, h3, by simp, by simp only [List.append_assoc]; exact hd h1 _⟩
  | volPageYearBlank v y p h1 h2 h3 => exact ⟨.inl rfl, h1, h2, h3, by simp, by simp only [List.append_assoc]; exact hd h1 _⟩
  | volPageYearColon v y p h1 h2 h3 => exact ⟨.inl rfl, h1, h2, h3, by simp, by simp only [List.append_assoc]; exact hd h1 _⟩
  | volPagesYear v y p q h1 h2 h3 h4 => exact ⟨.inl rfl, h1, h2, h3, by rintro q ⟨⟩; exact h4, by simp only [List.append_assoc]; exact hd h1 _⟩
  | seriesYearPage x v y p h0 h1 h2 h3 => exact ⟨.inr ⟨x, h0, rfl⟩, h1, h2, h3, by simp, _, _, rfl, hx h0⟩
  | seriesBlankYearPage x v y p h0 h1 h2 h3 => exact ⟨.inr ⟨x, h0, rfl⟩, h1, h2, h3, by simp, _, _, rfl, hx h0⟩
  | seriesPageYear x v y p h0 h1 h2 h3 => exact ⟨.inr ⟨x, h0, rfl⟩, h1, h2, h3, by simp, _, _, rfl, hx h0⟩

theorem year_chars {y : Str} (h : AsciiYear y) : y ≠ [] ∧ ∀ c ∈ y, c ∈ py! "0123456789" := by
  obtain ⟨c, a, b, rfl, hc, -, hd⟩ := h
  refine ⟨by simp, fun x hx => ?_⟩
  rcases List.mem_append.1 hx with hx | hx
  · rcases hc with rfl | rfl
    · simp only [List.mem_cons, List.not_mem_nil, or_false] at hx ⊢
      rcases hx with rfl | rfl <;> simp
    · simp only [List.mem_cons, List.not_mem_nil, or_false] at hx ⊢
      rcases hx with rfl | rfl <;> simp
  · exact hd x hx

theorem vol_chars {w : Str} {t : Told} (h : Written w t) : t.vol ≠ [] ∧ ∀ c ∈ t.vol, c ∈ py! "0123456789ABCDEFGH" := by
  obtain ⟨h1, h2, -⟩ := written_parts h
  have hv : ∀ c ∈ t.volume, c ∈ py! "0123456789ABCDEFGH" := by
    intro c hc
    exact among (by decide) (h2.2 c hc)
  refine ⟨by simp [Told.vol, h2.1], fun c hc => ?_⟩
  rcases List.mem_append.1 hc with hc | hc
  · rcases h1 with h1 | ⟨x, hx, h1⟩
    · rw [h1] at hc; cases hc
    · rw [h1] at hc
      simp only [Option.getD_some, List.mem_singleton] at hc
      subst hc
      exact among (by decide) hx
  · exact hv c hc

theorem pages_chars {w : Str} {t : Told} (h : Written w t) : t.pages ≠ [] ∧ ∀ c ∈ t.pages, c ∈ py! "0123456789-" := by
  obtain ⟨-, -, -, h3, h4, -⟩ := written_parts h
  have hv : ∀ {v : Str}, AsciiDigits v → ∀ c ∈ v, c ∈ py! "0123456789-" := by
    intro v hv c hc
    exact among (by decide) (hv.2 c hc)
  refine ⟨by simp [Told.pages, h3.1], fun c hc => ?_⟩
  rcases List.mem_append.1 hc with hc | hc
  · exact hv h3 c hc
  · cases hl : t.last with
    | none => rw [hl] at hc; cases hc
    | some q =>
      rw [hl] at hc
      rcases List.mem_cons.1 hc with rfl | hc
      · decide
      · exact hv (h4 q hl) c hc

/-! ### The volume tag -/

theorem lt_step {x a b : Str} (ha : '<' ∉ a) (hx : '<' ∉ x) (h1 : ¬ x <+: b) (h2 : ¬ ('<' :: x) <:+: b) : ¬ ('<' :: x) <:+: a ++ '<' :: b := by
  rintro ⟨u, v, e⟩
  have e' : u ++ '<' :: (x ++ v) = a ++ '<' :: b := by simpa using e
  rcases List.append_eq_append_iff.1 e' with ⟨a', rfl, e2⟩ | ⟨c', rfl, e2⟩
  · cases a' with
    | nil => simp only [List.nil_append, List.cons.injEq, true_and] at e2; exact h1 ⟨v, e2⟩
    | cons d a' =>
      simp only [List.cons_append, List.cons.injEq] at e2
      exact ha (by simp [← e2.1])
  · cases c' with
    | nil => simp only [List.nil_append, List.cons.injEq, true_and] at e2; exact h1 ⟨v, e2.symm⟩
    | cons d c' =>
      simp only [List.cons_append, List.cons.injEq] at e2
      exact h2 ⟨c', v, by rw [e2.2]; simp⟩

theorem volume_text {m : Str} [UnicodeDB] (h : Lang Rx.re_wash_volume_tag m) : ∃ c r, m = '<' :: (py! "cds.VOL>" ++ [c, ' ']) ++ r ∧ isWord c = true := by
  obtain ⟨a, b, rfl, rfl, c, d, rfl, ⟨x, rfl, hx⟩, e, f, rfl, ⟨y, rfl, hy⟩, -⟩ := h
  have : y = ' ' := by simpa [CSet.mem, CItem.mem] using hy
  subst this
  exact ⟨x, f, by simp, by simpa [CSet.mem, CItem.mem] using hx⟩

/-- A tagged article. -/
def article (pre J vol year page tail : Str) : Str :=
  pre ++ enclose (py! "JOURNAL") J ++ ' ' :: enclose (py! "VOL") vol ++ ' ' :: enclose (py! "YR") ('(' :: year ++ [')']) ++
    ' ' :: enclose (py! "PG") page ++ tail

theorem article_render (pre J vol year page tail : Str) :
    article pre J vol year page tail = renderLine [(pre, .journal false J none vol (some year) page)] tail := by
  simp [article, renderLine, Item.render, renderNumeration]

theorem wash_article [UnicodeDB] {pre J vol year page tail : Str} (h1 : '<' ∉ pre) (h2 : '<' ∉ J) (h3 : vol ≠ [] ∧ '<' ∉ vol ∧ ' ' ∉ vol) (h4 : '<' ∉ year)
    (h5 : '<' ∉ page) (h6 : '<' ∉ tail) : washVolumeTag (article pre J vol year page tail) = article pre J vol year page tail := by
  refine sub_of_no_match ?_
  rw [List.eq_nil_iff_forall_not_mem]
  intro m hm
  obtain ⟨p, q, e, hok⟩ := finditer_ok hm
  obtain ⟨c, r, e2, hcw⟩ := volume_text hok.lang
  have hin : '<' :: (py! "cds.VOL>" ++ [c, ' ']) <:+: article pre J vol year page tail := ⟨p, r ++ q, by rw [e, e2]; simp⟩
  have hc : c ≠ '<' := by
    rintro rfl
    have : isWord '<' = false := rfl
    rw [this] at hcw
    cases hcw
  revert hin
  have hx : '<' ∉ py! "cds.VOL>" ++ [c, ' '] := by
    simp only [List.mem_append, List.mem_cons, List.not_mem_nil, or_false, not_or]
    exact ⟨by decide, fun h => hc h.symm, by decide⟩
  have no : ∀ {t : Str}, '<' ∉ t → ¬ ('<' :: (py! "cds.VOL>" ++ [c, ' '])) <:+: t := by
    intro t ht hi
    exact ht (hi.subset (by simp))
  have ne : ∀ {d : Char} {t : Str}, d ≠ 'c' → ¬ (py! "cds.VOL>" ++ [c, ' ']) <+: d :: t := by
    rintro d t hd ⟨v, e⟩
    exact hd (by simpa using congrArg List.head? e.symm)
  have ne4 : ∀ {d : Char} {t : Str}, d ≠ 'V' → ¬ (py! "cds.VOL>" ++ [c, ' ']) <+: 'c' :: 'd' :: 's' :: '.' :: d :: t := by
    rintro d t hd ⟨v, e⟩
    simp at e
    exact hd e.1.symm
  have shape : article pre J vol year page tail = pre ++ '<' :: (py! "cds.JOURNAL>" ++ J ++ '<' :: (py! "/cds.JOURNAL> " ++ '<' :: (py! "cds.VOL>" ++ vol ++ '<' ::
      (py! "/cds.VOL> " ++ '<' :: (py! "cds.YR>(" ++ year ++ py! ")" ++ '<' :: (py! "/cds.YR> " ++ '<' :: (py! "cds.PG>" ++ page ++ '<' :: (py! "/cds.PG>" ++ tail)))))))) := by
    simp [article, enclose]
  rw [shape]
  refine lt_step h1 hx (ne4 (by decide)) (lt_step (by simp [h2]) hx (ne (by decide)) (lt_step (by decide) hx ?_ (lt_step (by simp [h3.2.1]) hx (ne (by decide))
    (lt_step (by decide) hx (ne4 (by decide)) (lt_step (by simp [h4]) hx (ne (by decide)) (lt_step (by decide) hx (ne4 (by decide)) (lt_step (by simp [h5]) hx (ne (by decide))
    (no (by simp [h6])))))))))
  rintro ⟨v, e⟩
  obtain ⟨hv, -, hb⟩ := h3
  cases vol with
  | nil => exact hv rfl
  | cons d vol =>
    simp at e
    cases vol with
    | nil => simp at e
    | cons d' vol => simp at e; exact hb (by simp [← e.2.1])

/-! ### Blanking -/

theorem flat_text {a s : Str} (ha : '<' ∉ a) (h : Flat s) : Flat (a ++ s) := by
  induction a with
  | nil => exact h
  | cons c a ih =>
    refine .ch ?_ (ih fun h => ha (by simp [h]))
    rintro ⟨w, r, e, ho⟩
    obtain ⟨u, rfl, -⟩ := opening_rest ho
    simp only [List.cons_append, List.cons.injEq] at e
    exact ha (by simp [e.1])

theorem closed_enclose {n b : Str} (hn : TagName n) (hb : '<' ∉ b) : ClosedTag (enclose n b) := .inl ⟨n, b, n, by simp [enclose], hn, hb, hn⟩

theorem cut_at {d : Char} : ∀ {a a' b b' : Str}, d ∉ a → d ∉ a' → a ++ d :: b = a' ++ d :: b' → a = a' ∧ b = b'
  | [], [], _, _, _, _, e => by simpa using e
  | [], x :: a', _, _, _, h, e => by
    simp only [List.nil_append, List.cons_append, List.cons.injEq] at e
    exact absurd (by simp [e.1]) h
  | x :: a, [], _, _, h, _, e => by
    simp only [List.nil_append, List.cons_append, List.cons.injEq] at e
    exact absurd (by simp [e.1]) h
  | x :: a, y :: a', _, _, h, h', e => by
    simp only [List.cons_append, List.cons.injEq] at e
    obtain ⟨rfl, e2⟩ := cut_at (fun h1 => h (by simp [h1])) (fun h1 => h' (by simp [h1])) e.2
    exact ⟨by rw [e.1], e2⟩

theorem closed_unique {n b s w s' : Str} (hn : TagName n) (hb : '<' ∉ b) (hw : ClosedTag w) (e : w ++ s' = enclose n b ++ s) :
    w = enclose n b ∧ s' = s := by
  have hg : ∀ {m : Str}, TagName m → '>' ∉ m := fun hm h => absurd (hm.2 _ h) (by decide)
  rcases hw with ⟨m, x, m', rfl, hm, hx, hm'⟩ | ⟨m, rfl, hm⟩
  · have e1 : m ++ '>' :: (x ++ '<' :: (py! "/cds." ++ (m' ++ '>' :: s'))) = n ++ '>' :: (b ++ '<' :: (py! "/cds." ++ (n ++ '>' :: s))) := by
      simpa [enclose] using e
    obtain ⟨rfl, e2⟩ := cut_at (hg hm) (hg hn) e1
    obtain ⟨rfl, e3⟩ := cut_at hx hb e2
    have e4 : m' ++ '>' :: s' = m ++ '>' :: s := by simpa using e3
    obtain ⟨rfl, rfl⟩ := cut_at (hg hm') (hg hn) e4
    exact ⟨by simp [enclose], rfl⟩
  · have e1 : (m ++ py! " /") ++ '>' :: s' = n ++ '>' :: (b ++ '<' :: (py! "/cds." ++ (n ++ '>' :: s))) := by
      simpa [enclose] using e
    have : '>' ∉ m ++ py! " /" := by
      rw [List.mem_append, not_or]
      exact ⟨hg hm, by decide⟩
    obtain ⟨e2, -⟩ := cut_at this (hg hn) e1
    exact absurd (hn.2 ' ' (by rw [← e2]; simp)) (by decide)

theorem blanked_enclose {n b s t : Str} (hn : TagName n) (hb : '<' ∉ b) (h : Blanked (enclose n b ++ s) t) :
    ∃ t', t = underscores (enclose n b).length ++ t' ∧ Blanked s t' := by
  generalize hl : enclose n b ++ s = l at h
  cases h with
  | nil => exact absurd hl (by simp [enclose])
  | ch hno _ => exact absurd ⟨_, s, hl.symm, closed_enclose hn hb⟩ hno
  | @tag w s' t' hw h =>
    obtain ⟨rfl, rfl⟩ := closed_unique hn hb hw hl.symm
    exact ⟨t', rfl, h⟩

theorem blanked_text {a s t : Str} (ha : '<' ∉ a) (h : Blanked (a ++ s) t) : ∃ t', t = a ++ t' ∧ Blanked s t' := by
  induction a generalizing t with
  | nil => exact ⟨t, rfl, h⟩
  | cons c a ih =>
    generalize hl : c :: a ++ s = l at h
    cases h with
    | nil => cases hl
    | @ch c' s' t' _ h =>
      simp only [List.cons_append, List.cons.injEq] at hl
      obtain ⟨rfl, rfl⟩ := hl
      obtain ⟨t2, rfl, h2⟩ := ih (fun h => ha (by simp [h])) h
      exact ⟨t2, rfl, h2⟩
    | @tag w s' t' hw h =>
      exfalso
      have : ∃ u, w = '<' :: u := by rcases hw with ⟨n, b, n', rfl, -⟩ | ⟨n, rfl, -⟩ <;> exact ⟨_, rfl⟩
      obtain ⟨u, rfl⟩ := this
      simp only [List.cons_append, List.cons.injEq] at hl
      exact ha (by simp [hl.1])

theorem strip_article [UnicodeDB] {pre J vol year page tail : Str} (h1 : '<' ∉ pre) (h2 : '<' ∉ J) (h3 : '<' ∉ vol) (h4 : '<' ∉ year)
    (h5 : '<' ∉ page) (h6 : '<' ∉ tail) : ∃ g, (∀ c ∈ g, c = '_' ∨ c = ' ') ∧ stripTags (article pre J vol year page tail) = pre ++ g ++ tail := by
  have n1 : TagName (py! "JOURNAL") := ⟨by decide, by decide⟩
  have n2 : TagName (py! "VOL") := ⟨by decide, by decide⟩
  have n3 : TagName (py! "YR") := ⟨by decide, by decide⟩
  have n4 : TagName (py! "PG") := ⟨by decide, by decide⟩
  have h4' : '<' ∉ '(' :: year ++ [')'] := by simp [h4]
  have shape : article pre J vol year page tail = pre ++ (enclose (py! "JOURNAL") J ++ (py! " " ++ (enclose (py! "VOL") vol ++ (py! " " ++
      (enclose (py! "YR") ('(' :: year ++ [')']) ++ (py! " " ++ (enclose (py! "PG") page ++ (tail ++ [])))))))) := by
    simp [article]
  have hf : NoNesting (article pre J vol year page tail) := by
    rw [shape]
    exact flat_noNesting (flat_text h1 (.tag (closed_enclose n1 h2) (flat_text (by decide) (.tag (closed_enclose n2 h3) (flat_text (by decide)
      (.tag (closed_enclose n3 h4') (flat_text (by decide) (.tag (closed_enclose n4 h5) (flat_text h6 .nil)))))))))
  have hb := (Props.C27_partial _ hf).1
  rw [shape] at hb
  obtain ⟨t1, e1, hb1⟩ := blanked_text h1 hb
  obtain ⟨t2, rfl, hb2⟩ := blanked_enclose n1 h2 hb1
  obtain ⟨t3, rfl, hb3⟩ := blanked_text (by decide) hb2
  obtain ⟨t4, rfl, hb4⟩ := blanked_enclose n2 h3 hb3
  obtain ⟨t5, rfl, hb5⟩ := blanked_text (by decide) hb4
  obtain ⟨t6, rfl, hb6⟩ := blanked_enclose n3 h4' hb5
  obtain ⟨t7, rfl, hb7⟩ := blanked_text (by decide) hb6
  obtain ⟨t8, rfl, hb8⟩ := blanked_enclose n4 h5 hb7
  obtain ⟨t9, rfl, hb9⟩ := blanked_text h6 hb8
  have : t9 = [] := by
    generalize hl : ([] : Str) = l at hb9
    cases hb9 with
    | nil => rfl
    | ch => cases hl
    | tag hw _ => rcases hw with ⟨n, b, n', rfl, -⟩ | ⟨n, rfl, -⟩ <;> simp at hl
  subst this
  refine ⟨underscores (enclose (py! "JOURNAL") J).length ++ (py! " " ++ (underscores (enclose (py! "VOL") vol).length ++ (py! " " ++
      (underscores (enclose (py! "YR") ('(' :: year ++ [')'])).length ++ (py! " " ++ underscores (enclose (py! "PG") page).length))))), ?_, ?_⟩
  · intro c hc
    simp only [List.mem_append] at hc
    have hu : ∀ {n : Nat}, c ∈ underscores n → c = '_' := fun h => List.eq_of_mem_replicate h
    have hs : c ∈ py! " " → c = ' ' := fun h => by simpa using h
    rcases hc with h | h | h | h | h | h | h
    · exact .inl (hu h)
    · exact .inr (hs h)
    · exact .inl (hu h)
    · exact .inr (hs h)
    · exact .inl (hu h)
    · exact .inr (hs h)
    · exact .inl (hu h)
  · rw [shape, e1]
    simp only [List.append_assoc, List.append_nil]

/-! ### Authors and collaborations -/

/-- No word of these letters matches. -/
def barren (A : List Char) : Re → Bool
  | .seq a b => barren A a || barren A b
  | .group _ a => barren A a
  | .set k => A.all fun c => !(@CSet.mem asciiDB k c)
  | .str w => w.any fun c => !A.contains c
  | .alt a b => barren A a && barren A b
  | .fail => true
  | _ => false

variable [UnicodeDB]

theorem barren_sound {A : List Char} (hA : ∀ c ∈ A, isAscii c = true) : ∀ {r : Re}, barren A r = true → ∀ {w : Str}, (∀ c ∈ w, c ∈ A) → ¬ Lang r w
  | .seq a b, h, w, hw, hl => by
    obtain ⟨u, v, rfl, hu, hv⟩ := hl
    simp only [barren, Bool.or_eq_true] at h
    rcases h with h | h
    · exact barren_sound hA h (fun c hc => hw c (by simp [hc])) hu
    · exact barren_sound hA h (fun c hc => hw c (by simp [hc])) hv
  | .group _ a, h, w, hw, hl => barren_sound (r := a) hA h hw hl
  | .set k, h, w, hw, hl => by
    obtain ⟨c, rfl, hc⟩ := hl
    have := List.all_eq_true.1 h c (hw c (by simp))
    rw [mem_ascii (hA c (hw c (by simp)))] at hc
    simp [hc] at this
  | .str x, h, w, hw, hl => by
    cases hl
    obtain ⟨c, hc, hn⟩ := List.any_eq_true.1 h
    simp [hw c hc] at hn
  | .alt a b, h, w, hw, hl => by
    simp only [barren, Bool.and_eq_true] at h
    rcases hl with hl | hl
    · exact barren_sound hA h.1 hw hl
    · exact barren_sound hA h.2 hw hl
  | .fail, _, w, _, hl => hl

theorem barren_finditer {A : List Char} (hA : ∀ c ∈ A, isAscii c = true) {r : Re} (h : barren A r = true) {s : Str} (hs : ∀ c ∈ s, c ∈ A) :
    finditer r s = [] := by
  rw [List.eq_nil_iff_forall_not_mem]
  intro m hm
  obtain ⟨p, q, rfl, hok⟩ := finditer_ok hm
  exact barren_sound hA h (fun c hc => hs c (by simp [hc])) hok.lang

omit [UnicodeDB] in
theorem replace_absent {old new : Str} : ∀ {s : Str}, ¬ old <:+: s → replace s old new = s := by
  intro s
  unfold replace
  induction s with
  | nil => intro _; rfl
  | cons c s ih =>
    intro h
    have h1 : old.isPrefixOf (c :: s) = false := by
      cases hp : old.isPrefixOf (c :: s) with
      | false => rfl
      | true => exact absurd (List.isPrefixOf_iff_prefix.1 hp).isInfix h
    rw [replaceGo, if_neg (by rw [h1]; simp), ih fun hi => h (hi.trans (List.suffix_cons c s).isInfix)]

omit [UnicodeDB] in
theorem replace_fold {line : Str} : ∀ {kb : List (Str × Str)}, (∀ p ∈ kb, ¬ p.1 <:+: line) → kb.foldl (fun l p => replace l p.1 p.2) line = line
  | [], _ => rfl
  | p :: kb, h => by
    rw [List.foldl_cons, replace_absent (h p (by simp))]
    exact replace_fold fun p hp => h p (by simp [hp])

theorem tagAuthors_none {lib : Lib} {line : Str} {kb : List (Str × Str)} (hk : ∀ p ∈ kb, ¬ p.1 <:+: line) (hu : lib.unidecode line = line)
    (hn : finditer Rx.RE_AUTH (stripTags line) = []) : tagAuthors lib line kb = .ok line := by
  unfold tagAuthors
  simp only [replace_fold hk, hu, hn]
  rfl

theorem tagCollaborations_none {line : Str} : ∀ {kb : List (Str × Re)}, (∀ p ∈ kb, finditer p.2 (stripTags line) = []) → tagCollaborations line kb = .ok line
  | [], _ => rfl
  | p :: kb, h => by
    unfold tagCollaborations
    rw [List.foldlM_cons, h p (by simp)]
    exact tagCollaborations_none fun p hp => h p (by simp [hp])

/-! ### The marker -/

theorem removeMarker_numbered (n : Nat) {t : Str} (ht : NoSpaceFirst t) : removeMarker (bracketed n ++ ' ' :: t) = (bracketed n, t) := by
  have hns : NoSpaceFirst (bracketed n ++ ' ' :: t) := by
    intro c hc
    have : c = '[' := by simpa [bracketed] using hc.symm
    subst this
    rfl
  have h1 := removeMarker_bracketed n (' ' :: t)
  rcases removeMarker_cases hns with ⟨l1, q, l2, mk, post, -, -, e2, -, -, e4⟩ | ⟨-, e4⟩
  · rw [e4] at h1 ⊢
    dsimp only at h1
    subst h1
    have := List.append_cancel_left e2
    subst this
    have : lstrip (' ' :: t) = t := by
      have h2 := lstrip_first ht
      unfold lstrip lstripP at h2 ⊢
      rw [List.dropWhile_cons_of_pos (by decide)]
      exact h2
    rw [this]
  · rw [e4] at h1
    exact absurd (congrArg List.head? h1) (by simp [bracketed])

/-! ### The title and its numeration -/

theorem skip_place {pre b p r : Str} (hp : ∀ c ∈ p, c ∈ ['.', ':', '-', ')']) (hr : ∀ c, r.head? = some c → c ∉ ['.', ':', '-', ')']) :
    skipPunctuation (pre ++ b ++ (p ++ r)) (pre.length + b.length) = pre.length + b.length + p.length := by
  unfold skipPunctuation
  rw [← List.length_append, List.drop_left]
  congr 2
  rw [List.takeWhile_append_of_pos (by simpa [inSet] using hp)]
  cases r with
  | nil => simp
  | cons c r =>
    have := hr c rfl
    rw [List.takeWhile_cons_of_neg]
    · simp
    · simpa [inSet] using this

theorem rsplit1_absent {c : Char} {s : Str} (h : c ∉ s) : rsplit1 c s = none := by
  have : ∀ t : Str, c ∉ t → split1 c t = none := by
    intro t
    induction t with
    | nil => intro _; rfl
    | cons x t ih =>
      intro h
      rw [split1, if_neg fun e => h (by simp [e]), ih fun h' => h (by simp [h'])]
      rfl
  rw [rsplit1, this _ (by simpa using h)]
  rfl

/-- What is expected of the title and its numeration. -/
structure Places (X pre b p lead w tail K J : Str) (t : Told) (f : Found) : Prop where
  text : X = pre ++ b ++ (p ++ (lead ++ w ++ tail))
  skip : ∀ c ∈ p, c ∈ ['.', ':', '-', ')']
  lead : lead = [] ∨ lead = py! " " ∨ lead = py! ", "
  num : Written w t
  stops : Stops tail
  journals : ∃ i, f.journals = [(i, K)] ∧ accountSpaces f.spaces (some K.length) i = (pre.length, b.length - K.length)
  repLens : f.repLens = []
  repTexts : f.repTexts = []
  publishers : f.publishers = []
  len : K.length ≤ b.length
  ibid : ¬ py! "IBID" <:+: upper K
  std : dget f.std K = some J
  noSemi : ';' ∉ J

theorem rebuildTagged_single {X pre b p lead w tail K J : Str} {t : Told} {f : Found} (h : Places X pre b p lead w tail K J t f)
    (pubs : List (Str × Re × Str)) : rebuildTagged X f pubs = .ok (washVolumeTag (article pre J t.vol t.year t.pages tail)) := by
  obtain ⟨i, hj, hsp⟩ := h.journals
  obtain ⟨hs, hv, hy, hp, hl, c, w', hw, hc⟩ := written_parts h.num
  have hloc : locations f = [(i, .journal)] := by
    unfold locations
    rw [hj, h.repTexts, h.publishers]
    rfl
  have hskip : skipPunctuation X (pre.length + b.length) = pre.length + b.length + p.length := by
    rw [h.text]
    refine skip_place h.skip ?_
    intro x hx
    rcases h.lead with e | e | e
    · rw [e, hw] at hx
      cases hx
      have : ∀ c ∈ py! "0123456789ABCDEFGH", c ∉ ['.', ':', '-', ')'] := by decide
      exact this c hc
    · rw [e] at hx; cases hx; decide
    · rw [e] at hx; cases hx; decide
  have hdrop : X.drop (pre.length + b.length + p.length) = lead ++ w ++ tail := by
    rw [h.text, show pre ++ b ++ (p ++ (lead ++ w ++ tail)) = (pre ++ b ++ p) ++ (lead ++ w ++ tail) by simp,
      show pre.length + b.length + p.length = (pre ++ b ++ p).length by simp; omega, List.drop_left]
  have hdrop2 : X.drop (pre.length + b.length + p.length + (lead.length + w.length)) = tail := by
    rw [h.text, show pre ++ b ++ (p ++ (lead ++ w ++ tail)) = (pre ++ b ++ p ++ lead ++ w) ++ tail by simp,
      show pre.length + b.length + p.length + (lead.length + w.length) = (pre ++ b ++ p ++ lead ++ w).length by simp; omega, List.drop_left]
  have hidx : pre.length + K.length + (b.length - K.length) = pre.length + b.length := by have := h.len; omega
  have hslice : slice X 0 pre.length = pre := by rw [h.text]; simp [slice]
  have hnum := Props.C61_values lead w tail t h.lead h.num h.stops
  have hib : (find (py! "IBID") (upper K)).isSome = false := by
    cases hf : (find (py! "IBID") (upper K)).isSome with
    | false => rfl
    | true =>
      obtain ⟨u, v, e⟩ := find_isSome_iff.1 hf
      exact absurd ⟨u, v, e.symm⟩ h.ibid
  have htag : numerationTag (withSeries none ⟨some t.year, t.series, some t.volume, some t.page, t.last, lead.length + w.length⟩) =
      .ok (' ' :: enclose (py! "VOL") t.vol ++ ' ' :: enclose (py! "YR") ('(' :: t.year ++ [')']) ++ ' ' :: enclose (py! "PG") t.pages) := by
    obtain ⟨se, vo, ye, pa, la⟩ := t
    obtain ⟨y1, -⟩ := year_chars hy
    dsimp only at hs hv hy hp hl y1 ⊢
    cases ye with
    | nil => exact absurd rfl y1
    | cons y0 ye =>
      have hs' : se = none ∨ ∃ x, se = some [x] := by
        rcases hs with hs | ⟨x, -, hs⟩
        · exact .inl hs
        · exact .inr ⟨x, hs⟩
      have hl' : la = none ∨ ∃ c q, la = some (c :: q) := by
        cases la with
        | none => exact .inl rfl
        | some q =>
          cases q with
          | nil => exact absurd rfl (hl [] rfl).1
          | cons c q => exact .inr ⟨c, q, rfl⟩
      rcases hs' with rfl | ⟨x, rfl⟩ <;> rcases hl' with rfl | ⟨c, q, rfl⟩ <;>
        simp [numerationTag, withSeries, orElse, truthy, enclose, Told.vol, Told.pages, showVal, bind, Except.bind, pure, Except.pure]
  have hadd : addJournal X K none 0 pre.length (b.length - K.length) f.std =
      .ok (pre ++ enclose (py! "JOURNAL") J ++ (' ' :: enclose (py! "VOL") t.vol ++ ' ' :: enclose (py! "YR") ('(' :: t.year ++ [')']) ++ ' ' :: enclose (py! "PG") t.pages),
        pre.length + b.length + p.length + (lead.length + w.length), some ⟨J, t.series⟩) := by
    unfold addJournal journalHead journalNumeration
    simp only [hib, hidx, hskip, hdrop, hnum, h.std, rsplit1_absent h.noSemi, okBind, Bool.false_eq_true, if_false]
    dsimp only [pure, Except.pure]
    simp only [okBind, htag]
    have : (withSeries none ⟨some t.year, t.series, some t.volume, some t.page, t.last, lead.length + w.length⟩).series = t.series := by
      rcases hs with hs | ⟨x, -, hs⟩ <;> rw [hs] <;> rfl
    rw [this, hslice]
    simp [withSeries, enclose]
  unfold rebuildTagged
  rw [if_neg (by rw [hj]; simp), hloc, List.foldlM_cons]
  have hstep : replaceStep X f pubs (0, none, []) (i, .journal) = .ok (pre.length + b.length + p.length + (lead.length + w.length), some ⟨J, t.series⟩,
      pre ++ enclose (py! "JOURNAL") J ++ (' ' :: enclose (py! "VOL") t.vol ++ ' ' :: enclose (py! "YR") ('(' :: t.year ++ [')']) ++ ' ' :: enclose (py! "PG") t.pages)) := by
    unfold replaceStep
    dsimp only
    have : getKey (dget f.journals i) = .ok K := by rw [hj]; simp [dget, getKey]
    rw [this, okBind, hsp]
    dsimp only
    rw [hadd, okBind]
    rfl
  rw [hstep, okBind]
  dsimp only [List.foldlM_nil, pure, Except.pure]
  rw [okBind]
  dsimp only
  rw [hdrop2]
  congr 2
  simp [article]

end Py
