import Verif.Lemmas.Arxiv3
import Verif.Lemmas.Doi3

/-!
# Helper lemmas: a line with one arXiv identifier, from the line to the reference
-/

namespace Py
open Spec
open scoped List

variable [UnicodeDB]

/-! ### Clean texts -/

omit [UnicodeDB] in
theorem clean_told {ws : List Str} {s : Str} (hs : ∀ c ∈ s, c ∈ markChars) (hw : ∀ w ∈ ws, ∀ c ∈ w, smallLetter c = c ∧ smallLetter (swapCase c) = c)
    (h : ∀ w ∈ ws, ¬ w <:+: s.map smallLetter) : CleanIn (wordsOnly ws) s := by
  refine ⟨hs, ?_⟩
  rintro ⟨f, hf, x, hx, hfx⟩
  rcases List.mem_append.1 hf with hf | hf
  · rw [List.mem_singleton.1 hf] at hfx
    cases hfx with
    | cons h1 _ => cases h1
  · obtain ⟨w, hww, rfl⟩ := List.mem_map.1 hf
    have e := all2_word (hw w hww) hfx
    apply h w hww
    obtain ⟨a, b, e2⟩ := hx
    exact ⟨a.map smallLetter, b.map smallLetter, by rw [← e, ← e2]; simp⟩

omit [UnicodeDB] in
theorem clean_untidy {s : Str} (hs : ∀ c ∈ s, c ∈ markChars) (h : ∀ w ∈ untidy, ¬ w <:+: s) : CleanIn untidyOnly s := by
  refine ⟨hs, ?_⟩
  rintro ⟨f, hf, x, hx, hfx⟩
  rcases List.mem_append.1 hf with hf | hf
  · rw [List.mem_singleton.1 hf] at hfx
    cases hfx with
    | cons h1 _ => cases h1
  · obtain ⟨w, hww, rfl⟩ := List.mem_map.1 hf
    rw [all2_single hfx] at hx
    exact h w hww hx

omit [UnicodeDB] in
theorem clean_seven {s : Str} (hs : ∀ c ∈ s, c ∈ markChars) (h : ∀ x, x <:+: s → x.length = 7 → ∃ c ∈ x, c ∉ py! "0123456789") : CleanIn sevenOnly s := by
  refine ⟨hs, ?_⟩
  rintro ⟨f, hf, x, hx, hfx⟩
  rcases List.mem_cons.1 hf with rfl | hf
  · cases hfx with
    | cons h1 _ => cases h1
  · rw [List.mem_singleton.1 hf] at hfx
    obtain ⟨e1, e2⟩ := all2_const hfx
    obtain ⟨c, h1, h2⟩ := h x hx e1
    exact h2 (e2 c h1)

omit [UnicodeDB] in
/-- A text without any of some characters that stand in front is behind them. -/
theorem infix_skip {x t : Str} : ∀ {n : Str}, (∀ c ∈ n, c ∉ x) → x <:+: n ++ t → x <:+: t
  | [], _, h => h
  | c :: n, hn, h => by
    rcases infix_beside (a := []) (hn c (by simp)) h with h | h
    · rw [List.infix_nil.1 h]; exact List.nil_infix
    · exact infix_skip (fun d hd => hn d (by simp [hd])) h

omit [UnicodeDB] in
/-- What stands in a text with one tag, without angle brackets. -/
theorem infix_tagged {N pre i tail x : Str} (hx : '<' ∉ x ∧ '>' ∉ x) (h : x <:+: pre ++ (tagged N i ++ tail)) :
    x <:+: pre ∨ x <:+: py! "cds." ++ N ∨ x <:+: i ∨ x <:+: py! "/cds." ++ N ∨ x <:+: tail := by
  have shape : pre ++ (tagged N i ++ tail) = pre ++ '<' :: ((py! "cds." ++ N) ++ '>' :: (i ++ '<' :: ((py! "/cds." ++ N) ++ '>' :: tail))) := by simp [tagged]
  rw [shape] at h
  rcases infix_beside hx.1 h with h | h
  · exact .inl h
  rcases infix_beside hx.2 h with h | h
  · exact .inr (.inl h)
  rcases infix_beside hx.1 h with h | h
  · exact .inr (.inr (.inl h))
  rcases infix_beside hx.2 h with h | h
  · exact .inr (.inr (.inr (.inl h)))
  · exact .inr (.inr (.inr (.inr h)))

omit [UnicodeDB] in
theorem infix_map {x s : Str} {f : Char → Char} (h : x <:+: s) : x.map f <:+: s.map f := by
  obtain ⟨a, b, rfl⟩ := h
  exact ⟨a.map f, b.map f, by simp⟩

omit [UnicodeDB] in
theorem tagged_map {N i : Str} : (tagged N i).map smallLetter = tagged (N.map smallLetter) (i.map smallLetter) := by
  unfold tagged
  simp only [List.map_append, List.map_cons, List.map_nil]
  rfl

/-- The characters of the tagged line. -/
theorem tagged_mark {yy mm num cat pre tail : Str} (hid : IdParts yy mm num cat) (hp : Calm pre) (ht : Calm tail) :
    ∀ c ∈ pre ++ (tagged (py! "ARXIV") (idText yy mm num cat) ++ tail), c ∈ markChars := by
  intro c hc
  unfold tagged at hc
  simp only [List.mem_append, List.mem_singleton] at hc
  have h0 : ∀ {c : Char} {s : Str}, c ∈ s → (∀ c ∈ s, c ∈ markChars) → c ∈ markChars := fun h h' => h' _ h
  rcases hc with hc | ((((((hc | hc) | hc) | hc) | hc) | hc) | hc) | hc
  · exact calm_mark (hp.chars c hc)
  · exact h0 hc (by decide)
  · exact h0 hc (by decide)
  · rw [hc]; decide
  · exact calm_mark (hid.idChars c hc)
  · exact h0 hc (by decide)
  · exact h0 hc (by decide)
  · rw [hc]; decide
  · exact calm_mark (ht.chars c hc)

theorem tagged_word {yy mm num cat pre tail W x : Str} (hid : IdParts yy mm num cat) (hcat : cat <:+: W) (hxs : x ∈ [py! "pos", py! "-conf-"])
    (hx : ¬ x <:+: (pre ++ W ++ tail).map smallLetter) : ¬ x <:+: (pre ++ (tagged (py! "ARXIV") (idText yy mm num cat) ++ tail)).map smallLetter := by
  intro h
  have sub : ∀ {y : Str}, y <:+: pre ++ W ++ tail → ¬ x <:+: y.map smallLetter := fun hy hi => hx (hi.trans (infix_map hy))
  have hdig : ∀ c ∈ py! "0123456789", smallLetter c = c ∧ c ∉ x := by
    intro c hc
    exact (by decide : ∀ x ∈ [py! "pos", py! "-conf-"], ∀ c ∈ py! "0123456789", smallLetter c = c ∧ c ∉ x) x hxs c hc
  have hsp : ∀ c ∈ py! "<>:. ", c ∉ x := (by decide : ∀ x ∈ [py! "pos", py! "-conf-"], ∀ c ∈ py! "<>:. ", c ∉ x) x hxs
  have dig : ∀ {s : Str}, (∀ c ∈ s, c ∈ calmChars) → (∀ c ∈ s, isDec c = true) → ∀ c ∈ s.map smallLetter, c ∉ x := by
    intro s h1 h2 c hc
    obtain ⟨d, hd, rfl⟩ := List.mem_map.1 hc
    have := hdig d (dec_mark (calm_mark (h1 d hd)) (h2 d hd))
    rw [this.1]; exact this.2
  rw [List.map_append, List.map_append, tagged_map] at h
  have no1 : ∀ x ∈ [py! "pos", py! "-conf-"], ¬ x <:+: py! "cds." ++ (py! "ARXIV").map smallLetter ∧ ¬ x <:+: py! "/cds." ++ (py! "ARXIV").map smallLetter ∧ ¬ x <:+: py! "arxiv" ∧ ¬ x <:+: [] := by
    intro x hx
    simp only [List.mem_cons, List.not_mem_nil, or_false] at hx
    rcases hx with rfl | rfl
    · refine ⟨fun h => ?_, fun h => ?_, fun h => ?_, fun h => ?_⟩ <;> exact absurd (h.subset (show 'p' ∈ _ by simp)) (by decide)
    · refine ⟨fun h => ?_, fun h => ?_, fun h => ?_, fun h => ?_⟩ <;> exact absurd (h.subset (show '-' ∈ _ by simp)) (by decide)
  rcases infix_tagged ⟨hsp _ (by simp), hsp _ (by simp)⟩ h with h | h | h | h | h
  · exact sub ⟨[], W ++ tail, by simp⟩ h
  · exact (no1 x hxs).1 h
  · have shape : (idText yy mm num cat).map smallLetter = py! "arxiv" ++ ':' :: ((yy ++ mm).map smallLetter ++ '.' :: ((num.map smallLetter) ++ (catText cat).map smallLetter)) := by
      simp only [idText, List.map_append, List.append_assoc]
      rfl
    rw [shape] at h
    rcases infix_beside (hsp ':' (by simp)) h with h | h
    · exact (no1 x hxs).2.2.1 h
    rcases infix_beside (hsp '.' (by simp)) h with h | h
    · have := infix_skip (t := []) (dig (s := yy ++ mm) (fun c hc => hid.chars c (by simp only [List.mem_append] at hc ⊢; exact .inl (.inl hc)))
        (fun c hc => (List.mem_append.1 hc).elim (hid.yearTwo.2 c) (hid.monthTwo.2 c))) (by simpa using h)
      exact (no1 x hxs).2.2.2 this
    · have h := infix_skip (dig (s := num) (fun c hc => hid.chars c (by simp [hc])) hid.numDec.2) h
      unfold catText at h
      split at h
      · exact (no1 x hxs).2.2.2 h
      · rw [List.map_cons] at h
        rcases infix_beside (a := []) (hsp ' ' (by simp)) h with h | h
        · exact (no1 x hxs).2.2.2 h
        · exact sub (hcat.trans ⟨pre, tail, rfl⟩) h
  · exact (no1 x hxs).2.1 h
  · exact sub ⟨pre ++ W, [], by simp⟩ h

theorem tagged_seven {yy mm num cat pre tail : Str} (hid : IdParts yy mm num cat) (hn : num.length ≤ 5) (hp : Calm pre) (ht : Calm tail) :
    ∀ x, x <:+: pre ++ (tagged (py! "ARXIV") (idText yy mm num cat) ++ tail) → x.length = 7 → ∃ c ∈ x, c ∉ py! "0123456789" := by
  intro x hx hl
  by_cases hd : ∃ c ∈ x, c ∉ py! "0123456789"
  · exact hd
  exfalso
  have hd : ∀ c ∈ x, c ∈ py! "0123456789" := by
    intro c hc
    by_cases h : c ∈ py! "0123456789"
    · exact h
    · exact absurd ⟨c, hc, h⟩ hd
  have hdn : ∀ c, c ∉ py! "0123456789" → c ∉ x := fun c h h' => h (hd c h')
  have hne : ∀ {s : Str}, (∀ c ∈ s, c ∉ py! "0123456789") → ¬ x <:+: s := by
    intro s hs hi
    cases x with
    | nil => cases hl
    | cons c x => exact hs c (hi.subset (by simp)) (hd c (by simp))
  have hlen : ∀ {s : Str}, x <:+: s → 7 ≤ s.length := fun h => by rw [← hl]; exact h.length_le
  rcases infix_tagged ⟨hdn _ (by decide), hdn _ (by decide)⟩ hx with h | h | h | h | h
  · obtain ⟨c, h1, h2⟩ := hp.digits x h hl
    exact h2 (hd c h1)
  · exact hne (by decide) h
  · have shape : idText yy mm num cat = py! "arXiv" ++ ':' :: ((yy ++ mm) ++ '.' :: (num ++ catText cat)) := by simp [idText]
    rw [shape] at h
    rcases infix_beside (hdn ':' (by decide)) h with h | h
    · exact hne (by decide) h
    rcases infix_beside (hdn '.' (by decide)) h with h | h
    · have := hlen h
      rw [List.length_append, hid.yearTwo.1, hid.monthTwo.1] at this
      omega
    · have hnc : ∀ c ∈ catText cat, c ∉ py! "0123456789" := fun c hc hm => by
        have := hid.cat_dec c hc
        rw [asciiDigit_dec hm] at this
        cases this
      have : x <:+: num := by
        cases hc : catText cat with
        | nil => rw [hc, List.append_nil] at h; exact h
        | cons d t =>
          rw [hc] at h hnc
          rcases infix_beside (hdn d (hnc d (by simp))) h with h | h
          · exact h
          · exact absurd h (hne fun c hc => hnc c (by simp [hc]))
      have := hlen this
      omega
  · exact hne (by decide) h
  · obtain ⟨c, h1, h2⟩ := ht.digits x h hl
    exact h2 (hd c h1)

/-- Everything with a fixed pattern in such a line. -/
theorem fixed_cited {lib : Lib} {ys ys5 : List Str} (hy : lib.years = Re.alts (ys.map Re.str)) (hy5 : lib.years5 = Re.alts (ys5.map Re.str))
    (hys : ∀ y ∈ ys, Two y) (hys5 : ∀ y ∈ ys5, Two y) {pre w tail i : Str} (hp : Calm pre) (hback : Calm tail)
    (hchars : ∀ c ∈ w, c ∈ calmChars) (hcited : ArxivCited w tail i) (hwords : ∀ x ∈ otherWords, ¬ x <:+: (pre ++ w ++ tail).map smallLetter)
    (htidy : ∀ x ∈ untidy, ¬ x <:+: pre ++ (w ++ tail)) :
    tagFixed lib (pre ++ (w ++ tail)) = .ok (pre ++ (tagged (py! "ARXIV") i ++ tail)) ∧ ∃ yy mm num cat, IdParts yy mm num cat ∧ i = idText yy mm num cat := by
  obtain ⟨e, yy, mm, num, cat, hid, rfl, hn4, hcat, hn5⟩ := tagArxiv_calm hy hy5 hys hys5 hp hback hchars hcited
  refine ⟨?_, yy, mm, num, cat, hid, rfl⟩
  have hc0 : ∀ c ∈ pre ++ (w ++ tail), c ∈ markChars := by
    intro c hc
    simp only [List.mem_append] at hc
    rcases hc with hc | hc | hc
    · exact calm_mark (hp.chars c hc)
    · exact calm_mark (hchars c hc)
    · exact calm_mark (hback.chars c hc)
  have hword : ∀ x ∈ otherWords, ¬ x <:+: (pre ++ (w ++ tail)).map smallLetter := fun x hx => by
    have := hwords x hx
    rwa [List.append_assoc] at this
  have hmem : ∀ w ∈ otherWords, ∀ c ∈ w, smallLetter c = c ∧ smallLetter (swapCase c) = c := by decide
  have u0 : CleanIn untidyOnly (pre ++ (w ++ tail)) := clean_untidy hc0 htidy
  have p0 : CleanIn (wordsOnly [py! "pos"]) (pre ++ (w ++ tail)) := clean_told hc0 (fun w hw => hmem w (by simp at hw; simp [hw])) fun x hx => hword x (by simp at hx; simp [hx])
  have b0 : CleanIn (wordsOnly [py! "sbn", py! "booknumber"]) (pre ++ (w ++ tail)) :=
    clean_told hc0 (fun w hw => hmem w (by simp at hw; rcases hw with hw | hw <;> simp [hw])) fun x hx => hword x (by simp at hx; rcases hx with hx | hx <;> simp [hx])
  have q0 : tagQuoted (pre ++ (w ++ tail)) = pre ++ (w ++ tail) := clean_sub b0 (badRe_isbn Rx.re_quoted (by simp)) _
  have i0 : tagIsbn (pre ++ (w ++ tail)) = pre ++ (w ++ tail) := clean_sub b0 (badRe_isbn Rx.re_isbn (by simp)) _
  have hc1 := tagged_mark hid hp hback
  have tw := fun x hx => tagged_word (tail := tail) (x := x) (pre := pre) (W := w) hid hcat hx
  have p1 : CleanIn (wordsOnly [py! "pos"]) (pre ++ (tagged (py! "ARXIV") (idText yy mm num cat) ++ tail)) :=
    clean_told hc1 (fun w hw => hmem w (by simp at hw; simp [hw])) fun x hx => tw x (by simp at hx; simp [hx]) (hwords x (by simp at hx; simp [hx]))
  have a1 : CleanIn (wordsOnly [py! "-conf-"]) (pre ++ (tagged (py! "ARXIV") (idText yy mm num cat) ++ tail)) :=
    clean_told hc1 (fun w hw => hmem w (by simp at hw; simp [hw])) fun x hx => tw x (by simp at hx; simp [hx]) (hwords x (by simp at hx; simp [hx]))
  have s1 : CleanIn sevenOnly (pre ++ (tagged (py! "ARXIV") (idText yy mm num cat) ++ tail)) := clean_seven hc1 (tagged_seven hid hn5 hp hback)
  have c1 := catchup_calm hid hn4 hp hback
  unfold tagFixed
  rw [clean_wash u0, clean_pos p0, okBind]
  dsimp only
  rw [clean_wash u0, q0, i0, e, clean_old s1 c1, clean_pos p1, okBind, clean_atlas a1]
  rfl

theorem fixed_arxiv {lib : Lib} {ys ys5 : List Str} (hy : lib.years = Re.alts (ys.map Re.str)) (hy5 : lib.years5 = Re.alts (ys5.map Re.str))
    (hys : ∀ y ∈ ys, Two y) (hys5 : ∀ y ∈ ys5, Two y) {n : Nat} {pre w tail i : Str} (h : ArxivLine n pre w tail i) :
    tagFixed lib (pre ++ (w ++ tail)) = .ok (pre ++ (tagged (py! "ARXIV") i ++ tail)) ∧ ∃ yy mm num cat, IdParts yy mm num cat ∧ i = idText yy mm num cat :=
  fixed_cited hy hy5 hys hys5 (calm_suffix (a := bracketed n ++ [' ']) (by simpa using h.front)) h.back h.chars h.cited h.words
    fun x hx hi => h.tidy x hx (hi.trans ⟨bracketed n ++ [' '], [], by simp⟩)

/-! ### The element -/

/-- The element of an arXiv identifier. -/
def arxivEl (s r : Str) : El := { ty := .reportnumber, misc := s, reportNum := some r, isArxiv := true }

theorem transform_arxiv {special : List Str} {books : Books} {s r : Str} {ts : List Str} (hs : finditer Rx.re_hdl s = []) (ht : ∀ t ∈ ts, finditer Rx.re_hdl t = []) :
    transformElements special books none (arxivEl s r :: ts.map textEl) = .ok (arxivEl s (formatHepStr (formatReport r)) :: ts.map textEl) := by
  have keep : ∀ (f : El → Py El), (∀ t, f (textEl t) = .ok (textEl t)) → eachEl f (ts.map textEl) = .ok (ts.map textEl) := by
    intro f h
    refine eachEl_same fun e he => ?_
    obtain ⟨t, -, rfl⟩ := List.mem_map.1 he
    exact h t
  have step : ∀ (f : El → Py El) (r r' : Str), f (arxivEl s r) = .ok (arxivEl s r') → (∀ t, f (textEl t) = .ok (textEl t)) →
      eachEl f (arxivEl s r :: ts.map textEl) = .ok (arxivEl s r' :: ts.map textEl) := by
    intro f r r' h1 h2
    rw [eachEl, h1, okBind, keep f h2, okBind]
    rfl
  unfold transformElements
  rw [step splitVolume1 r r rfl (fun _ => rfl), okBind, step formatVolume1 r r rfl (fun _ => rfl), okBind, step (specialJournal1 special) r r rfl (fun _ => rfl), okBind,
    step formatReportNumber1 r (formatReport r) rfl (fun _ => rfl), okBind, step formatAuthorEd1 _ _ rfl (fun _ => rfl), okBind]
  have hb : ∀ r, lookForBooks books (arxivEl s r :: ts.map textEl) = .ok (arxivEl s r :: ts.map textEl) := by
    intro r
    unfold lookForBooks
    have : (arxivEl s r :: ts.map textEl).find? (·.ty = .quoted) = none := by
      rw [List.find?_eq_none]
      intro e he
      rcases List.mem_cons.1 he with rfl | he
      · simp [arxivEl]
      · obtain ⟨t, -, rfl⟩ := List.mem_map.1 he
        simp [textEl]
    rw [this]
  rw [hb, okBind, step formatHepEl (formatReport r) (formatHepStr (formatReport r)) rfl (fun _ => rfl), okBind, step removeB1 _ _ rfl (fun _ => rfl), okBind,
    step mangleVolume1 _ _ rfl (fun _ => rfl), okBind, step arxivUrl1 _ _ rfl (fun _ => rfl), okBind]
  have hg : ∀ r, lookForHdl (arxivEl s r :: ts.map textEl) = arxivEl s r :: ts.map textEl := by
    intro r
    rw [lookForHdl, hdlGo_none]
    · rfl
    · intro e he
      rcases List.mem_cons.1 he with rfl | he
      · exact hs
      · obtain ⟨t, h, rfl⟩ := List.mem_map.1 he
        exact ht t h
  simp only [hg]
  rw [step hdlUrl1 _ _ rfl (fun _ => rfl), okBind]
  rfl

/-- The form of the identifier is kept. -/
theorem form_id {yy mm num cat : Str} (hid : IdParts yy mm num cat) : formatHepStr (formatReport (idText yy mm num cat)) = idText yy mm num cat := by
  have hn : (idText yy mm num cat).getLast? ≠ some '\n' := fun h => absurd (hid.idChars _ (List.mem_of_getLast? h)) (by decide)
  have hf := report_form hn
  generalize formatHepStr (formatReport (idText yy mm num cat)) = r at hf
  have hcut : ∀ a b, ¬ ReportCut (idText yy mm num cat) a b := by
    intro a b h
    cases a with
    | nil => exact h.some.1 rfl
    | cons c a =>
      have : 'a' = c := (List.cons.inj h.whole).1
      have := h.name c (by simp)
      subst c
      exact absurd this (by decide)
  cases hf with
  | hyphen h => exact absurd h (hcut _ _)
  | slash h =>
    obtain ⟨a, ha, b, hab, -⟩ := h
    exfalso
    have := congrArg (List.take 2) hab
    have h2 : ∀ a ∈ archives, 3 ≤ a.length ∧ List.take 2 a ≠ py! "ar" := by decide
    have h3 : List.take 2 (a ++ '-' :: b) = List.take 2 a := by rw [List.take_append_of_le_length]; have := (h2 a ha).1; omega
    rw [h3] at this
    exact (h2 a ha).2 this.symm
  | same => rfl

/-- From the line to the reference. -/
theorem references_arxiv {undesirable : Str → Str} {lib : Lib} {kbs : Kbs} {fmt : List FmtPart} {ys ys5 : List Str} (hy : lib.years = Re.alts (ys.map Re.str))
    (hy5 : lib.years5 = Re.alts (ys5.map Re.str)) (hys : ∀ y ∈ ys, Two y) (hys5 : ∀ y ∈ ys5, Two y) {n : Nat} {pre w tail i : Str} (hl : ArxivLine n pre w tail i)
    (ho : NothingAround kbs.tag pre (tagged (py! "ARXIV") i) tail)
    (hb : ∀ q ∈ kbs.books, ∀ u v y, YearOfTwo pre tail u v y → ¬ alnums (upper q.1) <:+: alnums (upper u) ∧ ¬ alnums (upper q.1) <:+: alnums (upper v))
    (hu : ∀ s, (∀ c ∈ s, isAscii c = true) → lib.unidecode s = s)
    (hw : undesirable (bracketed n ++ ' ' :: (pre ++ w ++ tail)) = bracketed n ++ ' ' :: (pre ++ w ++ tail)) :
    ∃ r u v y, parseReferences undesirable lib kbs fmt none [bracketed n ++ ' ' :: (pre ++ w ++ tail)] =
        .ok ([r], [0, 1, 0, 0, 0, 0, if LeftOver tail then 1 else 0]) ∧ YearOfTwo pre tail u v y ∧
      ∀ k, vals r k = under k (loneRecord n (bracketed n ++ ' ' :: (pre ++ w ++ tail)) u [(py! "reportnumber", i)] v y) := by
  have hpre : Calm pre := calm_suffix (a := bracketed n ++ [' ']) (by simpa using hl.front)
  obtain ⟨hfix, yy, mm, num, cat, hid, rfl⟩ := fixed_arxiv hy hy5 hys hys5 hl
  have hA : ∀ c ∈ calmChars, isAscii c = true := by decide
  have hin : ∀ c ∈ bracketed n ++ ' ' :: (pre ++ w ++ tail), c ∈ calmChars := by
    intro c hc
    have shape : bracketed n ++ ' ' :: (pre ++ w ++ tail) = (bracketed n ++ ' ' :: pre) ++ w ++ tail := by simp
    rw [shape, List.mem_append, List.mem_append] at hc
    rcases hc with (hc | hc) | hc
    · exact hl.front.chars c hc
    · exact hl.chars c hc
    · exact hl.back.chars c hc
  have hX : ∀ c ∈ pre ++ w ++ tail, c ∈ calmChars := fun c hc => hin c (by simp only [List.mem_append, List.mem_cons] at hc ⊢; exact .inr (.inr hc))
  have hdoi : finditer Rx.re_doi (pre ++ w ++ tail) = [] := barren_finditer hA (by decide +kernel) hX
  have hurl1 : finditer Rx.re_html_tagged_url (pre ++ w ++ tail) = [] := barren_finditer hA (by decide +kernel) hX
  have hurl2 : finditer Rx.re_raw_url (pre ++ w ++ tail) = [] := barren_finditer hA (by decide +kernel) hX
  have hdois : tagDois lib (pre ++ w ++ tail) = (pre ++ w ++ tail, []) := by
    unfold tagDois
    rw [hdoi]
    rfl
  have hurls : tagUrls (pre ++ w ++ tail) = (pre ++ w ++ tail, []) := by
    unfold tagUrls
    rw [hurl1]
    dsimp only [List.foldl_nil]
    rw [hurl2]
    rfl
  have hT : ClosedTag (tagged (py! "ARXIV") (idText yy mm num cat)) :=
    .inl ⟨py! "ARXIV", idText yy mm num cat, py! "ARXIV", rfl, ⟨by decide, by decide⟩, fun h => absurd (hid.idChars _ h) (by decide), ⟨by decide, by decide⟩⟩
  have hTa : ∀ c ∈ tagged (py! "ARXIV") (idText yy mm num cat), isAscii c = true ∧ c ≠ '\n' := by
    intro c hc
    have := tagged_mark hid (pre := pre) (tail := tail) hpre hl.back c (by simp [hc])
    exact (by decide : ∀ c ∈ markChars, isAscii c = true ∧ c ≠ '\n') c this
  have q1 : ∀ c ∈ pre, c ∈ quietChars := fun c hc => hl.quiet c (by simp [hc])
  have q2 : ∀ c ∈ tail, c ∈ quietChars := fun c hc => hl.quiet c (by simp [hc])
  have htag := tag_token (lib := lib) (kbs := kbs.tag) (l0 := pre ++ w ++ tail) (T := tagged (py! "ARXIV") (idText yy mm num cat)) (pre := pre) (tail := tail)
    (by rw [List.append_assoc, hfix, List.append_assoc]) hpre.chars hl.back.chars hl.quiet hT hTa ho hu
  have hh : ∀ {s : Str}, (∀ c ∈ s, c ∈ quietChars) → finditer Rx.re_hdl s = [] := fun h =>
    barren_finditer (A := quietChars) (by decide) (by decide +kernel) h
  have hparse := Props.C19 (toks := [(pre, .arxiv (idText yy mm num cat))]) (last := tail)
    (by
      intro q hq
      rw [List.mem_singleton] at hq
      subst hq
      refine ⟨noTags_of fun h => absurd (q1 _ h) (by decide), ?_⟩
      intro hi
      exact absurd (hid.idChars '<' (hi.subset (by simp))) (by decide))
    (noTags_of fun h => absurd (q2 _ h) (by decide)) [] []
  have hels : lineEls [(pre, Item.arxiv (idText yy mm num cat))] tail = arxivEl pre (idText yy mm num cat) :: (after tail).map textEl := by
    unfold lineEls after
    split <;> rfl
  rw [hels] at hparse
  have hparse' : parseTagged (pre ++ tagged (py! "ARXIV") (idText yy mm num cat) ++ tail) [] [] = .ok
      (arxivEl pre (idText yy mm num cat) :: (after tail).map textEl, { misc := if LeftOver tail then 1 else 0, reportnum := 1 }) := by
    refine Eq.trans (by simpa [Item.dois, Item.urls, renderLine, Item.render, tagged, enclose] using hparse) ?_
    unfold after
    by_cases h : LeftOver tail <;> simp [h, howMany, arxivEl, textEl]
  have htr := transform_arxiv (special := kbs.special) (books := kbs.books) (r := idText yy mm num cat) (ts := after tail) (hh q1) fun t ht => by
    unfold after at ht
    split at ht
    · rw [List.mem_singleton.1 ht]; exact hh q2
    · cases ht
  rw [form_id hid] at htr
  have hrep : washRepair undesirable (bracketed n ++ ' ' :: (pre ++ w ++ tail)) = bracketed n ++ ' ' :: (pre ++ w ++ tail) := by
    have htidy := hl.tidy (py! "  ") (by simp)
    generalize bracketed n ++ ' ' :: (pre ++ w ++ tail) = s at *
    have e1 : repairUrls s = s := few_repair hA hin (by
      rw [List.count_eq_zero.2 fun hm => absurd (hin _ hm) (by decide)]; exact Nat.zero_le _) (by decide +kernel)
    have e2 : finditer Rx.quoted_comma s = [] := by
      refine few_finditer (c := '"') hA hin ?_
      rw [List.count_eq_zero.2 fun hm => absurd (hin _ hm) (by decide)]
      decide +kernel
    have e3 : finditer Rx.re_multiple_space s = [] :=
      tidy_finditer (fun c hc hs => (by decide : ∀ c ∈ calmChars, isSpace c = true → c = ' ') c (hin c hc) hs) htidy
    unfold washRepair
    simp only [e1, hw, sub_of_no_match e2, sub_of_no_match e3]
  have hfirst : NoSpaceFirst (pre ++ w ++ tail) := by
    intro c hc
    cases hs : isSpace c with
    | false => rfl
    | true =>
      exfalso
      have hcc : c = ' ' := (by decide : ∀ c ∈ calmChars, isSpace c = true → c = ' ') c (hX c (List.mem_of_head? hc)) hs
      subst hcc
      have htidy := hl.tidy (py! "  ") (by simp)
      generalize pre ++ w ++ tail = s at hc htidy
      cases s with
      | nil => cases hc
      | cons e r => cases hc; exact htidy ⟨bracketed n, r, by simp⟩
  exact references_lone (undesirable := undesirable) (lib := lib) (kbs := kbs) (fmt := fmt) (n := n)
    (raw := bracketed n ++ ' ' :: (pre ++ w ++ tail)) (s := pre) (t := tail)
    (els := arxivEl pre (idText yy mm num cat) :: (after tail).map textEl) (count := [])
    (e := arxivEl pre (idText yy mm num cat)) (c := { misc := if LeftOver tail then 1 else 0, reportnum := 1 })
    (item := [(py! "reportnumber", idText yy mm num cat)]) hrep
    (by
      intro cs hcs
      unfold parseReferenceLine
      rw [removeMarker_numbered n hfirst]
      dsimp only
      rw [hdois]
      dsimp only
      rw [hurls]
      dsimp only
      rw [htag, okBind]
      dsimp only
      rw [hparse', okBind]
      dsimp only
      rw [hcs, okBind]
      rfl)
    htr
    (by simp [arxivEl, loneKinds]) rfl rfl (fun h => absurd (q1 _ h) (by decide)) (fun h => absurd (q2 _ h) (by decide)) (fun _ => hb)
    (fun m => rfl) (by intro p hp; rw [List.mem_singleton.1 hp]; simp [idText]) (fun m f => ⟨_, rfl⟩)

end Py
