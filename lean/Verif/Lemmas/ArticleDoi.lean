import Verif.Spec.ArticleDoi
import Verif.Lemmas.DoiList2
import Verif.Lemmas.Known5

/-!
# Helper lemmas: an article with its DOI, from the line to the tagged line
-/

namespace Py
open Spec
open scoped List

variable [UnicodeDB]

/-- What is recognised in a line with the title of one known journal and marks behind it. -/
theorem recognise_marked {kbs : TagKbs} {pre b r0 x tail K : Str} {ts : List (Str × Str)} (hcp : ∀ c ∈ pre, c ∈ calmChars) (hcb : ∀ c ∈ b, c ∈ calmChars)
    (hp : ∀ t ∈ (r0, x) :: ts, (∀ c ∈ t.1, c ∈ calmChars) ∧ ClosedTag t.2) (ht : ∀ c ∈ tail, c ∈ calmChars) (hkb : TitleKb kbs)
    (hpre : pre = [] ∨ pre.getLast? = some ' ') (hb1 : ∃ x ∈ solidChars, b.head? = some x) (hb2 : ∃ x ∈ solidChars, b.getLast? = some x)
    (hr : ∃ x ∈ py! " .,;:()-", r0.head? = some x) (hK : reading b = K) (hmem : K ∈ kbs.journalKeys) (ho : NothingFurther kbs K pre b ((r0, x) :: ts) tail) :
    ∃ f n, recognise (pre ++ b ++ inLine ((r0, x) :: ts) tail) kbs = .ok (f, [(K, n)]) ∧
      f.journals = [((reading pre).length, K)] ∧ f.repLens = [] ∧ f.repTexts = [] ∧ f.publishers = [] ∧
      f.std = dupdate kbs.journalStd (kbs.journalsRe.map fun p => (p.1, p.2.2)) ∧
      accountSpaces f.spaces (some K.length) (reading pre).length = (pre.length, b.length - K.length) ∧ K.length ≤ b.length := by
  obtain ⟨x', hx1, hx2⟩ := hb1
  obtain ⟨y, hy1, hy2⟩ := hb2
  obtain ⟨z, hz1, hz2⟩ := hr
  have hne : ∀ t ∈ (r0, x) :: ts, t.2 ≠ [] := by
    intro t h e
    rcases (hp t h).2 with ⟨n, b, n', e', -⟩ | ⟨n, e', -⟩ <;> rw [e] at e' <;> simp at e'
  have hpc : ∀ t ∈ (r0, x) :: ts, ∀ c ∈ t.1, c ∈ calmChars := fun t h => (hp t h).1
  have hline : pre ++ b ++ inLine ((r0, x) :: ts) tail = inLine ((pre ++ b ++ r0, x) :: ts) tail := by simp [inLine]
  have hp' : ∀ t ∈ (pre ++ b ++ r0, x) :: ts, ∀ c ∈ t.1, c ∈ calmChars := by
    intro t h c hc
    rcases List.mem_cons.1 h with rfl | h
    · simp only [List.mem_append] at hc
      rcases hc with (hc | hc) | hc
      · exact hcp c hc
      · exact hcb c hc
      · exact hpc (r0, x) (by simp) c hc
    · exact hpc t (by simp [h]) c hc
  have hcl : cleanedLine (pre ++ b ++ inLine ((r0, x) :: ts) tail) = pre.map rd ++ b.map rd ++ readLine ((r0, x) :: ts) tail := by
    rw [cleaned_eq, hline, strip_tokens ?_ (fun h => absurd (ht _ h) (by decide)), tokens_read hp' ht]
    · simp [readLine]
    · intro t h
      refine ⟨fun hm => absurd (hp' t h _ hm) (by decide), ?_⟩
      rcases List.mem_cons.1 h with rfl | h
      · exact (hp (r0, x) (by simp)).2
      · exact (hp t (by simp [h])).2
  have hsp : ∀ c ∈ pre.map rd ++ b.map rd ++ readLine ((r0, x) :: ts) tail, isSpace c = true → c = ' ' := by
    intro c h
    rw [List.mem_append, ← List.map_append] at h
    rcases h with h | h
    · obtain ⟨d, hd, rfl⟩ := List.mem_map.1 h
      refine readChars_space (rd_chars ?_)
      rcases List.mem_append.1 hd with hd | hd
      · exact hcp d hd
      · exact hcb d hd
    · exact readLine_space hpc ht c h
  obtain ⟨w1, w2, w3⟩ := squeezed_place hsp ⟨rd x', by rw [List.head?_map, hx2]; rfl, (solid_word hx1).2⟩
    ⟨rd y, by rw [List.getLast?_map, hy2]; rfl, (solid_word hy1).2⟩
  have e1 : squeezed (pre.map rd) = reading pre := by rw [reading, upper_rd hcp]
  have e2 : squeezed (b.map rd) = K := by rw [← hK, reading, upper_rd hcb]
  have e3 : squeezed (readLine ((r0, x) :: ts) tail) = maskedTexts ((r0, x) :: ts) tail := tokens_squeezed hne hpc ht
  rw [e1, e2, e3] at w1
  rw [e1, e2, List.length_map, List.length_map] at w2
  rw [e2, List.length_map] at w3
  have hKc : ∀ c ∈ K, c ∈ readChars := by rw [← hK]; exact reading_chars hcb
  have hmask := tokens_chars hpc ht
  have hsl : '/' ∉ reading pre ++ K ++ maskedTexts ((r0, x) :: ts) tail := by
    intro h
    rw [List.mem_append, List.mem_append] at h
    rcases h with (h | h) | h
    · exact absurd (reading_chars hcp _ h) (by decide)
    · exact absurd (hKc _ h) (by decide)
    · rcases hmask _ h with h | h
      · exact absurd h (by decide)
      · exact absurd h (by decide)
  obtain ⟨pairs, j1, j2, j3⟩ := hkb
  have hhead : (maskedTexts ((r0, x) :: ts) tail).head? = some (rd z) := by
    rw [← e3, squeezed_head, readLine, List.append_assoc, List.head?_append, List.head?_map, hz2]
    rfl
  generalize hM : maskedTexts ((r0, x) :: ts) tail = M at *
  obtain ⟨d, rest', hd⟩ : ∃ d r, M = d :: r := by
    cases h : M with
    | nil => rw [h] at hhead; cases hhead
    | cons d r => exact ⟨d, r, rfl⟩
  have hdz : d = rd z := by
    rw [hd] at hhead; exact Option.some.inj hhead
  have hdw : isWord d = false := by
    have : ((py! " .,;:()-").all fun c => !isWord (rd c)) = true := rfl
    rw [hdz]
    simpa using List.all_eq_true.1 this z hz1
  have hKhead : ∃ x t', K = x :: t' ∧ isWord x = true := by
    have : K.head? = some (rd x') := by rw [← e2, squeezed_head, List.head?_map, hx2]; rfl
    cases h : K with
    | nil => rw [h] at this; cases this
    | cons k K' =>
      rw [h] at this
      exact ⟨k, K', rfl, by rw [Option.some.inj this]; exact (solid_word hx1).1⟩
  have hlast : ∀ x, (reading pre).getLast? = some x → isWord x = false ∧ x ≠ '/' := by
    intro c h
    rw [← e1, squeezed_last, List.getLast?_map] at h
    rcases hpre with rfl | hp
    · cases h
    · rw [hp] at h
      have : c = ' ' := (Option.some.inj h.symm).trans (by decide)
      subst this
      exact ⟨rfl, by decide⟩
  have ho1 := ho.titles
  have ho2 := ho.reports
  have ho3 := ho.ibid
  have ho4 := ho.publishers
  rw [hM] at ho1 ho2 ho3 ho4
  have htit := identifyJournals_single (pats := kbs.journalPats) (keys := kbs.journalKeys) (K := K) (a := reading pre) (b := rest') (c := d)
    (fun t ht => ⟨(j3 t ht).1, (j3 t ht).2, by rw [j1]; exact buildJournals_pats pairs t (by rw [← j2]; exact ht)⟩)
    (by rw [j2]; exact buildJournals_sorted pairs) hmem hKhead hlast hdw (by
      intro t ht i hat
      obtain ⟨u, v, e, rfl⟩ := atPos_split hat (j3 t ht).1
      rw [← hd] at e
      have h1 := ho1 t ht u.length (by rw [e]; simp) (by
        rw [e, List.append_assoc, List.drop_left]; exact List.isPrefixOf_iff_prefix.2 (List.prefix_append t v))
      have := congrArg List.length e
      simp at this
      omega)
  rw [← hd] at htit
  have hby : identifyJournalsRe (pre ++ b ++ inLine ((r0, x) :: ts) tail) kbs.journalsRe = [] := by
    unfold identifyJournalsRe
    have : ∀ l : List (Str × Re × Str), (∀ p ∈ l, search p.2.1 (pre ++ b ++ inLine ((r0, x) :: ts) tail) = none) →
        l.foldl (fun d p => match search p.2.1 (pre ++ b ++ inLine ((r0, x) :: ts) tail) with | some m => dset d m.start m.txt | none => d) ([] : List (Nat × Str)) = [] := by
      intro l
      induction l with
      | nil => intro _; rfl
      | cons p l ih =>
        intro h
        rw [List.foldl_cons, h p (by simp)]
        exact ih fun p hp => h p (by simp [hp])
    exact this _ ho.byRe
  have hpu : identifyPublishers (reading pre ++ underscores K.length ++ M) kbs.publishers = [] := by
    rw [List.eq_nil_iff_forall_not_mem]
    intro q hq
    obtain ⟨p, hp, -, m, hm, -⟩ := publishers_mem hq
    have := ho4 p hp
    unfold underscores at hm
    rw [this] at hm
    cases hm
  have hKpos : 0 < K.length := by
    obtain ⟨x, t', rfl, -⟩ := hKhead
    simp
  have hfind : (find (py! "IBID") (upper (reading pre ++ underscores K.length ++ M))).isSome = false := by
    rw [upper_read]
    · cases h : find (py! "IBID") (reading pre ++ underscores K.length ++ M) with
      | none => rfl
      | some i =>
        exfalso
        have hinf : py! "IBID" <:+: reading pre ++ underscores K.length ++ M := by
          obtain ⟨u, v, e⟩ := find_isSome_iff.1 (by rw [h]; rfl)
          exact ⟨u, v, e.symm⟩
        rcases infix_masked (by decide) hKpos hinf with h | h
        · exact ho3 (h.trans ⟨[], K ++ M, by simp⟩)
        · exact ho3 (h.trans ⟨reading pre ++ K, [], by simp⟩)
    · intro c h
      rw [List.mem_append, List.mem_append] at h
      rcases h with (h | h) | h
      · exact .inl (reading_chars hcp c h)
      · exact .inr (List.eq_of_mem_replicate h)
      · exact hmask c h
  refine ⟨⟨[((reading pre).length, K)], [], [], [], sortBy (fun x y => decide (x.1 ≤ y.1)) (compressSpaces (pre.map rd ++ b.map rd ++ readLine ((r0, x) :: ts) tail)).1,
    dupdate kbs.journalStd (kbs.journalsRe.map fun p => (p.1, p.2.2))⟩, 1, ?_, rfl, rfl, rfl, rfl, rfl, w2, w3⟩
  unfold recognise
  rw [hby, hcl]
  generalize hC : compressSpaces (pre.map rd ++ b.map rd ++ readLine ((r0, x) :: ts) tail) = C at w1
  obtain ⟨spaces, w⟩ := C
  dsimp only at w1 ⊢
  subst w1
  rw [identifyRepnums_none hsl ho2, okBind]
  dsimp only
  rw [htit, okBind]
  dsimp only
  rw [hfind]
  simp only [Bool.false_eq_true, if_false, ← hd, hpu]
  rfl

omit [UnicodeDB] in
/-- The tagged line as texts and tags. -/
theorem article_tokens (pre J vol year page : Str) (toks : List (Str × Str)) (tail : Str) : article pre J vol year page (inLine toks tail) =
    inLine ((pre, enclose (py! "JOURNAL") J) :: (py! " ", enclose (py! "VOL") vol) :: (py! " ", enclose (py! "YR") ('(' :: year ++ [')'])) :: (py! " ", enclose (py! "PG") page) ::
      toks) tail := by
  simp [article, inLine]

/-! ### Marks that are not a volume -/

/-- A volume whose first character is behind a blank. -/
abbrev looseVolume (c : Char) : Str := '<' :: (py! "cds.VOL>" ++ [c, ' '])

/-- A mark that is no part of such a volume. -/
def Passes (T : Str) : Prop := ∀ (c : Char) (rest : Str), c ≠ '<' → ¬ looseVolume c <:+: rest → ¬ looseVolume c <:+: T ++ rest

omit [UnicodeDB] in
theorem lt_skip {x a b : Str} (ha : '<' ∉ a) (h : ¬ ('<' :: x) <:+: b) : ¬ ('<' :: x) <:+: a ++ b := by
  rintro ⟨u, v, e⟩
  rw [List.append_assoc] at e
  rcases List.append_eq_append_iff.1 e with ⟨z, h1, h2⟩ | ⟨z, h1, h2⟩
  · cases z with
    | nil => exact h ⟨[], v, by simpa using h2⟩
    | cons y z =>
      rw [List.cons_append, List.cons_append, List.cons.injEq] at h2
      exact ha (by rw [h1, ← h2.1]; simp)
  · exact h ⟨z, v, by rw [h2]; simp⟩

omit [UnicodeDB] in
/-- What is inside of a tag that is not the one of a volume. -/
theorem passes_tag {n : Str} (h1 : '<' ∉ n) (h2 : ∀ c rest, ¬ (py! "cds.VOL>" ++ [c, ' ']) <+: n ++ '>' :: rest) : Passes ('<' :: n ++ ['>']) := by
  intro c rest hc hr
  have hx : '<' ∉ py! "cds.VOL>" ++ [c, ' '] := by
    simp only [List.mem_append, List.mem_cons, List.not_mem_nil, or_false, not_or]
    exact ⟨by decide, fun h => hc h.symm, by decide⟩
  have shape : '<' :: n ++ ['>'] ++ rest = [] ++ '<' :: (n ++ '>' :: rest) := by simp
  rw [shape]
  refine lt_step (by simp) hx (h2 c rest) ?_
  have : n ++ '>' :: rest = (n ++ ['>']) ++ rest := by simp
  rw [this]
  exact lt_skip (by simp [h1]) hr

omit [UnicodeDB] in
theorem passes_append {S T : Str} (h1 : Passes S) (h2 : Passes T) : Passes (S ++ T) := by
  intro c rest hc hr
  rw [List.append_assoc]
  exact h1 c _ hc (h2 c rest hc hr)

omit [UnicodeDB] in
theorem passes_text {T : Str} (h : '<' ∉ T) : Passes T := fun _ _ _ hr => lt_skip h hr

omit [UnicodeDB] in
theorem passes_doi : Passes doiMark := passes_tag (n := py! "cds.DOI />".dropLast) (by decide) (by rintro c rest ⟨v, e⟩; simp at e)

omit [UnicodeDB] in
theorem loose_tokens {c : Char} (hc : c ≠ '<') : ∀ {toks : List (Str × Str)} {tail : Str}, (∀ q ∈ toks, '<' ∉ q.1 ∧ Passes q.2) → '<' ∉ tail → ¬ looseVolume c <:+: inLine toks tail
  | [], tail, _, ht => fun hi => ht (hi.subset (by simp))
  | (p, x) :: ts, tail, hq, ht => by
    obtain ⟨h1, h2⟩ := hq (p, x) (by simp)
    rw [inLine, List.append_assoc]
    exact lt_skip h1 (h2 c _ hc (loose_tokens hc (fun q h => hq q (by simp [h])) ht))

theorem wash_marked {pre J vol year page X : Str} (h1 : '<' ∉ pre) (h2 : '<' ∉ J) (h3 : vol ≠ [] ∧ '<' ∉ vol ∧ ' ' ∉ vol) (h4 : '<' ∉ year)
    (h5 : '<' ∉ page) (hX : ∀ c, c ≠ '<' → ¬ looseVolume c <:+: X) : washVolumeTag (article pre J vol year page X) = article pre J vol year page X := by
  refine sub_of_no_match ?_
  rw [List.eq_nil_iff_forall_not_mem]
  intro m hm
  obtain ⟨p, q, e, hok⟩ := finditer_ok hm
  obtain ⟨c, r, e2, hcw⟩ := volume_text hok.lang
  have hin : looseVolume c <:+: article pre J vol year page X := ⟨p, r ++ q, by rw [e, e2]; simp⟩
  have hc : c ≠ '<' := by
    rintro rfl
    have : isWord '<' = false := rfl
    rw [this] at hcw
    cases hcw
  revert hin
  have hx : '<' ∉ py! "cds.VOL>" ++ [c, ' '] := by
    simp only [List.mem_append, List.mem_cons, List.not_mem_nil, or_false, not_or]
    exact ⟨by decide, fun h => hc h.symm, by decide⟩
  have ne : ∀ {d : Char} {t : Str}, d ≠ 'c' → ¬ (py! "cds.VOL>" ++ [c, ' ']) <+: d :: t := by
    rintro d t hd ⟨v, e⟩
    exact hd (by simpa using congrArg List.head? e.symm)
  have ne4 : ∀ {d : Char} {t : Str}, d ≠ 'V' → ¬ (py! "cds.VOL>" ++ [c, ' ']) <+: 'c' :: 'd' :: 's' :: '.' :: d :: t := by
    rintro d t hd ⟨v, e⟩
    simp at e
    exact hd e.1.symm
  have shape : article pre J vol year page X = pre ++ '<' :: (py! "cds.JOURNAL>" ++ J ++ '<' :: (py! "/cds.JOURNAL> " ++ '<' :: (py! "cds.VOL>" ++ vol ++ '<' ::
      (py! "/cds.VOL> " ++ '<' :: (py! "cds.YR>(" ++ year ++ py! ")" ++ '<' :: (py! "/cds.YR> " ++ '<' :: (py! "cds.PG>" ++ page ++ '<' :: (py! "/cds.PG>" ++ X)))))))) := by
    simp [article, enclose]
  rw [shape]
  refine lt_step h1 hx (ne4 (by decide)) (lt_step (by simp [h2]) hx (ne (by decide)) (lt_step (by decide) hx ?_ (lt_step (by simp [h3.2.1]) hx (ne (by decide))
    (lt_step (by decide) hx (ne4 (by decide)) (lt_step (by simp [h4]) hx (ne (by decide)) (lt_step (by decide) hx (ne4 (by decide)) (lt_step (by simp [h5]) hx (ne (by decide))
    (lt_skip (by decide) (hX c hc)))))))))
  rintro ⟨v, e⟩
  obtain ⟨hv, -, hb⟩ := h3
  cases vol with
  | nil => exact hv rfl
  | cons d vol =>
    simp at e
    cases vol with
    | nil => simp at e
    | cons d' vol => simp at e; exact hb (by simp [← e.2.1])

/-- What is expected of the tokens of the line. -/
structure TokensOk (toks : List (Str × Str)) (tail : Str) : Prop where
  quiet : ∀ q ∈ toks, ∀ c ∈ q.1, c ∈ quietChars
  closed : ∀ q ∈ toks, ClosedTag q.2
  passes : ∀ q ∈ toks, Passes q.2
  ascii : ∀ q ∈ toks, ∀ c ∈ q.2, isAscii c = true ∧ c ≠ '\n'
  tail : ∀ c ∈ tail, c ∈ quietChars

omit [UnicodeDB] in
theorem quiet_calm : ∀ c ∈ quietChars, c ∈ calmChars := by decide

/-- The line with tags. -/
theorem tag_marked {lib : Lib} {kbs : Kbs} {l0 pre b p lead w mid T tail K J : Str} {ts : List (Str × Str)} {t : Told} (hl : ArticleFront pre b p lead w mid t)
    (hq : TokensOk ((mid, T) :: ts) tail)
    (hK : reading b = K) (hj : KnownJournal kbs K J) (ho : NothingFurther kbs.tag K pre b ((p ++ (lead ++ w ++ mid), T) :: ts) tail)
    (hc : NoCollaborations kbs.tag pre ((mid, T) :: ts) tail)
    (hu : ∀ s, (∀ c ∈ s, isAscii c = true) → lib.unidecode s = s) (hfix : tagFixed lib l0 = .ok (inLine ((articleText pre b p lead w mid, T) :: ts) tail)) :
    ∃ count, tagReferenceLine lib l0 kbs.tag [] = .ok (article pre J t.vol t.year t.pages (inLine ((mid, T) :: ts) tail), count) := by
  have hchars := hl.front.chars
  have hX : inLine ((articleText pre b p lead w mid, T) :: ts) tail = pre ++ b ++ inLine ((p ++ (lead ++ w ++ mid), T) :: ts) tail := by simp [articleText, inLine]
  have hrest : ∃ x ∈ py! " .,;:()-", (p ++ (lead ++ w ++ mid)).head? = some x := by
    cases hp : p with
    | cons c p' => exact ⟨c, among (by decide) (hl.skip c (by rw [hp]; simp)), rfl⟩
    | nil =>
      rcases hl.lead with h | h | h
      · exact absurd h (hl.gap.resolve_left fun h' => h' hp)
      · exact ⟨' ', by decide, by rw [h]; rfl⟩
      · exact ⟨',', by decide, by rw [h]; rfl⟩
  obtain ⟨f, m, hrec, f1, f2, f3, f4, f5, f6, f7⟩ := recognise_marked (kbs := kbs.tag) (pre := pre) (b := b) (r0 := p ++ (lead ++ w ++ mid)) (x := T) (ts := ts)
    (tail := tail) (K := K) (fun c h => hchars c (by unfold articleText; simp [h])) (fun c h => hchars c (by unfold articleText; simp [h]))
    (by
      intro q h
      rcases List.mem_cons.1 h with rfl | h
      · exact ⟨fun c h => hchars c (by unfold articleText; simp only [List.mem_append] at h ⊢; exact .inr h), hq.closed (mid, T) (by simp)⟩
      · exact ⟨fun c hc => quiet_calm c (hq.quiet q (by simp [h]) c hc), hq.closed q (by simp [h])⟩)
    (fun c hc => quiet_calm c (hq.tail c hc)) hj.titles hl.blank hl.first hl.last hrest hK hj.known ho
  have hKread : ∀ c ∈ K, c ∈ readChars ∨ c = '_' := by
    intro c hc
    rw [← hK] at hc
    exact .inl (reading_chars (fun c hc => hchars c (by unfold articleText; simp [hc])) c hc)
  have hstops : Stops (inLine ((mid, T) :: ts) tail) := by
    obtain ⟨h1, h2⟩ := hl.stops
    cases hm : mid with
    | nil => exact absurd hm h1
    | cons c mid' =>
      rw [hm] at h2
      intro x hx
      exact h2 x (by simpa [inLine] using hx)
  have hplaces : Places (inLine ((articleText pre b p lead w mid, T) :: ts) tail) pre b p lead w (inLine ((mid, T) :: ts) tail) K J t f := by
    refine ⟨by simp [articleText, inLine], hl.skip, hl.lead, hl.num, hstops, ⟨_, f1, f6⟩, f2, f3, f4, f7, ?_, ?_, hj.plain.2.1⟩
    · rw [upper_read hKread]
      intro hi
      exact ho.ibid (hi.trans ⟨reading pre, _, rfl⟩)
    · rw [f5, dget_dupdate_of_notMem]
      · exact hj.std
      · rw [List.map_map]; exact hj.byRe
  obtain ⟨hv1, hv2⟩ := vol_chars hl.num
  obtain ⟨hp1, hp2⟩ := pages_chars hl.num
  obtain ⟨hy1, hy2⟩ := year_chars (written_parts hl.num).2.2.1
  have q1 := hl.quiet
  have lt1 : '<' ∉ pre := fun h => absurd (q1 _ h) (by decide)
  have lt2 : ∀ q ∈ (mid, T) :: ts, '<' ∉ q.1 := fun q h h' => absurd (hq.quiet q h _ h') (by decide)
  have lt6 : '<' ∉ tail := fun h => absurd (hq.tail _ h) (by decide)
  have lt3 : '<' ∉ t.vol := fun h => absurd (hv2 _ h) (by decide)
  have lt4 : '<' ∉ t.year := fun h => absurd (hy2 _ h) (by decide)
  have lt5 : '<' ∉ t.pages := fun h => absurd (hp2 _ h) (by decide)
  have a1 : ∀ {l : List Char}, (l.all fun c => isAscii c && c != '\n') = true → ∀ c ∈ l, isAscii c = true ∧ c ≠ '\n' := by
    intro l h1 c h2
    simpa using List.all_eq_true.1 h1 c h2
  have hascii : ∀ c ∈ article pre J t.vol t.year t.pages (inLine ((mid, T) :: ts) tail), isAscii c = true ∧ c ≠ '\n' := by
    refine article_all (P := fun c => isAscii c = true ∧ c ≠ '\n') (a1 (l := py! "<>/.() cdsJOURNALVYPG") (by decide)) (fun c h => a1 (by decide) c (q1 c h))
      (fun c h => ⟨hj.ascii c h, fun e => hj.plain.2.2.2 (by rw [← e]; exact h)⟩) (fun c h => a1 (by decide) c (hv2 c h))
      (fun c h => a1 (by decide) c (hy2 c h)) (fun c h => a1 (by decide) c (hp2 c h)) ?_
    exact inLine_mem (P := fun c => isAscii c = true ∧ c ≠ '\n') (fun q h => ⟨fun c hc => a1 (by decide) c (hq.quiet q h c hc), hq.ascii q h⟩)
      (fun c hc => a1 (by decide) c (hq.tail c hc))
  have hstrip : ∃ g, (∀ c ∈ g, c = '_' ∨ c = ' ') ∧ stripTags (article pre J t.vol t.year t.pages (inLine ((mid, T) :: ts) tail)) = pre ++ g ++ blankedTexts ((mid, T) :: ts) tail := by
    rw [article_tokens, strip_tokens ?_ lt6]
    · simp only [blankedTexts]
      refine ⟨List.replicate (enclose (py! "JOURNAL") J).length '_' ++ (py! " " ++ List.replicate (enclose (py! "VOL") t.vol).length '_' ++ (py! " " ++
        List.replicate (enclose (py! "YR") ('(' :: t.year ++ [')'])).length '_' ++ (py! " " ++ List.replicate (enclose (py! "PG") t.pages).length '_'))),
        ?_, by simp only [List.append_assoc]⟩
      intro c hc
      simp only [List.mem_append, List.mem_replicate, List.mem_singleton] at hc
      rcases hc with ⟨-, h⟩ | (h | ⟨-, h⟩) | (h | ⟨-, h⟩) | h | ⟨-, h⟩
      · exact .inl h
      · exact .inr h
      · exact .inl h
      · exact .inr h
      · exact .inl h
      · exact .inr h
      · exact .inl h
    · intro q h
      have n1 : TagName (py! "JOURNAL") := ⟨by decide, by decide⟩
      have n2 : TagName (py! "VOL") := ⟨by decide, by decide⟩
      have n3 : TagName (py! "YR") := ⟨by decide, by decide⟩
      have n4 : TagName (py! "PG") := ⟨by decide, by decide⟩
      rw [List.mem_cons, List.mem_cons, List.mem_cons, List.mem_cons] at h
      rcases h with rfl | rfl | rfl | rfl | h
      · exact ⟨lt1, closed_enclose n1 hj.plain.2.2.1⟩
      · exact ⟨(by decide : '<' ∉ py! " "), closed_enclose n2 lt3⟩
      · exact ⟨(by decide : '<' ∉ py! " "), closed_enclose n3 (by simp [lt4])⟩
      · exact ⟨(by decide : '<' ∉ py! " "), closed_enclose n4 lt5⟩
      · exact ⟨lt2 q h, hq.closed q h⟩
  obtain ⟨g, hg, hstrip⟩ := hstrip
  have hauth : finditer Rx.RE_AUTH (stripTags (article pre J t.vol t.year t.pages (inLine ((mid, T) :: ts) tail))) = [] := by
    rw [hstrip]
    refine barren_finditer (A := quietUnder) (by decide) (by decide +kernel) ?_
    intro c hc
    rw [List.mem_append, List.mem_append] at hc
    rcases hc with (hc | hc) | hc
    · exact List.mem_cons_of_mem _ (q1 c hc)
    · rcases hg c hc with rfl | rfl <;> decide
    · exact blankedTexts_mem (P := fun c => c ∈ quietUnder) (by decide) (fun q h c hc => List.mem_cons_of_mem _ (hq.quiet q h c hc)) (fun c hc => List.mem_cons_of_mem _ (hq.tail c hc)) c hc
  have hreb := rebuildTagged_single hplaces
  have hwash := wash_marked (year := t.year) (page := t.pages) lt1 hj.plain.2.2.1 ⟨hv1, lt3, fun h => absurd (hv2 _ h) (by decide)⟩ lt4 lt5
    (fun c hc => loose_tokens (toks := (mid, T) :: ts) hc (fun q h => ⟨lt2 q h, hq.passes q h⟩) lt6)
  rw [← hX] at hrec
  have hcol : ∀ q ∈ kbs.tag.collaborations, finditer q.2 (stripTags (article pre J t.vol t.year t.pages (inLine ((mid, T) :: ts) tail))) = [] := by
    intro q hq
    rw [hstrip]
    exact hc q hq g hg
  refine ⟨dset [] K m, ?_⟩
  clear hplaces hX hstrip
  generalize article pre J t.vol t.year t.pages (inLine ((mid, T) :: ts) tail) = A at *
  generalize inLine ((articleText pre b p lead w mid, T) :: ts) tail = L at *
  have hproc : processLine lib L f kbs.tag = .ok A := by
    unfold processLine
    rw [hreb, okBind, hwash, tagAuthors_none ?_ (hu _ fun c hc => (hascii c hc).1) hauth, okBind, tagCollaborations_none hcol, okBind]
    · have hfil : A.filter (· != '\n') = A := by
        rw [List.filter_eq_self]
        intro c hc
        simpa using (hascii c hc).2
      rw [hfil]
      rfl
    · intro q hq hi
      obtain ⟨c, hc, hn⟩ := ho.authors q hq
      rw [(hascii c (hi.subset hc)).1] at hn
      cases hn
  unfold tagReferenceLine
  rw [hfix, okBind, hrec, okBind]
  dsimp only
  have hsum : sumDicts [] [(K, m)] = .ok (dset [] K m) := rfl
  rw [hsum, okBind, hproc, okBind]
  rfl

end Py
