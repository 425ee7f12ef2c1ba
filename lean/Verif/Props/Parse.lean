import Verif.Lemmas.Parse2
import Verif.Lemmas.Marker
import Verif.Py.Sample

/-!
# Tagged lines
-/

open Py Spec
open scoped List

namespace Props

variable [UnicodeDB]

/-- **C19** A line made of texts and tags is parsed into exactly one element for each tag, with its
contents and the text in front of it, and an element for the text at the end if there is some. The
counters are the numbers of elements of each kind. -/
theorem C19 {toks : List (Str × Item)} {last : Str} (hok : ∀ p ∈ toks, NoTags p.1 ∧ p.2.Ok) (hl : NoTags last)
    (urls : List (Str × Str)) (dois : List Str) :
    parseTagged (renderLine toks last) (toks.flatMap (·.2.dois) ++ dois) (toks.flatMap (·.2.urls) ++ urls) =
      .ok (lineEls toks last,
        { misc := howMany .misc (lineEls toks last), title := howMany .journal (lineEls toks last),
          reportnum := howMany .reportnumber (lineEls toks last), url := howMany .url (lineEls toks last),
          doi := howMany .doi (lineEls toks last), auth := howMany .auth (lineEls toks last) }) := by
  unfold parseTagged
  rw [loop_line hok hl (us := urls) (ds := dois) (len_line toks last) rfl rfl rfl rfl, okBind]
  simp only [finishTagged, List.nil_append, strip_leftOver, count_line]
  have hm : howMany .misc (toks.map (fun p => p.2.el p.1)) = 0 := by
    unfold howMany
    rw [List.length_eq_zero_iff, List.filter_eq_nil_iff]
    intro e he
    obtain ⟨p, -, rfl⟩ := List.mem_map.1 he
    obtain ⟨t, it⟩ := p
    cases it <;> simp [Item.el]
  have ha : ∀ k a b, howMany k (a ++ b) = howMany k a + howMany k b := by simp [howMany]
  by_cases h : LeftOver last
  · simp [h, lineEls, ha, hm, Pure.pure, Except.pure]
    simp [howMany]
  · simp [h, lineEls, hm, Pure.pure, Except.pure]

/-- A line with a journal, a DOI and some text at the end. -/
example : @parseTagged asciiDB
      (renderLine [(py! "A. Author, ", .journal false (py! "Phys. Rev.") (some (py! "D")) (py! "12") (some (py! "1975")) (py! "3")),
        (py! ", ", .doi (py! "10.1/x"))] (py! " (unpublished)")) [py! "10.1/x"] [] =
    .ok ([{ ty := .journal, misc := py! "A. Author, ", title := some (py! "Phys. Rev."), volume := some (some (py! "D12")),
            year := some (some (py! "1975")), page := some (some (py! "3")), isIbid := some false, extraIbids := some [] },
          { ty := .doi, misc := py! ", ", doiString := some (py! "10.1/x") }, { ty := .misc, misc := py! " (unpublished)" }],
         { misc := 1, title := 1, doi := 1 }) := by
  decide +kernel

/-- **C20** On any text the parser ends after at most as many steps as there are characters: more steps
do not change its result, and then no tag is left. -/
theorem C20_ends (line : Str) (dois : List Str) (urls : List (Str × Str)) :
    (∀ n, line.length ≤ n → tagLoop n { line := line, dois := dois, urls := urls } =
      tagLoop line.length { line := line, dois := dois, urls := urls }) ∧
    ∀ st, tagLoop line.length { line := line, dois := dois, urls := urls } = .ok st → NoTags st.line := by
  obtain ⟨h1, h2⟩ := loop_ends (fuel := line.length) (st := { line := line, dois := dois, urls := urls }) (Nat.le_refl _)
  refine ⟨h1, fun st h => ?_⟩
  rintro a w b e name ho
  have := search_none (by decide) (h2 st h) a (w ++ b) (by rw [e]; simp)
  rw [matchHere_none] at this
  exact this ⟨w, b, rfl, sem_openTag.2 ⟨name, ho⟩⟩

/-- **C20** All texts and contents are taken from the line, in the order of the line and without using a
character twice. The DOIs and URLs are the first ones of the lists, in order. -/
theorem C20_text {line : Str} {dois : List Str} {urls : List (Str × Str)} {els : List El} {n : Counts}
    (h : parseTagged line dois urls = .ok (els, n)) :
    els.flatMap elText <+ line ∧ els.filterMap (·.doiString) <+: dois ∧
      els.filterMap (fun e => e.urlString.bind fun u => e.urlDesc.map fun d => (u, d)) <+: urls := by
  unfold parseTagged at h
  obtain ⟨st, hs, h⟩ := bind_ok h
  obtain ⟨k1, ⟨ud, d1, d2⟩, ⟨uu, u1, u2⟩⟩ := loop_keeps hs
  have h : ((finishTagged st).els, (finishTagged st).n) = (els, n) := by simpa [Pure.pure, Except.pure] using h
  have he : els = (finishTagged st).els := (Prod.mk.inj h).1.symm
  have k1 : st.els.flatMap elText ++ (st.misc ++ st.line) <+ line := by simpa [stText] using k1
  have d2 : st.els.filterMap (·.doiString) = ud := d2
  have u2 : st.els.filterMap (fun e => e.urlString.bind fun u => e.urlDesc.map fun d => (u, d)) = uu := u2
  rw [he]
  unfold finishTagged
  dsimp only
  split
  · refine ⟨?_, ⟨st.dois, ?_⟩, ⟨st.urls, ?_⟩⟩
    · simpa [elText] using k1
    · simp [d2]; exact d1.symm
    · simp [u2]; exact u1.symm
  · refine ⟨?_, ⟨st.dois, ?_⟩, ⟨st.urls, ?_⟩⟩
    · exact (List.sublist_append_left _ _).trans k1
    · rw [d2]; exact d1.symm
    · rw [u2]; exact u1.symm

/-- A line that is no proper tagged line at all. -/
example : @parseTagged asciiDB (py! "a</cds.VOL><cds.VOL>b<cds.ISBN>c<cds.VOL></cds.ISBN> d") [] [] =
    .ok ([{ ty := .isbn, misc := py! "a</cds.VOL>b", isbn := some (py! "c<cds.VOL>") }, { ty := .misc, misc := py! " d" }],
      { misc := 1 }) := by
  decide +kernel

omit [UnicodeDB] in
/-- **C21** is violated: without a closing tag, a part of the text after the tag is lost. -/
theorem C21_lost : @parseTagged asciiDB (py! "<cds.QUOTED>no such thing here") [] [] =
    .ok ([{ ty := .misc, misc := py! "g here" }], { misc := 1 }) := by
  decide +kernel

/-- **C21** (partial) For all tags other than those of quoted texts, ISBNs, publishers, collaborations, DOIs and
URLs: a tag without its closing tag is left out and everything else is read as if it were not there. What is
missing: for quoted texts, ISBNs, publishers and collaborations the property does not hold, see `C21_lost`. -/
theorem C21_partial {t w name last : Str} {toks : List (Str × Item)} (ht : NoTags t) (hw : OpenTag w name)
    (hn : name ∉ [py! "QUOTED", py! "ISBN", py! "PUBLISHER", py! "COLLABORATION", py! "DOI", py! "URL"])
    (hok : ∀ p ∈ toks, NoTags p.1 ∧ p.2.Ok) (hl : NoTags last) (hc : Free name (renderLine toks last))
    (urls : List (Str × Str)) (dois : List Str) :
    ∃ n, parseTagged (t ++ w ++ renderLine toks last) (toks.flatMap (·.2.dois) ++ dois) (toks.flatMap (·.2.urls) ++ urls) =
      .ok (match toks with
        | [] => lineEls [] (t ++ last)
        | (t', it) :: toks => lineEls ((t ++ t', it) :: toks) last, n) := by
  obtain ⟨m, k1, k2, k3, k4, k5⟩ := search_tag (r := renderLine toks last) ht hw
  obtain ⟨d, hd⟩ : ∃ d, d = toks.flatMap (·.2.dois) ++ dois := ⟨_, rfl⟩
  obtain ⟨u, hu⟩ : ∃ u, u = toks.flatMap (·.2.urls) ++ urls := ⟨_, rfl⟩
  rw [← hd, ← hu]
  have hstep := tagStep_unclosed (st := { line := t ++ w ++ renderLine toks last, dois := d, urls := u }) hw.1 hn rfl k2 k3 k4 k5 hc
  have hlen : ∃ n, (t ++ w ++ renderLine toks last).length = n + 1 ∧ toks.length ≤ n := by
    obtain ⟨x, hx, -⟩ := openTag_shape hw
    have := len_line toks last
    refine ⟨t.length + x.length + 1 + (renderLine toks last).length, ?_, by omega⟩
    rw [hx]
    simp
    omega
  obtain ⟨n, hn1, hn2⟩ := hlen
  unfold parseTagged
  rw [hn1, tagLoop]
  dsimp only
  rw [k1]
  dsimp only
  rw [hstep, okBind]
  cases toks with
  | nil =>
    have hr : renderLine [] last = last := by simp [renderLine]
    have h0 : ∀ st : PState, st.line = last → tagLoop n st = .ok st := by
      intro st e
      cases n with
      | zero => rfl
      | succ n => rw [tagLoop, e, search_noTags hl]
    rw [h0 _ (by simp [hr]), okBind]
    refine ⟨_, congrArg Except.ok (Prod.ext ?_ rfl)⟩
    simp only [finishTagged, hr, strip_leftOver, lineEls, List.nil_append, List.map_nil]
    by_cases h : LeftOver (t ++ last) <;> simp [h]
  | cons p toks =>
    obtain ⟨t', it⟩ := p
    obtain ⟨ht', hi⟩ := hok _ (.head _)
    obtain ⟨o1, o2, q, o3⟩ := open_item hi
    cases n with
    | zero => simp at hn2
    | succ n =>
      obtain ⟨m', j1, j2, j3, j4, j5⟩ := search_tag (r := q ++ renderLine toks last) ht' o1
      have hr := noVol_line (toks := toks) (fun p hp => hok p (.tail _ hp)) hl
      have hstep' := tagStep_item (st := { line := renderLine ((t', it) :: toks) last, misc := [] ++ t, dois := d, urls := u })
        (us := toks.flatMap (·.2.urls) ++ urls) (ds := toks.flatMap (·.2.dois) ++ dois) hi hr (renderLine_cons _ _ _ _)
        (by simp [hu]) (by simp [hd]) j2 j3 j4 j5
      rw [tagLoop]
      dsimp only
      rw [show search Rx.re_tagged_citation (renderLine ((t', it) :: toks) last) = some m' by
        rw [renderLine_cons, o3, ← j1]; simp]
      dsimp only
      rw [hstep', okBind, loop_line (fun p hp => hok p (.tail _ hp)) hl (us := urls) (ds := dois) (by simpa using hn2) rfl rfl rfl rfl, okBind]
      refine ⟨_, congrArg Except.ok (Prod.ext ?_ rfl)⟩
      simp only [finishTagged, strip_leftOver, lineEls, List.nil_append, List.map_cons]
      by_cases h : LeftOver last <;> simp [h]

example : @parseTagged asciiDB (py! "a <cds.JOURNAL>b <cds.ISBN>1</cds.ISBN> c") [] [] =
    .ok ([{ ty := .isbn, misc := py! "a b ", isbn := some (py! "1") }, { ty := .misc, misc := py! " c" }], { misc := 1 }) := by
  decide +kernel

set_option synthInstance.maxSize 1000 in
omit [UnicodeDB] in
/-- **C22** is violated: text that looks like the parser's own tag for a DOI raises `IndexError`. -/
theorem C22_crash : @parseReferenceLine asciiDB ⟨id, id, .fail, .fail⟩ ⟨⟨[], [], [], [], [], [], [], [], []⟩, [], []⟩ none
    (py! "[1] see <cds.DOI />") [] = .error .indexError := by
  decide +kernel

/-- **C22** (partial) Reading a tagged line raises nothing if there are as many DOIs and URLs as the line has
tags for them. What is missing: lines whose text already contains these tags, where the property does not
hold, see `C22_crash`. -/
theorem C22_partial {line : Str} {dois : List Str} {urls : List (Str × Str)}
    (hd : occurs (py! "<cds.DOI") line ≤ dois.length) (hu : occurs (py! "<cds.URL") line ≤ urls.length) :
    ∃ r, parseTagged line dois urls = .ok r := by
  cases h : tagLoop line.length { line := line, dois := dois, urls := urls } with
  | ok st => exact ⟨_, by rw [parseTagged, h]; rfl⟩
  | error e =>
    obtain ⟨-, h | h⟩ := loop_error h
    · exact absurd h (by simp only; omega)
    · exact absurd h (by simp only; omega)

example : occurs (py! "<cds.DOI") (py! "a <cds.DOI /> <cds.DO") = 1 ∧
    @parseTagged asciiDB (py! "a <cds.DOI /> <cds.DO") [py! "10.1/x"] [] =
      .ok ([{ ty := .doi, misc := py! "a ", doiString := some (py! "10.1/x") }, { ty := .misc, misc := py! " <cds.DO" }], { doi := 1, misc := 1 }) := by
  decide +kernel

/-! ### Markers -/

/-- **C31** The marker of a reference line is split off, with the white space around it, and nothing else: the
line is white space, the marker, white space and the rest, and without a marker it is white space and the rest. -/
theorem C31 (line : Str) : ∃ a rest, line = a ++ rest ∧ Spaces a ∧ NoSpaceFirst rest ∧
    ((∃ mk b body, rest = mk ++ b ++ body ∧ IsMarker mk (b ++ body) ∧ Spaces b ∧ NoSpaceFirst body ∧ removeMarker line = (mk, body)) ∨
     (∀ mk post, rest = mk ++ post → ¬ IsMarker mk post) ∧ removeMarker line = ([' '], rest)) := by
  obtain ⟨a, h1, h2, h3⟩ := lstrip_split line
  refine ⟨a, lstrip line, h1, h2, h3, ?_⟩
  rw [removeMarker_lstrip]
  rcases removeMarker_cases h3 with ⟨l1, b, l2, mk, post, e1, -, e2, e3, -, e4⟩ | ⟨hn, e⟩
  · obtain ⟨b', k1, k2, k3⟩ := lstrip_split post
    refine .inl ⟨mk, b', lstrip post, ?_, ?_, k2, k3, e4⟩
    · rw [List.append_assoc, ← k1]; exact e2
    · rw [← k1]
      exact sem_marker.1 ⟨b, by rw [e1]; simp, e3⟩
  · refine .inr ⟨fun mk post e' hm => ?_, e⟩
    obtain ⟨b, hb, hs⟩ := (sem_marker (pre := [])).2 hm
    exact hn b hb mk post e' hs

example : @IsMarker asciiDB (py! "[ 12 ]") (py! " J. Doe") ∧ @removeMarker asciiDB (py! "  [ 12 ]  J. Doe") = (py! "[ 12 ]", py! "J. Doe") ∧
    @removeMarker asciiDB (py! " J. Doe [1]") = (py! " ", py! "J. Doe [1]") :=
  ⟨.inl ⟨'[', ']', [' '], py! "12", [' '], by simp, by unfold Spaces; decide, ⟨by simp, by decide⟩, by unfold Spaces; decide, rfl⟩, by decide +kernel, by decide +kernel⟩

/-- **C31** A number with a stop is the marker, unless a digit follows. -/
theorem C31_stop {a n b rest : Str} (ha : Spaces a) (hn : Decimals n) (hb : Spaces b) (hr : NoDigitFirst rest) :
    removeMarker (a ++ n ++ b ++ '.' :: rest) = (n ++ b ++ ['.'], lstrip rest) := by
  have hns : NoSpaceFirst (n ++ b ++ '.' :: rest) := by
    obtain ⟨h1, h2⟩ := hn
    cases n with
    | nil => exact absurd rfl h1
    | cons c n =>
      intro d hd
      cases hd
      exact isDec_not_space (h2 c (.head _))
  have hl : lstrip (a ++ n ++ b ++ '.' :: rest) = n ++ b ++ '.' :: rest := by
    obtain ⟨a', h1, h2, h3⟩ := lstrip_split (a ++ n ++ b ++ '.' :: rest)
    exact (space_split (x := n ++ b ++ '.' :: rest) ha h2 hns h3 (by rw [← h1]; simp)).2.symm
  rw [removeMarker_lstrip, hl]
  have hdot := (sem_dot (pre := [])).2 ⟨n, b, hn, hb, rfl, hr⟩
  have hsplit : n ++ b ++ '.' :: rest = (n ++ b ++ ['.']) ++ rest := by simp
  rcases removeMarker_cases hns with ⟨l1, q, l2, mk, post, e1, hno, e2, e3, -, e4⟩ | ⟨hno, -⟩
  · obtain ⟨i, hi, rfl, hq⟩ := bodies_at e1
    have e5 : n ++ (b ++ '.' :: rest) = mk ++ post := by rw [← e2]; simp
    have hi5 : i ≤ 5 := by
      refine Nat.le_of_not_lt fun h => hno _ ?_ _ _ hsplit hdot
      refine (List.take_subset_take_left markBodies (show 6 ≤ i by omega)) ?_
      simp [markBodies]
    match i, hi5 with
    | 0, _ => cases hq; exact absurd e5 (no_bracket hn (by simp) e3)
    | 1, _ => cases hq; exact absurd e5 (no_bracket hn (by simp) e3)
    | 2, _ => cases hq; exact absurd e5 (no_bracket hn (by simp) e3)
    | 3, _ => cases hq; exact absurd e5 (no_bracket hn (by simp) e3)
    | 4, _ => cases hq; exact absurd e5 (no_bracket hn (by simp) e3)
    | 5, _ =>
      cases hq
      obtain ⟨n', b', hn', hb', rfl, hr'⟩ := sem_dot.1 e3
      have hd : ∀ {r : Str}, NoDigitFirst ('.' :: r) := by intro r c hc; cases hc; rfl
      have hs : ∀ {r : Str}, NoSpaceFirst ('.' :: r) := by intro r c hc; cases hc; rfl
      obtain ⟨rfl, e6⟩ := number_split (x' := b' ++ '.' :: post) hn hn' (noDigit_spaces hb hd) (noDigit_spaces hb' hd) (by rw [e5]; simp)
      obtain ⟨rfl, e7⟩ := space_split hb hb' hs hs e6
      cases e7
      exact e4
  · exact absurd hdot (hno _ (by simp [markBodies]) _ _ hsplit)

/-- **C31** A number with white space is the marker, with all of this white space, whatever follows but a stop. -/
theorem C31_blank {a n b rest : Str} (ha : Spaces a) (hn : Decimals n) (hb : Spaces b) (hb0 : b ≠ []) (hr : NoSpaceFirst rest)
    (hdot : ∀ r, rest = '.' :: r → ¬ NoDigitFirst r) : removeMarker (a ++ n ++ b ++ rest) = (n ++ b, rest) := by
  have hns : NoSpaceFirst (n ++ b ++ rest) := by
    obtain ⟨h1, h2⟩ := hn
    cases n with
    | nil => exact absurd rfl h1
    | cons c n =>
      intro d hd
      cases hd
      exact isDec_not_space (h2 c (.head _))
  have hl : lstrip (a ++ n ++ b ++ rest) = n ++ b ++ rest := by
    obtain ⟨a', h1, h2, h3⟩ := lstrip_split (a ++ n ++ b ++ rest)
    exact (space_split (x := n ++ b ++ rest) ha h2 hns h3 (by rw [← h1]; simp)).2.symm
  have hbd : ∀ {x y : Str}, Spaces x → x ≠ [] → NoDigitFirst (x ++ y) := by
    intro x y h1 h2
    cases x with
    | nil => exact absurd rfl h2
    | cons c x =>
      intro d hd
      cases hd
      cases h : isDec c with
      | false => rfl
      | true => exact absurd (isDec_not_space h) (by rw [h1 c (.head _)]; simp)
  rw [removeMarker_lstrip, hl]
  have hbl : Sem ((.group G.marknum (Re.plus (Re.digit))) ⬝ (Re.plus (Re.space))) [] (n ++ b) rest :=
    ⟨n, b, rfl, sem_number.2 hn, plusSpace_sem.2 ⟨hb0, hb⟩⟩
  rcases removeMarker_cases hns with ⟨l1, q, l2, mk, post, e1, hno, e2, e3, hsp, e4⟩ | ⟨hno, -⟩
  · obtain ⟨i, hi, rfl, hq⟩ := bodies_at e1
    have e5 : n ++ (b ++ rest) = mk ++ post := by rw [← e2]; simp
    have hi5 : i ≤ 6 := by
      refine Nat.le_of_not_lt fun h => hno _ ?_ _ _ rfl hbl
      refine (List.take_subset_take_left markBodies (show 7 ≤ i by omega)) ?_
      simp [markBodies]
    match i, hi5 with
    | 0, _ => cases hq; exact absurd e5 (no_bracket hn (by simp) e3)
    | 1, _ => cases hq; exact absurd e5 (no_bracket hn (by simp) e3)
    | 2, _ => cases hq; exact absurd e5 (no_bracket hn (by simp) e3)
    | 3, _ => cases hq; exact absurd e5 (no_bracket hn (by simp) e3)
    | 4, _ => cases hq; exact absurd e5 (no_bracket hn (by simp) e3)
    | 5, _ =>
      cases hq
      obtain ⟨n', b', hn', hb', rfl, hr'⟩ := sem_dot.1 e3
      have hd : ∀ {r : Str}, NoDigitFirst ('.' :: r) := by intro r c hc; cases hc; rfl
      have hs : ∀ {r : Str}, NoSpaceFirst ('.' :: r) := by intro r c hc; cases hc; rfl
      obtain ⟨rfl, e6⟩ := number_split (x' := b' ++ '.' :: post) hn hn' (hbd hb hb0) (noDigit_spaces hb' hd) (by rw [e5]; simp)
      obtain ⟨rfl, e7⟩ := space_split hb hb' hr hs e6
      exact absurd hr' (hdot _ e7)
    | 6, _ =>
      cases hq
      obtain ⟨n', b', rfl, hn', hb'⟩ := e3
      obtain ⟨hb1, hb2⟩ := plusSpace_sem.1 hb'
      obtain ⟨rfl, e6⟩ := number_split (x' := b' ++ post) hn (sem_number.1 hn') (hbd hb hb0) (hbd hb2 hb1) (by rw [e5]; simp)
      have hp := hsp ⟨_, rfl⟩
      obtain ⟨rfl, rfl⟩ := space_split hb hb2 hr hp e6
      rw [e4]
      obtain ⟨x, k1, k2, k3⟩ := lstrip_split rest
      have := spaces_nil k2 (by rw [← k1]; exact hr)
      rw [this] at k1
      rw [← show rest = lstrip rest from k1]
  · exact absurd hbl (hno _ (by simp [markBodies]) _ _ rfl)

example : @removeMarker asciiDB (py! " 12 . J. Doe") = (py! "12 .", py! "J. Doe") ∧
    @removeMarker asciiDB (py! "12  ] J. Doe") = (py! "12  ", py! "] J. Doe") := by decide +kernel

end Props
