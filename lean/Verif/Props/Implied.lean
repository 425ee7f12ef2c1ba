import Verif.Lemmas.Implied
import Verif.Props.Split
import Verif.Props.Transform
import Verif.Props.Crash

/-!
# C101, C102: numerations without a title; C07 for whole lines
-/

open Py Spec

namespace Props

/-! ### C101 -/

/-- **C101.** The articles of the citations of a line are those that were read and, in a citation without an article
right after one with an article, those of which a text begins with a numeration. They are in the
journal named last in the citation before. -/
theorem C101_line [UnicodeDB] (special : List Str) (books : Books) (link : Option Linker) (els : List El) (cs : List (List El))
    (h : postProcess special books link els = .ok cs) : ∃ els' mid, transformElements special books link els = .ok els' ∧
      Completed [] ((splitCitations els').map fun c => c.map (·.el)) mid ∧ cs.map articles = mid.map articles :=
  post_completed (p := (· == .journal)) ⟨rfl, rfl, rfl, rfl, rfl, rfl⟩ rfl h

/-- **C101.** What a reference reports of articles is what its citation says of them. -/
theorem C101_reported (c : List El) (marker raw : Str) (fmt : List FmtPart) (f : Field)
    (h : buildReferenceFields c marker raw fmt = .ok f) :
    vals f (py! "journal_title") = nonEmpty ((articles c).filterMap (·.title)) ∧
    vals f (py! "journal_volume") = nonEmpty ((articles c).filterMap (·.volume.join)) ∧
    vals f (py! "journal_year") = nonEmpty ((articles c).filterMap (·.year.join)) ∧
    vals f (py! "journal_page") = nonEmpty ((articles c).filterMap (·.page.join)) := by
  obtain ⟨h1, h2, h3, h4, -⟩ := C05_values c marker raw fmt f h
  have key : ∀ {β : Type} (g : El → Option β), (∀ e, g (bare e) = g e) →
      (articles c).filterMap g = (ofKind .journal c).filterMap g := by
    intro β g hg
    unfold articles ofKinds ofKind
    clear h h1 h2 h3 h4
    induction c with
    | nil => rfl
    | cons e es ih =>
      by_cases h : e.ty = .journal
      · simp only [List.filter_cons, h, beq_self_eq_true, decide_true, if_true, List.map_cons, List.filterMap_cons, hg, ih]
      · have hb : (e.ty == Kind.journal) = false := by simpa using h
        simp only [List.filter_cons, hb, decide_eq_false h, Bool.false_eq_true, if_false, ih]
  refine ⟨by rw [h1, key]; exact fun _ => rfl, by rw [h2, key]; exact fun _ => rfl, by rw [h3, key]; exact fun _ => rfl,
    by rw [h4, key]; exact fun _ => rfl⟩

/-- The titles, volumes, years and pages of the articles of the references. -/
def reportedArticles (r : Py (List Field × List Nat)) : List (List (List Str)) :=
  match r with
  | .ok (refs, _) => refs.map fun f => [py! "journal_title", py! "journal_volume", py! "journal_year", py! "journal_page"].map (vals f)
  | .error _ => []

set_option synthInstance.maxSize 1000 in
example : reportedArticles (@parseReferences asciiDB id plainLib journalKbs defaultFormat none
    [py! "[1] A. Smith, Phys Lett B 12 (1990) 34; 13 (1991) 35"]) =
      [[[py! "Phys.Lett."], [py! "B12"], [py! "1990"], [py! "34"]], [[py! "Phys.Lett."], [py! "B13"], [py! "1991"], [py! "35"]]] := by
  decide +kernel

/-! ### C07 for whole lines -/

theorem continued_kinds [UnicodeDB] {p : Kind → Bool} (hm : p .misc = false) {j : El} {c c' new : List El}
    (h : Continued j c c' new) : ofKinds p c' = ofKinds p c ∧ ∀ k ∈ new, k.ty = .journal := by
  induction h with
  | nil => exact ⟨rfl, by simp⟩
  | kept h1 _ ih =>
    refine ⟨?_, ih.2⟩
    have := ih.1
    unfold ofKinds at this ⊢
    rw [List.filter_cons, List.filter_cons]
    split
    · rw [List.map_cons, List.map_cons, this]
    · exact this
  | article h1 _ _ _ ha _ ih =>
    constructor
    · have := ih.1
      unfold ofKinds at this ⊢
      rw [List.filter_cons, List.filter_cons]
      simp only [h1, hm, Bool.false_eq_true, if_false]
      exact this
    · intro k hk
      rcases List.mem_cons.1 hk with rfl | hk
      · obtain ⟨t, vol, -, -, rfl⟩ := ha
        rfl
      · exact ih.2 k hk

theorem completed_kinds [UnicodeDB] {p : Kind → Bool} (hm : p .misc = false) (hj : p .journal = false) {prev : List El}
    {cs cs' : List (List El)} (h : Completed prev cs cs') : cs'.map (ofKinds p) = cs.map (ofKinds p) := by
  induction h with
  | nil => rfl
  | kept _ _ ih => rw [List.map_cons, List.map_cons, ih]
  | completed _ _ h1 _ ih =>
    obtain ⟨h2, h3⟩ := continued_kinds hm h1
    rw [List.map_cons, List.map_cons, ih]
    congr 1
    unfold ofKinds at h2 ⊢
    rename_i new _ _ _ _ _ _
    have h4 : ∀ k ∈ new, ¬ p k.ty = true := fun k hk => by rw [h3 k hk, hj]; exact Bool.false_ne_true
    rw [List.filter_append, List.map_append, h2, List.filter_eq_nil_iff.2 h4, List.map_nil, List.append_nil]

/-- The kinds of which nothing is added after the elements of a line are complete. -/
def Sole (k : Kind) : Bool := Lasting k && k != .journal

theorem ofKinds_append (p : Kind → Bool) (a b : List El) : ofKinds p (a ++ b) = ofKinds p a ++ ofKinds p b := by
  simp [ofKinds]

theorem ofKinds_flatten (p : Kind → Bool) (cs : List (List El)) : ofKinds p cs.flatten = (cs.map (ofKinds p)).flatten := by
  induction cs with
  | nil => rfl
  | cons c cs ih => rw [List.flatten_cons, ofKinds_append, ih]; rfl

theorem ofKinds_nonAuthors {p : Kind → Bool} (ha : p .auth = false) (es : List El) : ofKinds p (nonAuthors es) = ofKinds p es := by
  unfold ofKinds nonAuthors
  rw [List.filter_filter]
  congr 1
  refine List.filter_congr fun e _ => ?_
  by_cases h : e.ty = .auth
  · simp [h, ha]
  · simp [h]

theorem ofKinds_pieces {p : Kind → Bool} (hm : p .misc = false) {es : List El} {ps : List (List El)} (h : All2 CutOf es ps) :
    ofKinds p ps.flatten = ofKinds p es := by
  induction h with
  | nil => rfl
  | cons hc _ ih =>
    rename_i e _ es _ _
    have h1 : ofKinds p (e :: es) = ofKinds p [e] ++ ofKinds p es := ofKinds_append p [e] es
    rw [List.flatten_cons, ofKinds_append, ih, h1]
    congr 1
    cases hc with
    | whole => rfl
    | atSemicolon a b _ _ => unfold ofKinds; by_cases he : p e.ty = true <;> simp [hm, he, bare]

theorem completed_sublist [UnicodeDB] {p : Kind → Bool} (hm : p .misc = false) {prev : List El}
    {cs cs' : List (List El)} (h : Completed prev cs cs') : All2 (fun c c' => (ofKinds p c).Sublist (ofKinds p c')) cs cs' := by
  induction h with
  | nil => exact .nil
  | kept _ _ ih => exact .cons (List.Sublist.refl _) ih
  | completed _ _ h1 _ ih =>
    refine .cons ?_ ih
    rw [ofKinds_append, (continued_kinds hm h1).1]
    exact List.sublist_append_left _ _

/-- The elements of a line that are neither texts nor authors, and are neither found again nor put aside for something else,
are those of the citations into which it is split. -/
theorem split_kinds {p : Kind → Bool} (hm : p .misc = false) (ha : p .auth = false) (els : List El) :
    (((splitCitations els).map fun c => c.map (·.el)).map (ofKinds p)).flatten = ofKinds p els := by
  obtain ⟨⟨ps, h1, h2⟩, -⟩ := C07_conservation els
  rw [← ofKinds_flatten, ← ofKinds_nonAuthors ha, ← List.map_flatten, h2, ofKinds_nonAuthors ha, ofKinds_pieces hm h1]

theorem all2_flatten {p : Kind → Bool} {cs cs' : List (List El)} (h : All2 (fun c c' => (ofKinds p c).Sublist (ofKinds p c')) cs cs') :
    ((cs.map (ofKinds p)).flatten).Sublist ((cs'.map (ofKinds p)).flatten) := by
  induction h with
  | nil => exact List.Sublist.refl _
  | cons h _ ih => exact h.append ih

/-- **C07** for whole lines: the report numbers, URLs, handles, quoted titles, ISBNs and publishers of a line are those of
its citations, in the same order: none gets lost and none appears twice. -/
theorem C07_line [UnicodeDB] (special : List Str) (books : Books) (link : Option Linker) (els : List El) (cs : List (List El))
    (h : postProcess special books link els = .ok cs) : ∃ els', transformElements special books link els = .ok els' ∧
      ofKinds Sole cs.flatten = ofKinds Sole els' := by
  obtain ⟨els', mid, h1, h2, h3⟩ := post_completed (p := Sole) ⟨rfl, rfl, rfl, rfl, rfl, rfl⟩ rfl h
  refine ⟨els', h1, ?_⟩
  rw [ofKinds_flatten, h3, completed_kinds rfl rfl h2, split_kinds rfl rfl]

/-- **C07** for whole lines: the articles that were read are among the articles of the citations, in the same order. -/
theorem C07_articles [UnicodeDB] (special : List Str) (books : Books) (link : Option Linker) (els : List El) (cs : List (List El))
    (h : postProcess special books link els = .ok cs) : ∃ els', transformElements special books link els = .ok els' ∧
      (articles els').Sublist (articles cs.flatten) := by
  obtain ⟨els', mid, h1, h2, h3⟩ := C101_line special books link els cs h
  refine ⟨els', h1, ?_⟩
  have := all2_flatten (completed_sublist (p := (· == .journal)) rfl h2)
  rw [split_kinds rfl rfl] at this
  unfold articles at h3 ⊢
  rw [ofKinds_flatten, h3]
  exact this

example : @postProcess asciiDB [] [] none
    [{ ty := .reportnumber, misc := [], reportNum := some (py! "A-1") }, { ty := .isbn, misc := py! "; ", isbn := some (py! "3") }] = .ok
      [[{ ty := .reportnumber, misc := [], reportNum := some (py! "A-1") }, { ty := .misc, misc := [] }],
       [{ ty := .isbn, misc := py! " ", isbn := some (py! "3") }]] := by
  decide +kernel

/-! ### C102 -/

/-- A volume number that may have the letter of a series in front. -/
def PlainVolume [UnicodeDB] (v : Str) : Prop := Decimals v ∨ ∃ c d, v = c :: d ∧ Letter c ∧ Decimals d

set_option synthInstance.maxSize 1000 in
/-- **C102 fails** for journals whose volumes are counted by the year: without its title an article is reported with another
volume and another page. -/
theorem C102_refuted :
    reportedArticles (@parseReferences asciiDB id plainLib jhepKbs defaultFormat none
      [py! "[1] A. Smith, JHEP 05 (2001) 34; 06 (2001) 35"]) =
      [[[py! "JHEP"], [py! "0105"], [py! "2001"], [py! "034"]], [[py! "JHEP"], [py! "06"], [py! "2001"], [py! "35"]]] ∧
    reportedArticles (@parseReferences asciiDB id plainLib jhepKbs defaultFormat none
      [py! "[1] A. Smith, JHEP 05 (2001) 34; JHEP 06 (2001) 35"]) =
      [[[py! "JHEP"], [py! "0105"], [py! "2001"], [py! "034"]], [[py! "JHEP"], [py! "0106"], [py! "2001"], [py! "035"]]] := by
  decide +kernel

set_option synthInstance.maxSize 1000 in
/-- **C102 fails** for volumes that are roman numerals. -/
theorem C102_refuted_roman :
    reportedArticles (@parseReferences asciiDB id plainLib journalKbs defaultFormat none
      [py! "[1] A. Smith, Phys Lett 9 (1990) 34; X (1991) 35"]) =
      [[[py! "Phys.Lett."], [py! "9"], [py! "1990"], [py! "34"]], [[py! "Phys.Lett."], [py! "X"], [py! "1991"], [py! "35"]]] ∧
    reportedArticles (@parseReferences asciiDB id plainLib journalKbs defaultFormat none
      [py! "[1] A. Smith, Phys Lett 9 (1990) 34; Phys Lett X (1991) 35"]) =
      [[[py! "Phys.Lett."], [py! "9"], [py! "1990"], [py! "34"]], [[py! "Phys.Lett."], [py! "10"], [py! "1991"], [py! "35"]]] := by
  decide +kernel

set_option synthInstance.maxSize 1000 in
/-- **C102 fails** for the third article: the second semicolon of a text begins no citation, and the article is not reported. -/
theorem C102_refuted_third :
    reportedArticles (@parseReferences asciiDB id plainLib journalKbs defaultFormat none
      [py! "[1] Phys Lett 12 (1990) 34; 13 (1991) 35; 14 (1992) 36"]) =
      [[[py! "Phys.Lett."], [py! "12"], [py! "1990"], [py! "34"]], [[py! "Phys.Lett."], [py! "13"], [py! "1991"], [py! "35"]]] ∧
    reportedArticles (@parseReferences asciiDB id plainLib journalKbs defaultFormat none
      [py! "[1] Phys Lett 12 (1990) 34; Phys Lett 13 (1991) 35; Phys Lett 14 (1992) 36"]) =
      [[[py! "Phys.Lett."], [py! "12"], [py! "1990"], [py! "34"]], [[py! "Phys.Lett."], [py! "13"], [py! "1991"], [py! "35"]],
       [[py! "Phys.Lett."], [py! "14"], [py! "1992"], [py! "36"]]] := by
  decide +kernel

theorem plain_not_roman [UnicodeDB] {v : Str} (h : PlainVolume v) : ¬ LooksRoman v := by
  have hd : ∃ c ∈ v, isDec c = true := by
    rcases h with ⟨h1, h2⟩ | ⟨c, d, rfl, -, h1, h2⟩
    · obtain ⟨a, t, rfl⟩ := List.exists_cons_of_ne_nil h1
      exact ⟨a, by simp, h2 a (by simp)⟩
    · obtain ⟨a, t, rfl⟩ := List.exists_cons_of_ne_nil h1
      exact ⟨a, by simp, h2 a (by simp)⟩
  obtain ⟨c, hc, hd⟩ := hd
  rintro ⟨w, -, h2, h3⟩
  have hc' : c ∈ w ∨ c = '\n' := by
    rcases h3 with rfl | rfl
    · exact .inl hc
    · simpa using hc
  rcases hc' with h | rfl
  · have := h2 c h
    have key : ∀ x ∈ py! "IVXivx", isAscii x = true ∧ isAsciiDigit x = false := by decide
    rw [isDec_ascii (key c this).1, (key c this).2] at hd
    cases hd
  · rw [nl_not_dec] at hd; cases hd

theorem plain_mangle [UnicodeDB] {v : Str} (h : PlainVolume v) : mangleStr v = v := by
  unfold mangleStr
  cases hm : reMatch Rx.volume_re v with
  | none => rfl
  | some m =>
    obtain ⟨ds, l, rest, hv, hne, hd, hl, -⟩ := mangle_match hm
    have hld := letterI_not_dec hl
    exfalso
    rcases h with ⟨-, h2⟩ | ⟨c, d, rfl, hc, -, h2⟩
    · rw [h2 l (by rw [hv]; simp)] at hld; cases hld
    · obtain ⟨a, t, rfl⟩ := List.exists_cons_of_ne_nil hne
      simp only [List.cons_append, List.cons.injEq] at hv
      obtain ⟨rfl, hv⟩ := hv
      rw [h2 l (by rw [hv]; simp)] at hld; cases hld

theorem each_one {f : El → Py El} {e : El} (h : f e = .ok e) : eachEl f [e] = .ok [e] := by
  simp [eachEl, h, bind, Except.bind, pure, Except.pure]

/-- **C102**, the part that holds: an article in a journal that is not counted by the year, found by a numeration
with a plain volume, is what it would have become had its title been there. -/
theorem C102_partial [UnicodeDB] (special : List Str) (books : Books) (j k : El) (n : Numeration) (t : Str) (vol : Str)
    (hk : ArticleIn j n k) (ht : k.title = some t) (hv : k.volume = some (some vol)) (hp : PlainVolume vol)
    (h1 : t ∉ special) (h2 : ';' ∉ t) (h3 : t = py! "Nucl.Phys.Proc.Suppl." → Decimals vol) :
    transformElements special books none [k] = .ok [k] := by
  obtain ⟨hj, hm⟩ : k.ty = .journal ∧ k.misc = [] := by
    obtain ⟨t', vol', -, -, rfl⟩ := hk
    exact ⟨rfl, rfl⟩
  clear hk
  have e1 : rsplit1 ';' t = none := by
    cases h : rsplit1 ';' t with
    | none => rfl
    | some q => exact absurd (by rw [(rsplit1_some (a := q.1) (b := q.2) h).1]; simp) h2
  have s1 : splitVolume1 k = .ok k := by
    simp only [splitVolume1, hj, if_true, ht, getKey, bind, Except.bind, e1]; rfl
  have s2 := C14_other k (.inr ⟨vol, hv, plain_not_roman hp⟩)
  have e3 : special.contains t = false := by simpa using h1
  have s3 : specialJournal1 special k = .ok k := by
    simp only [specialJournal1, hj, if_true, ht, getKey, bind, Except.bind, e3]; rfl
  have s4 : formatReportNumber1 k = .ok k := by
    simp only [formatReportNumber1, hj]; rfl
  have s5 : formatAuthorEd1 k = .ok k := by
    simp only [formatAuthorEd1, hj]; rfl
  have s6 : formatHepEl k = .ok k := by
    simp only [formatHepEl, hj]; rfl
  have s7 : removeB1 k = .ok k := by
    simp only [removeB1, hj, if_true, ht, getKey, bind, Except.bind, hv, getStr]
    split
    · rename_i h
      obtain ⟨hne, hd⟩ := h3 h
      obtain ⟨a, r, rfl⟩ := List.exists_cons_of_ne_nil hne
      have := hd a (by simp)
      have key : ∀ x ∈ ['b', 'B'], isAscii x = true ∧ isAsciiDigit x = false := by decide
      have hn : a ∉ ['b', 'B'] := by
        intro hm
        rw [isDec_ascii (key a hm).1, (key a hm).2] at this
        cases this
      simp only [List.mem_cons, List.not_mem_nil, or_false, not_or] at hn
      rw [if_neg]
      · rfl
      · simp [startsWith, Ne.symm hn.1, Ne.symm hn.2]
    · rfl
  have s8 : mangleVolume1 k = .ok k := by
    simp only [mangleVolume1, hj, if_true, hv, getStr, bind, Except.bind, plain_mangle hp]
    rw [← hv, ← hj]; rfl
  have s9 : arxivUrl1 k = .ok k := by
    simp only [arxivUrl1, hj]; rfl
  have s10 : hdlUrl1 k = .ok k := by
    simp only [hdlUrl1, hj]; rfl
  have s11 : lookForHdl [k] = [k] := by
    have : finditer Rx.re_hdl [] = [] := rfl
    simp only [lookForHdl, hdlGo, hm, this, List.reverse_nil, hdlLoop]; rfl
  have s12 : lookForBooks books [k] = .ok [k] := by
    simp [lookForBooks, hj]
  unfold transformElements
  simp only [bind, Except.bind, each_one s1, each_one s2, each_one s3, each_one s4, each_one s5, s12, each_one s6, each_one s7, each_one s8,
    each_one s9, s11, each_one s10]
  rfl

example : @ArticleIn asciiDB { ty := .journal, misc := [], title := some (py! "Phys.Lett."), volume := some (some (py! "B12")) }
    { volume := some (py! "13"), year := some (py! "1991"), page := some (py! "35"), series := none, pageEnd := none, len := 12 }
    { ty := .journal, misc := [], title := some (py! "Phys.Lett."), volume := some (some (py! "B13")), year := some (some (py! "1991")),
      page := some (some (py! "35")), pageEnd := some none, isIbid := some true, extraIbids := some [] } := by
  refine ⟨_, py! "B13", rfl, ⟨_, rfl, .inr ⟨?_, py! "B12", rfl, .inl ⟨py! "B", .inl ?_, rfl⟩⟩⟩, rfl⟩
  · intro s h; cases h
  · exact ⟨'B', [], '1', py! "2", rfl, .inr (by decide), ⟨[], [], [], rfl, (by intro c h; cases h), (by intro c h; cases h), .inl rfl⟩,
      by decide, by decide⟩

end Props
