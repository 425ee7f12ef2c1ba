import Verif.Lemmas.Known5
import Verif.Spec.Unknown
import Verif.Props.Books
import Verif.Props.Post

/-!
# Helper lemmas: a line of which nothing is known
-/

namespace Py
open Spec
open scoped List

variable [UnicodeDB]

theorem recognise_none {kbs : Kbs} {s : Str} (hX : Calm s) (h : NothingKnown kbs s) :
    ∃ f, recognise s kbs.tag = .ok (f, []) ∧ f.journals = [] ∧ f.repLens = [] ∧ f.publishers = [] := by
  have hc := hX.chars
  have hcl : cleanedLine s = s.map rd := by rw [cleaned_eq, calm_strip hX, upper_rd hc]
  have hsp : ∀ c ∈ s.map rd, isSpace c = true → c = ' ' := by
    intro c h
    obtain ⟨d, hd, rfl⟩ := List.mem_map.1 h
    exact readChars_space (rd_chars (hc d hd))
  have e1 : (compressSpaces (s.map rd)).2 = reading s := by rw [compress_squeezed hsp, reading, upper_rd hc]
  have hrc := reading_chars hc
  have hsl : '/' ∉ reading s := fun h => absurd (hrc _ h) (by decide)
  obtain ⟨pairs, j1, j2, j3⟩ := h.kb
  have htit : identifyJournals (reading s) kbs.tag.journalPats kbs.tag.journalKeys = .ok ⟨[], reading s, []⟩ := by
    refine titleLoops_none (fun t ht => ?_) fun t ht i hat => ?_
    · rw [j1]; exact buildJournals_pats pairs t (by rw [← j2]; exact ht)
    · obtain ⟨u, v, e, -⟩ := atPos_split hat (j3 t ht).1
      exact h.titles t ht ⟨u, v, e.symm⟩
  have hby : identifyJournalsRe s kbs.tag.journalsRe = [] := by
    unfold identifyJournalsRe
    have : ∀ l : List (Str × Re × Str), (∀ p ∈ l, search p.2.1 s = none) →
        l.foldl (fun d p => match search p.2.1 s with | some m => dset d m.start m.txt | none => d) ([] : List (Nat × Str)) = [] := by
      intro l
      induction l with
      | nil => intro _; rfl
      | cons p l ih =>
        intro h
        rw [List.foldl_cons, h p (by simp)]
        exact ih fun p hp => h p (by simp [hp])
    exact this _ h.byRe
  have hpu : identifyPublishers (reading s) kbs.tag.publishers = [] := by
    rw [List.eq_nil_iff_forall_not_mem]
    intro q hq
    obtain ⟨p, hp, -, m, hm, -⟩ := publishers_mem hq
    rw [h.publishers p hp] at hm
    cases hm
  have hfind : (find (py! "IBID") (upper (reading s))).isSome = false := by
    rw [upper_read fun c hc => .inl (hrc c hc)]
    cases hf : find (py! "IBID") (reading s) with
    | none => rfl
    | some i =>
      obtain ⟨u, v, e⟩ := find_isSome_iff.1 (by rw [hf]; rfl : (find (py! "IBID") (reading s)).isSome = true)
      exact absurd ⟨u, v, e.symm⟩ h.ibid
  refine ⟨⟨[], [], [], [], sortBy (fun x y => decide (x.1 ≤ y.1)) (compressSpaces (s.map rd)).1,
    dupdate kbs.tag.journalStd (kbs.tag.journalsRe.map fun p => (p.1, p.2.2))⟩, ?_, rfl, rfl, rfl⟩
  unfold recognise
  rw [hby, hcl]
  generalize hC : compressSpaces (s.map rd) = C at e1
  obtain ⟨spaces, w⟩ := C
  dsimp only at e1 ⊢
  subst e1
  rw [identifyRepnums_none hsl h.reports, okBind]
  dsimp only
  rw [htit, okBind]
  dsimp only
  rw [hfind]
  simp only [Bool.false_eq_true, if_false, hpu]
  rfl

theorem tag_plain {lib : Lib} {kbs : Kbs} {s : Str} (hX : Calm s) (hq : ∀ c ∈ s, c ∈ quietChars) (h : NothingKnown kbs s)
    (hu : ∀ s, (∀ c ∈ s, isAscii c = true) → lib.unidecode s = s) : tagReferenceLine lib s kbs.tag [] = .ok (s, []) := by
  obtain ⟨f, h1, h2, h3, h4⟩ := recognise_none hX h
  have hascii : ∀ c ∈ s, isAscii c = true ∧ c ≠ '\n' := fun c hc => by
    have : (quietChars.all fun c => isAscii c && c != '\n') = true := by decide
    simpa using List.all_eq_true.1 this c (hq c hc)
  have hauth : finditer Rx.RE_AUTH (stripTags s) = [] := by
    rw [calm_strip hX]
    exact barren_finditer (A := quietChars) (by decide) (by decide +kernel) hq
  unfold tagReferenceLine
  rw [calm_fixed lib hX, okBind, h1, okBind]
  dsimp only
  have hs : sumDicts [] ([] : List (Str × Nat)) = .ok [] := rfl
  rw [hs, okBind]
  unfold processLine rebuildTagged
  rw [if_pos (by rw [h2, h3, h4]; rfl), okBind, tagAuthors_none ?_ (hu _ fun c hc => (hascii c hc).1) hauth, okBind, tagCollaborations_none ?_, okBind]
  · have : s.filter (· != '\n') = s := by
      rw [List.filter_eq_self]
      intro c hc
      simpa using (hascii c hc).2
    rw [this]
    rfl
  · intro q hq
    rw [calm_strip hX]
    exact h.collaborations q hq
  · intro q hq hi
    obtain ⟨c, hc, hn⟩ := h.authors q hq
    rw [(hascii c (hi.subset hc)).1] at hn
    cases hn

theorem transform_text {special : List Str} {books : Books} {s : Str} (hh : finditer Rx.re_hdl s = []) :
    transformElements special books none [{ ty := .misc, misc := s }] = .ok [{ ty := .misc, misc := s }] := by
  have step : ∀ f : El → Py El, f { ty := .misc, misc := s } = .ok { ty := .misc, misc := s } →
      eachEl f [{ ty := .misc, misc := s }] = .ok [{ ty := .misc, misc := s }] := by
    intro f h1
    refine eachEl_same fun e he => ?_
    rw [List.mem_singleton.1 he]
    exact h1
  unfold transformElements
  rw [step splitVolume1 rfl, okBind, step formatVolume1 rfl, okBind, step (specialJournal1 special) rfl, okBind, step formatReportNumber1 rfl, okBind,
    step formatAuthorEd1 rfl, okBind]
  have hb : lookForBooks books [{ ty := .misc, misc := s }] = .ok [{ ty := .misc, misc := s }] := rfl
  rw [hb, okBind, step formatHepEl rfl, okBind, step removeB1 rfl, okBind, step mangleVolume1 rfl, okBind, step arxivUrl1 rfl, okBind]
  have hg : lookForHdl [{ ty := .misc, misc := s }] = [{ ty := .misc, misc := s }] := by
    rw [lookForHdl, hdlGo_none (by simpa using hh)]; rfl
  simp only [hg]
  rw [step hdlUrl1 rfl, okBind]
  rfl

theorem bookInMisc_none {books : Books} {es : List El} {year : Val} {misc : Str} : ∀ {ts : List Str}, (∀ t ∈ ts, ¬ alnums (upper t) <:+: alnums (upper misc)) →
    bookInMisc books es year misc ts = .ok none
  | [], _ => rfl
  | t :: ts, h => by
    have : findIgnoring misc t = none := by
      cases hf : findIgnoring misc t with
      | none => rfl
      | some i => exact absurd ((Props.C54_found misc t).1 ⟨i, hf⟩) (h t (by simp))
    rw [bookInMisc, this]
    exact bookInMisc_none fun t ht => h t (by simp [ht])

theorem bookSearch_none {books : Books} {year : Val} {h : Heap} {c : List Nat} : ∀ {is : List Nat},
    (∀ i ∈ is, ∀ q ∈ books, ¬ alnums (upper q.1) <:+: alnums (upper (h.get i).misc)) → bookSearch books year h c is = .ok (h, c)
  | [], _ => rfl
  | i :: is, hn => by
    rw [bookSearch, bookInMisc_none, okBind]
    · exact bookSearch_none fun j hj => hn j (by simp [hj])
    · intro t ht
      obtain ⟨q, hq, rfl⟩ := List.mem_map.1 ht
      exact hn i (by simp) q hq

theorem undetected_none {books : Books} {h : Heap} {c : List Nat} (hy : ∀ e ∈ h.els c, e.ty = .year → e.year ≠ none)
    (hn : ∀ i ∈ c, ∀ q ∈ books, ¬ alnums (upper q.1) <:+: alnums (upper (h.get i).misc)) : undetectedBooks books h c = .ok (h, c) := by
  unfold undetectedBooks
  split
  · have : ∃ y, yearFromCitation (h.els c) = .ok y := by
      unfold yearFromCitation
      cases hf : (h.els c).find? (·.ty = .year) with
      | none => exact ⟨_, rfl⟩
      | some e =>
        have h1 := List.mem_of_find?_eq_some hf
        have h2 := List.find?_some hf
        have h3 := hy e h1 (by simpa using h2)
        cases h4 : e.year with
        | none => exact absurd h4 h3
        | some y => exact ⟨y, by simp [h4, getKey]⟩
    obtain ⟨y, hy⟩ := this
    rw [hy, okBind]
    exact bookSearch_none hn
  · rfl

end Py
