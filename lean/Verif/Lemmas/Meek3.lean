import Verif.Lemmas.Meek2
import Verif.Lemmas.ReSem

/-!
# What is recognised in tame text is plain
-/

open Py Spec
open scoped List

namespace Py

variable [UnicodeDB] {uni : Str → Str} {spell : Char → Str} {w : Str}

/-! ### Substitutions -/

theorem sub_meek {r : Re} {f : Match → Str} {s : Str} (h : ∀ m ∈ finditer r s, Meek spell w m.txt (f m)) : Meek spell w s (sub r f s) := by
  have key : ∀ ps : List Piece, (∀ m ∈ ps.filterMap Piece.match?, Meek spell w m.txt (f m)) →
      Meek spell w (ps.flatMap Piece.orig) (ps.flatMap (Piece.out f)) := by
    intro ps
    induction ps with
    | nil => intro _; exact Meek.refl _
    | cons p ps ih =>
      intro h
      rw [List.flatMap_cons, List.flatMap_cons]
      have h2 := ih fun m hm => h m (by
        obtain ⟨q, hq, e⟩ := List.mem_filterMap.1 hm
        exact List.mem_filterMap.2 ⟨q, List.mem_cons_of_mem _ hq, e⟩)
      refine Meek.append ?_ h2
      cases p with
      | ch c => exact Meek.refl _
      | hit m => exact h m (List.mem_filterMap.2 ⟨_, List.mem_cons_self .., rfl⟩)
  have := key (scan r s) h
  rwa [scan_orig] at this

theorem sub_all {P : Char → Prop} {r : Re} {f : Match → Str} {s : Str} (hs : ∀ c ∈ s, P c) (hf : ∀ m ∈ finditer r s, ∀ c ∈ f m, P c) :
    ∀ c ∈ sub r f s, P c := by
  intro c hc
  obtain ⟨p, hp, hc⟩ := List.mem_flatMap.1 hc
  cases p with
  | ch d =>
    have : c = d := List.mem_singleton.1 hc
    subst this
    refine hs c ?_
    rw [← scan_orig r s]
    exact List.mem_flatMap.2 ⟨_, hp, by simp [Piece.orig]⟩
  | hit m => exact hf m (List.mem_filterMap.2 ⟨_, hp, rfl⟩) c hc

theorem sub1_all {P : Char → Prop} {r : Re} {f : Match → Str} {s : Str} (hs : ∀ c ∈ s, P c) (hf : ∀ m, ∀ c ∈ f m, P c) :
    ∀ c ∈ sub1 r f s, P c := by
  have key : ∀ ps : List Piece, (∀ c ∈ ps.flatMap Piece.orig, P c) → ∀ c ∈ subFirst f ps, P c := by
    intro ps
    induction ps with
    | nil => intro _ c hc; cases hc
    | cons p ps ih =>
      intro h c hc
      rw [List.flatMap_cons] at h
      cases p with
      | ch d =>
        rcases List.mem_cons.1 hc with rfl | hc
        · exact h c (by simp [Piece.orig])
        · exact ih (fun c hc => h c (List.mem_append_right _ hc)) c hc
      | hit m =>
        rcases List.mem_append.1 hc with hc | hc
        · exact hf m c hc
        · exact h c (List.mem_append_right _ hc)
  exact key (scan r s) (by rw [scan_orig]; exact hs)

theorem stripTags_all {P : Char → Prop} (hu : P '_') {s : Str} (hs : ∀ c ∈ s, P c) : ∀ c ∈ stripTags s, P c := by
  unfold stripTags
  generalize finditer Rx.re_tag s = ms
  induction ms generalizing s with
  | nil => exact hs
  | cons m ms ih =>
    rw [List.foldl_cons]
    refine ih (sub1_all hs fun _ c hc => ?_)
    have : c = '_' := (List.mem_replicate.1 hc).2
    rw [this]; exact hu

omit [UnicodeDB] in
theorem replace_all {P : Char → Prop} {old new : Str} (hn : ∀ c ∈ new, P c) {s : Str} (hs : ∀ c ∈ s, P c) : ∀ c ∈ replace s old new, P c := by
  unfold replace
  generalize 0 = k
  induction s generalizing k with
  | nil => intro c hc; rw [replaceGo] at hc; cases hc
  | cons d s ih =>
    have ih' : ∀ k, ∀ c ∈ replaceGo old new k s, P c := fun k => ih (fun c hc => hs c (by simp [hc])) k
    cases k with
    | succ k => rw [replaceGo]; exact ih' k
    | zero =>
      rw [replaceGo]
      split
      · intro c hc
        rcases List.mem_append.1 hc with hc | hc
        · exact hn c hc
        · exact ih' _ c hc
      · intro c hc
        rcases List.mem_cons.1 hc with rfl | hc
        · exact hs c (by simp)
        · exact ih' _ c hc

/-- Characters of tame text. -/
def TameC (spell : Char → Str) (c : Char) : Prop := c = '<' ∨ '<' ∉ spell c

theorem tameC_ascii (S : Spelled uni spell) {c : Char} (h : isAscii c = true) : TameC spell c := by
  by_cases hc : c = '<'
  · exact .inl hc
  · right; rw [S.ascii c h]; simpa using Ne.symm hc

theorem tame_upper (S : Spelled uni spell) {s : Str} (h : Tame spell s) : Tame spell (upper s) := by
  intro d hd
  obtain ⟨c, hc, hd⟩ := List.mem_flatMap.1 hd
  rcases h c hc with rfl | h
  · exact .inl (List.mem_singleton.1 hd)
  · exact .inr (S.upper c h d hd)

theorem tame_stripTags (S : Spelled uni spell) {s : Str} (h : Tame spell s) : Tame spell (stripTags s) :=
  stripTags_all (P := TameC spell) (tameC_ascii S (by decide)) h

/-! ### Report numbers -/

theorem tame_working (S : Spelled uni spell) {line : Str} (h : Tame spell line) :
    Tame spell (replace (compressSpaces (cleanedLine line)).2 ['/'] [' ']) := by
  have sp : ∀ c ∈ [' '], TameC spell c := fun c hc => by
    rw [List.mem_singleton.1 hc]; exact tameC_ascii S (by decide)
  refine replace_all (P := TameC spell) sp ?_
  unfold compressSpaces cleanedLine
  exact sub_all (P := TameC spell) (sub_all (P := TameC spell) (tame_upper S (tame_stripTags S h)) fun _ _ => sp) fun _ _ => sp

theorem repnumNumeration_plain (S : Spelled uni spell) {s : Str} (h : NoAngle spell s) : NoAngle spell (repnumNumeration s) := by
  have as : ∀ {x : Str}, x.all isAscii = true → '<' ∉ x → ∀ c ∈ x, '<' ∉ spell c := fun h1 h2 => plain_ascii S h1 h2
  have hy : ∀ c ∈ ['-'], '<' ∉ spell c := as (by decide) (by decide)
  have hs : ∀ c ∈ ['/'], '<' ∉ spell c := as (by decide) (by decide)
  unfold repnumNumeration
  exact replace_all hs (replace_all hs (replace_all hs (sub_all (replace_all hy h) fun _ _ => hy)))

omit [UnicodeDB] in
theorem splice_all {P : Char → Prop} {s t : Str} {a b : Nat} (hs : ∀ c ∈ s, P c) (ht : ∀ c ∈ t, P c) : ∀ c ∈ splice s a t b, P c := by
  intro c hc
  unfold splice at hc
  rcases List.mem_append.1 hc with hc | hc
  · rcases List.mem_append.1 hc with hc | hc
    · exact hs c (List.mem_of_mem_take hc)
    · exact ht c hc
  · exact hs c (List.mem_of_mem_drop hc)

/-- What is asked of the tables for report numbers. -/
structure RepKb (spell : Char → Str) (kbs : TagKbs) : Prop where
  min : ReportKbOk kbs
  pats : ∀ p ∈ kbs.reportStd, (dget kbs.reportPats p.1).isSome = true
  numn : ∀ p ∈ kbs.reportPats, ∀ s, ∀ m ∈ finditer p.2 s, ∃ g k n, m.group 1 = some g ∧ m.gstart 1 = some k ∧ m.group G.numn = some n ∧ '<' ∉ n
  std : ∀ p ∈ kbs.reportStd, NoAngle spell p.2

/-- What is known of the report numbers so far. -/
def RepPlain (spell : Char → Str) (st : Repnums) : Prop := Tame spell st.line ∧ ∀ p ∈ st.repls, NoAngle spell p.2

omit [UnicodeDB] in
theorem foldlM_makes {α β : Type} {P : β → Prop} {f : β → α → Py β} : ∀ {l : List α} {b : β}, P b →
    (∀ b a, a ∈ l → P b → ∃ c, f b a = .ok c ∧ P c) → ∃ c, l.foldlM f b = .ok c ∧ P c
  | [], b, hb, _ => ⟨b, rfl, hb⟩
  | a :: l, b, hb, hf => by
    obtain ⟨c, hc, hp⟩ := hf b a (by simp) hb
    obtain ⟨d, hd, hp⟩ := foldlM_makes (l := l) hp fun b a ha => hf b a (List.mem_cons_of_mem _ ha)
    exact ⟨d, by rw [List.foldlM_cons, hc]; exact hd, hp⟩

theorem group_chars {r : Re} {s : Str} {m : Match} (hm : m ∈ finditer r s) {g : Nat} {x : Str} (hx : m.group g = some x) : ∀ c ∈ x, c ∈ s := by
  obtain ⟨p, q, e, hok⟩ := finditer_ok hm
  obtain ⟨a, b, h⟩ := hok.group_infix hx
  intro c hc
  rw [e]
  have : c ∈ p.reverse.reverse ++ (m.txt ++ q) := by rw [h]; simp [hc]
  simpa using this

theorem identifyRepnums_plain (S : Spelled uni spell) {kbs : TagKbs} (hk : RepKb spell kbs) {line : Str} (hl : Tame spell (replace line ['/'] [' '])) :
    ∃ st, identifyRepnums line kbs = .ok st ∧ RepPlain spell st := by
  unfold identifyRepnums
  refine foldlM_makes (P := RepPlain spell) ⟨hl, by simp⟩ ?_
  intro st categ hc hst
  have hc' := (sortBy_perm _).mem_iff.1 hc
  obtain ⟨q, hq, rfl⟩ := List.mem_map.1 hc'
  unfold repnumCateg
  have h1 := hk.pats q hq
  cases hr : dget kbs.reportPats q.1 with
  | none => rw [hr] at h1; cases h1
  | some r =>
    have h2 : (dget kbs.reportStd q.1).isSome = true := (dget_isSome _ _).2 (List.mem_map.2 ⟨q, hq, rfl⟩)
    cases hs : dget kbs.reportStd q.1 with
    | none => rw [hs] at h2; cases h2
    | some std =>
      have hstd := hk.std _ (dget_mem _ _ _ hs)
      show ∃ c, (finditer r st.line).foldlM (repnumStep std) st = .ok c ∧ _
      refine foldlM_makes (P := RepPlain spell) hst ?_
      intro b m hm hb
      obtain ⟨g, k, n, e1, e2, e3, hn⟩ := hk.numn _ (dget_mem _ _ _ hr) _ m hm
      unfold repnumStep
      rw [e1, e2, e3]
      refine ⟨_, rfl, ?_, ?_⟩
      · refine splice_all (P := TameC spell) hb.1 fun c hc => ?_
        rw [(List.mem_replicate.1 hc).2]; exact tameC_ascii S (by decide)
      · intro p hp
        rcases dset_mem hp with hp | rfl
        · exact hb.2 p hp
        · exact hstd.append (repnumNumeration_plain S ((hst.1.of_sub (group_chars hm e3)).plain hn))

/-! ### The whole line -/

/-- What is asked of the tables for journals, report numbers and publishers. -/
structure RecKb (spell : Char → Str) (kbs : TagKbs) : Prop extends RepKb spell kbs where
  titles : TitleKb kbs
  journalStd : ∀ p ∈ kbs.journalStd, NoAngle spell p.2
  journalsRe : ∀ p ∈ kbs.journalsRe, NoAngle spell p.2.2
  publishers : ∀ p ∈ kbs.publishers, NoAngle spell p.2.2

omit [UnicodeDB] in
theorem dupdate_mem {κ α : Type} [DecidableEq κ] {b : List (κ × α)} : ∀ {a : List (κ × α)} {p : κ × α}, p ∈ dupdate a b → p ∈ a ∨ p ∈ b := by
  unfold dupdate
  induction b with
  | nil => intro a p h; exact .inl h
  | cons q b ih =>
    intro a p h
    rw [List.foldl_cons] at h
    rcases ih h with h | h
    · rcases dset_mem h with h | rfl
      · exact .inl h
      · exact .inr (by simp)
    · exact .inr (by simp [h])

omit [UnicodeDB] in
theorem titleSteps_count {keys : List Str} {t : Str} (ht : t ∈ keys) (ms : List Match) : ∀ {b : Titles}, (∀ p ∈ b.count, p.1 ∈ keys) →
    ∀ p ∈ (ms.foldl (titleStep t) b).count, p.1 ∈ keys := by
  induction ms with
  | nil => intro b hb; exact hb
  | cons m ms ih =>
    intro b hb
    rw [List.foldl_cons]
    refine ih fun p hp => ?_
    rcases dset_mem hp with hp | rfl
    · exact hb p hp
    · exact ht

theorem recognise_plain (S : Spelled uni spell) {kbs : TagKbs} (hk : RecKb spell kbs) {line : Str} (hl : Tame spell line) :
    ∃ f n, recognise line kbs = .ok (f, n) ∧ FoundPlain spell f kbs.publishers ∧ ∀ p ∈ n, p.1 ∈ kbs.journalKeys := by
  obtain ⟨reps, h1, -, h2⟩ := identifyRepnums_plain S hk.toRepKb (tame_working S hl)
  obtain ⟨pairs, j1, j2, j3⟩ := hk.titles
  have h0 : TitlesOk reps.line ⟨[], reps.line, []⟩ :=
    ⟨⟨rfl, fun k _ hc => by (obtain ⟨p, hp, -⟩ := hc; cases hp), fun k _ => rfl⟩, by simp, .nil⟩
  rw [j2] at j3
  obtain ⟨st, k1, -, -, -⟩ := identifyJournals_ok (buildJournals pairs).keys _ h0
    (fun t ht => ⟨(j3 t ht).1, (j3 t ht).2, buildJournals_pats pairs t ht⟩) (buildJournals_sorted pairs) (by simp)
  have k2 : identifyJournals reps.line kbs.journalPats kbs.journalKeys = .ok st := by rw [j1, j2]; exact k1
  have hcount : ∀ p ∈ st.count, p.1 ∈ kbs.journalKeys := by
    refine foldlM_keeps (P := fun st : Titles => ∀ p ∈ st.count, p.1 ∈ kbs.journalKeys) k2 (by simp) ?_
    intro b t c ht hb hc
    unfold titleLoop at hc
    obtain ⟨r, -, hc⟩ := bind_ok hc
    cases hc
    exact titleSteps_count ht (finditer r b.line) hb
  have e : ∃ f n, recognise line kbs = .ok (f, n) ∧ f.std = dupdate kbs.journalStd (kbs.journalsRe.map fun p => (p.1, p.2.2)) ∧
      f.repTexts = reps.repls ∧ n = st.count := by
    unfold recognise
    generalize compressSpaces (cleanedLine line) = C at h1
    obtain ⟨spaces, w⟩ := C
    dsimp only at h1 ⊢
    rw [h1]
    dsimp only [bind, Except.bind]
    rw [k2]
    exact ⟨_, _, rfl, rfl, rfl, rfl⟩
  obtain ⟨f, n, e, e1, e2, rfl⟩ := e
  refine ⟨f, _, e, ⟨?_, by rw [e2]; exact h2, hk.publishers⟩, hcount⟩
  rw [e1]
  intro p hp
  rcases dupdate_mem hp with hp | hp
  · exact hk.journalStd p hp
  · obtain ⟨q, hq, rfl⟩ := List.mem_map.1 hp
    exact hk.journalsRe q hq

theorem washVolumeTag_meek (S : Spelled uni spell) (hw : CountedTag w) {s : Str} (hs : Tame spell s) : Meek spell w s (washVolumeTag s) := by
  have st : ∀ {i : Str}, i ∈ sealTags → Seal spell w i := fun h => seal_tag S hw h
  refine sub_meek fun m hm => Seal.meek ?_ _
  obtain ⟨p, q, e, hok⟩ := finditer_ok hm
  have ht : Tame spell (p.reverse.reverse ++ (m.txt ++ q)) := by rw [List.reverse_reverse, ← List.append_assoc, ← e]; exact hs
  have hg : ∀ g ∈ [1, 2], NoAngle spell (m.tgroup g) := by
    intro g hg
    have := group_noAngle (gs := [1, 2]) (r := Rx.re_wash_volume_tag) (by decide +kernel) hok ht hg
    unfold Match.tgroup
    cases h : m.group g with
    | none => exact noAngle_nil
    | some x => exact this x h
  exact (((st (by decide)).text (hg 1 (by simp))).text (hg 2 (by simp))).append (st (by decide))

/-- Writing journals, report numbers and publishers into the line brings no tags for DOIs or URLs. -/
theorem rebuildTagged_meek (S : Spelled uni spell) (hw : CountedTag w) {line : Str} {f : Found} {pubs : List (Str × Re × Str)} (hl : Tame spell line)
    (hf : FoundPlain spell f pubs) {t : Str} (h : rebuildTagged line f pubs = .ok t) : Meek spell w line t := by
  unfold rebuildTagged at h
  split at h
  · cases h; exact Meek.refl _
  · obtain ⟨⟨pos, prev, out⟩, h1, h⟩ := bind_ok h
    cases h
    have h0 : Kept spell w line 0 (0, none, []) := ⟨fun q hq => (by cases hq), .inl ⟨rfl, rfl⟩⟩
    have hs : (locations f).Pairwise (fun a b => decide (a.1 ≤ b.1) = true) :=
      sortBy_sorted (by simp; omega) (by simp; omega) _
    obtain ⟨E, hE⟩ := replaceSteps_kept S hw hl hf h0 (fun _ _ => Nat.zero_le _) hs h1
    have key : Meek spell w line (out ++ line.drop pos) := by
      rcases hE.2 with ⟨e1, e2⟩ | ⟨e1, e2⟩
      · simp only at e1 e2
        subst e1 e2
        simpa using Meek.refl line
      · have := (e2 pos e1).append (Meek.refl (line.drop pos))
        rwa [List.take_append_drop] at this
    exact key.trans (washVolumeTag_meek S hw (key hl).1)

end Py
