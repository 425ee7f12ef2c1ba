import Verif.Model.Kbs
import Verif.Spec.Collab
import Verif.Lemmas.Ident5
import Verif.Lemmas.Places

/-!
# Lemmas about collaborations
-/

open Spec

namespace Py

variable [UnicodeDB]

/-! ### Replacing pieces of a covered line -/

/-- Replacing the matches found in the covered line, from the last to the first, in the line itself. -/
theorem rewritten_splice {r : Re} {P : Str → Str → Str → Str → Prop} {step : Str → Match → Py Str} {f : Match → Str} (hr : 0 < r.minLen)
    (hstep : ∀ pre post m, matchHere r false pre (m.txt ++ post) = some m → ∀ l, step l m = .ok (splice l m.start (f m) m.stop))
    (hit : ∀ pre post m, matchHere r false pre (m.txt ++ post) = some m → P pre.reverse m.txt post (f m))
    (sem : ∀ pre w post x, P pre.reverse w post x → Sem r pre w post ∧ '_' ∉ w) {s line : Str} (hu : Under s line) :
    ∃ out, (finditer r s).reverse.foldlM step line = .ok out ∧ RewrittenUnder P [] s line out := by
  have key : ∀ {pre s : Str} {ps : List Piece}, Scanned r pre s ps → ∀ l, Under s l → ∀ p, p.length = pre.length →
      ∃ t, (ps.filterMap Piece.match?).reverse.foldlM step (p ++ l) = .ok (p ++ t) ∧ RewrittenUnder P pre.reverse s l t := by
    intro pre s ps h
    induction h with
    | nil pre =>
      intro l hl p _
      cases hl
      exact ⟨[], rfl, .nil⟩
    | @ch pre c t ps hn _ ih =>
      intro l hl p hp
      cases hl with
      | @cons _ d _ l hcd hl =>
        obtain ⟨t, h1, h2⟩ := ih l hl (p ++ [d]) (by simp [hp])
        refine ⟨d :: t, ?_, ?_⟩
        · rw [List.filterMap_cons]
          simpa [Piece.match?] using h1
        · rw [List.reverse_cons] at h2
          refine .ch hcd ?_ h2
          rintro ⟨w, r', x, hw, hP⟩
          exact (matchHere_none _ _ _).1 hn ⟨w, r', hw, (sem _ _ _ _ hP).1⟩
    | @hit pre t ps m hm hne _ ih =>
      intro l hl p hp
      obtain ⟨a, b, rfl, ha, hb⟩ := under_split (x := m.txt ++ t) hl rfl
      have hP := hit _ _ _ hm
      have hau : m.txt = a := under_eq ha (sem _ _ _ _ hP).2
      subst hau
      obtain ⟨t', h1, h2⟩ := ih b hb (p ++ m.txt) (by simp [hp]; omega)
      refine ⟨f m ++ t', ?_, ?_⟩
      · have hs : m.start = p.length := by rw [(matchHere_ok hm).1.start, hp]
        rw [List.append_assoc] at h1
        rw [List.filterMap_cons]
        simp only [Piece.match?, List.reverse_cons, List.foldlM_append, h1, bind, Except.bind, List.foldlM_cons, List.foldlM_nil]
        rw [hstep _ _ _ hm]
        simp [splice, Match.stop, hs, pure, Except.pure]
      · rw [List.reverse_append, List.reverse_reverse] at h2
        exact .hit hne hP h2
  obtain ⟨t, h1, h2⟩ := key (scan_scanned' hr s) line hu [] rfl
  exact ⟨t, h1, h2⟩

/-! ### A group in front of something -/

omit [UnicodeDB] in
theorem flatMap_head_map {α β γ : Type} {B : α → List β} {f : γ → α} {B' : γ → List β} (hB : ∀ u, B (f u) = [] ↔ B' u = []) {t : β} :
    ∀ {l : List γ}, ((l.map f).flatMap B).head? = some t → ∃ u ∈ l, (B (f u)).head? = some t ∧ ∃ t', (l.flatMap B').head? = some t' ∧ (B' u).head? = some t'
  | [], h => by simp at h
  | a :: l, h => by
    rw [List.map_cons, List.flatMap_cons, List.head?_append] at h
    cases hf : B (f a) with
    | nil =>
      rw [hf] at h
      obtain ⟨u, hu, h1, t', h2, h3⟩ := flatMap_head_map hB (l := l) (by simpa using h)
      refine ⟨u, by simp [hu], h1, t', ?_, h3⟩
      rw [List.flatMap_cons, (hB a).1 hf]
      exact h2
    | cons y ys =>
      rw [hf] at h
      cases hf' : B' a with
      | nil => rw [(hB a).2 hf'] at hf; simp at hf
      | cons z zs =>
        refine ⟨a, by simp, by rw [hf]; simpa using h, z, ?_, by rw [hf']; rfl⟩
        rw [List.flatMap_cons, hf']
        rfl

theorem run_nil_iff {r : Re} {s : St} : run r s = [] ↔ ¬ ∃ w rest, s.post = w ++ rest ∧ Sem r s.pre w rest := by
  refine ⟨run_nil, fun h => ?_⟩
  cases hr : run r s with
  | nil => rfl
  | cons t l =>
    obtain ⟨w, hw⟩ := run_step (r := r) (s := s) (t := t) (by rw [hr]; simp)
    exact absurd ⟨w, t.post, hw.post, hw.sem⟩ h

/-- A group takes what its contents would take. -/
theorem first_group_then {g : Nat} {a b : Re} {s t : St} (h : First (.group g a ⬝ b) s t) :
    ∃ u v w t', Step a s u w ∧ v.pre = u.pre ∧ v.post = u.post ∧ v.cap g = some w ∧ First b v t ∧ First (a ⬝ b) s t' ∧ First b u t' := by
  unfold First at h
  simp only [run] at h
  obtain ⟨u, hu, h1, t', h2, h3⟩ := flatMap_head_map (B' := run b) (fun u => by rw [run_nil_iff, run_nil_iff]) h
  obtain ⟨w, hw⟩ := run_step (r := a) hu
  refine ⟨u, _, w, t', hw, ?_, ?_, ?_, h1, h2, h3⟩
  · rfl
  · rfl
  · simp [St.cap, hw.pre]

/-! ### The pattern of a collaboration -/

theorem sem_nameRe : ∀ {name pre w post : Str}, Sem (nameRe name) pre w post ↔ NameText name w
  | [], pre, w, post => by
    simp only [nameRe, Sem, NameText]
    constructor
    · rintro rfl; exact .nil
    · intro h; cases h; rfl
  | d :: name, pre, w, post => by
    have hd : ∀ {pre u post : Str}, Sem (if d = ' ' then Re.space else Re.chI d) pre u post ↔
        ∃ c, u = [c] ∧ if d = ' ' then isSpace c = true else d ∈ caseVariants c := by
      intro pre u post
      split
      · exact sem_space1
      · exact sem_chI
    constructor
    · rintro ⟨u, v, rfl, h1, h2⟩
      obtain ⟨c, rfl, hc⟩ := hd.1 h1
      exact .cons hc (sem_nameRe.1 h2)
    · intro h
      cases h with
      | @cons c _ w _ hc h => exact ⟨[c], w, rfl, hd.2 ⟨c, rfl, hc⟩, sem_nameRe.2 h⟩

theorem collabEnd_mem {c : Char} : CSet.mem ⟨false, false, [.ch '>', .ch '<', .ch ']', .ch ')', .ch '"', .space, .ch '.', .ch ',', .ch ':']⟩ c = true ↔
    (c ∈ py! "><])\".,:" ∨ isSpace c = true) := by
  simp [CSet.mem, CItem.mem]
  grind

theorem sem_collabEnd {pre w post : Str} : Sem collabEndRe pre w post ↔ w = [] ∧ CollabEnd post := by
  simp only [collabEndRe, Re.alts, Sem]
  refine and_congr_right fun _ => ?_
  simp only [true_iff]
  constructor
  · rintro ⟨u, v, rfl, ⟨rfl, h⟩ | ⟨c, rfl, hc⟩⟩
    · rw [List.nil_append]
      rcases h with rfl | rfl
      · intro d hd; simp at hd
      · intro d hd
        simp only [List.head?_cons, Option.some.injEq] at hd
        subst hd
        exact .inr (by decide)
    · intro d hd
      simp only [List.singleton_append, List.head?_cons, Option.some.injEq] at hd
      subst hd
      exact collabEnd_mem.1 hc
  · intro h
    cases post with
    | nil => exact ⟨[], [], rfl, .inl ⟨rfl, .inl rfl⟩⟩
    | cons c post => exact ⟨[c], post, rfl, .inr ⟨c, rfl, collabEnd_mem.2 (h c rfl)⟩⟩

theorem open_mem {c : Char} : CSet.mem ⟨false, false, [.ch '(', .ch '"', .ch '[', .space]⟩ c = true ↔ (c ∈ py! "(\"[" ∨ isSpace c = true) := by
  simp [CSet.mem, CItem.mem]
  grind

theorem sem_behindNonword {pre w post : Str} : Sem (.behind false [⟨false, false, [.nword]⟩]) pre w post ↔
    w = [] ∧ ∃ c p, pre = c :: p ∧ isWord c = false := by
  simp only [Sem]
  refine and_congr_right fun _ => ?_
  cases pre with
  | nil => simp [behindOk]
  | cons c p => simp [behindOk, CSet.mem, CItem.mem]

theorem sem_collabLead {pre w post : Str} : Sem collabLeadRe pre w post ↔ CollabLead pre.reverse w := by
  constructor
  · rintro ⟨o, w', rfl, ho, s, t, rfl, hs, ht⟩
    refine ⟨o, s, t, by simp, ?_, sem_spaces.1 hs, ?_⟩
    · rw [List.reverse_reverse]
      rcases ho with ⟨rfl, rfl⟩ | ⟨c, rfl, hc⟩ | h
      · exact .inl ⟨rfl, fun c hc => by simp at hc⟩
      · exact .inr ⟨c, rfl, open_mem.1 hc⟩
      · obtain ⟨rfl, c, p, rfl, hc⟩ := sem_behindNonword.1 h
        exact .inl ⟨rfl, fun d hd => by simp at hd; subst hd; simp [hc]⟩
    · rcases sem_opt.1 ht with ⟨a, k, rfl, ha, hk⟩ | rfl
      · right
        rw [Re.space, sem_plus_set] at hk
        refine ⟨a, k, rfl, ?_, hk.1, fun c hc => by rw [← spaceSet_mem]; exact hk.2 c hc⟩
        rcases ha with ha | ha
        · exact .inl (sem_strI.1 ha)
        · exact .inr (sem_strI.1 ha)
      · exact .inl rfl
  · rintro ⟨o, s, t, rfl, ho, hs, ht⟩
    rw [List.append_assoc]
    rw [List.reverse_reverse] at ho
    refine sem_seq_intro ?_ (sem_seq_intro (sem_spaces.2 hs) ?_)
    · rcases ho with ⟨rfl, h⟩ | ⟨c, rfl, hc⟩
      · cases pre with
        | nil => exact .inl ⟨rfl, rfl⟩
        | cons c p => exact .inr (.inr (sem_behindNonword.2 ⟨rfl, c, p, rfl, by simpa using h c rfl⟩))
      · exact .inr (.inl ⟨c, rfl, open_mem.2 hc⟩)
    · rcases ht with rfl | ⟨a, k, rfl, ha, hne, hk⟩
      · exact .inr rfl
      · refine .inl (sem_seq_intro ?_ ?_)
        · rcases ha with ha | ha
          · exact .inl (sem_strI.2 ha)
          · exact .inr (sem_strI.2 ha)
        · rw [Re.space, sem_plus_set]
          exact ⟨hne, fun c hc => by rw [spaceSet_mem]; exact hk c hc⟩

/-- `aborations?|\.` -/
def collabRestRe : Re := Re.alts [(Re.strI (py! "aboration")) ⬝ (Re.opt (Re.chI 's')), Re.ch '.']

/-- What may follow `coll`. -/
def CollabRest (y : Str) : Prop := y = [] ∨ y = ['.'] ∨ FoldsTo y (py! "aboration") ∨ FoldsTo y (py! "aborations")

omit [UnicodeDB] in
theorem prefix_same {a a' r r' : Str} (e : a ++ r = a' ++ r') (h : a.length = a'.length) : a = a' ∧ r = r' :=
  List.append_inj e h

theorem collabRest_sem {y : Str} (h : CollabRest y) (hne : y ≠ []) {pre post : Str} : Sem collabRestRe pre y post := by
  rcases h with h | rfl | h | h
  · exact absurd h hne
  · exact .inr ⟨'.', rfl, by simp [CSet.mem, CItem.mem]⟩
  · refine .inl ⟨y, [], by simp, sem_strI.2 h, .inr rfl⟩
  · obtain ⟨a, b, rfl, h1, h2⟩ := foldsTo_split (v := py! "aboration") (w := py! "s") h
    refine .inl ⟨a, b, rfl, sem_strI.2 h1, .inl ?_⟩
    cases h2 with
    | @cons c _ x _ hc h2 => cases h2; exact sem_chI.2 ⟨c, rfl, hc⟩

theorem collabRest_length {y : Str} (h : CollabRest y) : y.length ≤ 10 := by
  rcases h with rfl | rfl | h | h
  · simp
  · simp
  · rw [foldsTo_length h]; decide
  · rw [foldsTo_length h]; decide

theorem first_collabEnd {s t : St} (h : First collabEndRe s t) : t.post = s.post ∧ CollabEnd t.post ∧ ∀ g, t.cap g = s.cap g := by
  obtain ⟨w, hw⟩ := h.step
  obtain ⟨rfl, he⟩ := sem_collabEnd.1 hw.sem
  exact ⟨by simpa using hw.post.symm, he, fun g => hw.cap g (by simp [collabEndRe, Re.groups, Re.alts])⟩

theorem first_collabRest {s t : St} (h : First (Re.opt collabRestRe ⬝ collabEndRe) s t) :
    ∃ y, s.post = y ++ t.post ∧ CollabRest y ∧ CollabEnd t.post ∧
      ∀ y' r', s.post = y' ++ r' → CollabRest y' → CollabEnd r' → y'.length ≤ y.length := by
  rcases first_opt_seq h with h | ⟨hn, h⟩
  · rcases first_alt_seq (a := (Re.strI (py! "aboration")) ⬝ (Re.opt (Re.chI 's'))) (b := Re.ch '.') h with h | ⟨hn, h⟩
    · rw [first_assoc] at h
      obtain ⟨u, a, ha, h⟩ := first_seq h
      have haf := sem_strI.1 ha.sem
      rcases first_opt_seq h with h | ⟨hn, h⟩
      · obtain ⟨v, b, hb, h⟩ := first_seq h
        obtain ⟨e, he, -⟩ := first_collabEnd h
        obtain ⟨c, rfl, hc⟩ := sem_chI.1 hb.sem
        have hf : FoldsTo (a ++ [c]) (py! "aborations") := foldsTo_append haf (.cons hc .nil)
        refine ⟨a ++ [c], ?_, .inr (.inr (.inr hf)), he, fun y' r' _ hy' _ => ?_⟩
        · rw [ha.post, hb.post, e]; simp
        · rw [foldsTo_length hf]; exact collabRest_length hy'
      · obtain ⟨e, he, -⟩ := first_collabEnd h
        refine ⟨a, by rw [ha.post, e], .inr (.inr (.inl haf)), he, fun y' r' e' hy' he' => ?_⟩
        rw [show a.length = 9 from foldsTo_length haf]
        rcases hy' with rfl | rfl | hy' | hy'
        · simp
        · simp
        · rw [foldsTo_length hy']; decide
        · exfalso
          obtain ⟨x, z, rfl, h1, h2⟩ := foldsTo_split (v := py! "aboration") (w := py! "s") hy'
          rw [ha.post, List.append_assoc] at e'
          obtain ⟨rfl, e2⟩ := prefix_same e' (by rw [foldsTo_length h1]; exact foldsTo_length haf)
          refine run_nil hn ⟨z, r', e2, ?_⟩
          cases h2 with
          | @cons c _ x' _ hc h2 =>
            cases h2
            exact ⟨[c], [], rfl, sem_chI.2 ⟨c, rfl, hc⟩, sem_collabEnd.2 ⟨rfl, he'⟩⟩
    · obtain ⟨u, a, ha, h⟩ := first_seq h
      obtain ⟨e, he, -⟩ := first_collabEnd h
      obtain ⟨c, rfl, hc⟩ := ha.sem
      have hcd : c = '.' := by simpa [CSet.mem, CItem.mem] using hc
      subst hcd
      refine ⟨['.'], by rw [ha.post, e], .inr (.inl rfl), he, fun y' r' e' hy' he' => ?_⟩
      rw [ha.post] at e'
      have key : ∀ z, FoldsTo y' ('a' :: z) → False := by
        intro z hz
        cases hz with
        | @cons c _ x _ hc _ =>
          simp only [List.cons_append, List.cons.injEq] at e'
          obtain ⟨rfl, -⟩ := e'
          rcases caseVariants_ascii (by decide) (by decide) hc with h | h <;> exact absurd h (by decide)
      rcases hy' with rfl | rfl | hy' | hy'
      · simp
      · simp
      · exact (key _ hy').elim
      · exact (key _ hy').elim
  · obtain ⟨e, he, -⟩ := first_collabEnd h
    refine ⟨[], by rw [e]; rfl, .inl rfl, he, fun y' r' e' hy' he' => ?_⟩
    by_cases hy : y' = []
    · rw [hy]; simp
    · exfalso
      refine run_nil hn ⟨y', r', e', y', [], by simp, collabRest_sem hy' hy, sem_collabEnd.2 ⟨rfl, he'⟩⟩

theorem collabWord_iff {x : Str} : CollabWord x ↔ ∃ a y, x = a ++ y ∧ FoldsTo a (py! "coll") ∧ CollabRest y := by
  have dot : ∀ {y : Str}, FoldsTo y (py! ".") ↔ y = ['.'] := by
    intro y
    constructor
    · exact fun h => foldsTo_plain (by decide) h
    · rintro rfl; exact foldsTo_self _
  constructor
  · rintro (h | h | h | h)
    · exact ⟨x, [], by simp, h, .inl rfl⟩
    · obtain ⟨a, y, rfl, h1, h2⟩ := foldsTo_split (v := py! "coll") (w := py! ".") h
      exact ⟨a, y, rfl, h1, .inr (.inl (dot.1 h2))⟩
    · obtain ⟨a, y, rfl, h1, h2⟩ := foldsTo_split (v := py! "coll") (w := py! "aboration") h
      exact ⟨a, y, rfl, h1, .inr (.inr (.inl h2))⟩
    · obtain ⟨a, y, rfl, h1, h2⟩ := foldsTo_split (v := py! "coll") (w := py! "aborations") h
      exact ⟨a, y, rfl, h1, .inr (.inr (.inr h2))⟩
  · rintro ⟨a, y, rfl, h1, rfl | rfl | h | h⟩
    · exact .inl (by simpa using h1)
    · exact .inr (.inl (foldsTo_append h1 (dot.2 rfl)))
    · exact .inr (.inr (.inl (foldsTo_append h1 h)))
    · exact .inr (.inr (.inr (foldsTo_append h1 h)))

theorem coll_notSpace {a : Str} (h : FoldsTo a (py! "coll")) (r : Str) : NotFirst (fun c => isSpace c = true) (a ++ r) := by
  cases h with
  | @cons c _ x _ hc _ =>
    intro d hd
    simp only [List.cons_append, List.head?_cons, Option.some.injEq] at hd
    subst hd
    rcases caseVariants_ascii (by decide) (by decide) hc with rfl | rfl <;> decide

theorem nameText_length {name g : Str} (h : NameText name g) : g.length = name.length := by
  unfold NameText at h
  induction h with
  | nil => rfl
  | cons _ _ ih => simp [ih]

/-- The part of the pattern that is reported. -/
def collabBodyRe (name : Str) (coll : Bool) : Re := nameRe name ⬝ if coll then Re.space ⬝ collabWordRe else .eps

theorem sem_collabBody {name : Str} {coll : Bool} {g : Str} (h : CollabReading name coll g) {pre post : Str} :
    Sem (collabBodyRe name coll) pre g post := by
  unfold CollabReading at h
  unfold collabBodyRe
  cases coll with
  | false =>
    simp only [Bool.false_eq_true, if_false] at h ⊢
    exact ⟨g, [], by simp, sem_nameRe.2 h, rfl⟩
  | true =>
    simp only [if_true] at h ⊢
    obtain ⟨n, c, t, rfl, hn, hc, ht⟩ := h
    refine ⟨n, c :: t, rfl, sem_nameRe.2 hn, [c], t, rfl, sem_space1.2 ⟨c, rfl, hc⟩, ?_⟩
    rcases ht with rfl | ⟨k, x, rfl, hk, hx⟩
    · exact .inr rfl
    · obtain ⟨a, y, rfl, ha, hy⟩ := collabWord_iff.1 hx
      refine .inl ⟨k, a ++ y, rfl, sem_spaces.2 hk, a, y, rfl, sem_strI.2 ha, ?_⟩
      by_cases hne : y = []
      · exact .inr hne
      · exact .inl (collabRest_sem hy hne)

theorem first_collab {name : Str} {coll : Bool} {s t : St} (h : First (.group 1 (collabBodyRe name coll) ⬝ collabEndRe) s t) :
    ∃ g, s.post = g ++ t.post ∧ t.cap 1 = some g ∧ CollabReading name coll g ∧ CollabEnd t.post ∧
      ∀ g' r', g ++ t.post = g' ++ r' → CollabReading name coll g' → CollabEnd r' → g'.length ≤ g.length := by
  obtain ⟨u, v, w, t', hw, -, h2, h3, h4, h5, h6⟩ := first_group_then h
  obtain ⟨e1, he, hc⟩ := first_collabEnd h4
  obtain ⟨e2, -, -⟩ := first_collabEnd h6
  have hpost : t.post = u.post := by rw [e1, h2]
  refine ⟨w, by rw [hpost]; exact hw.post, by rw [hc]; exact h3, ?_⟩
  rw [← hpost] at e2
  have hws := hw.post
  rw [← hpost] at hws
  clear h h4 h6 h3 h2 hc
  rw [← hws]
  cases coll with
  | false =>
    have hn : NameText name w := by
      obtain ⟨a, b, rfl, h1, h2⟩ := hw.sem
      have : b = [] := h2
      subst this
      rw [List.append_nil]
      exact sem_nameRe.1 h1
    refine ⟨by simpa [CollabReading] using hn, he, fun g' r' _ hg' _ => ?_⟩
    have hg : NameText name g' := by simpa [CollabReading] using hg'
    rw [nameText_length hg, nameText_length hn]
    exact Nat.le_refl _
  | true =>
    simp only [collabBodyRe, if_true] at h5
    rw [first_assoc] at h5
    obtain ⟨u1, n, hn, h5⟩ := first_seq h5
    rw [first_assoc] at h5
    obtain ⟨u2, c, hcs, h5⟩ := first_seq h5
    have hn' := sem_nameRe.1 hn.sem
    obtain ⟨c, rfl, hsp⟩ := sem_space1.1 hcs.sem
    have e3 : s.post = n ++ c :: u2.post := by rw [hn.post, hcs.post]; rfl
    -- what the rest of the reading is
    suffices hs : ∃ z, u2.post = z ++ t.post ∧ (z = [] ∨ ∃ k x, z = k ++ x ∧ (∀ a ∈ k, isSpace a = true) ∧ CollabWord x) ∧
        ∀ z' r', u2.post = z' ++ r' → (z' = [] ∨ ∃ k x, z' = k ++ x ∧ (∀ a ∈ k, isSpace a = true) ∧ CollabWord x) → CollabEnd r' → z'.length ≤ z.length by
      obtain ⟨z, hz, hr, hl⟩ := hs
      have hwz : w = n ++ c :: z := by
        rw [e3, hz] at hws
        have : n ++ c :: (z ++ t.post) = (n ++ c :: z) ++ t.post := by simp
        rw [this] at hws
        exact (List.append_cancel_right hws).symm
      refine ⟨?_, he, fun g' r' e' hg' he' => ?_⟩
      · simp only [CollabReading, if_true]
        exact ⟨n, c, z, hwz, hn', hsp, hr⟩
      · simp only [CollabReading, if_true] at hg'
        obtain ⟨n', c', z', rfl, hnn, hcc, hzz⟩ := hg'
        rw [e3, List.append_assoc] at e'
        obtain ⟨rfl, e4⟩ := prefix_same e' (by rw [nameText_length hnn]; exact nameText_length hn')
        simp only [List.cons_append, List.cons.injEq] at e4
        have := hl z' r' e4.2 hzz he'
        rw [hwz]
        simp only [List.length_append, List.length_cons]
        omega
    rw [← e2]
    rcases first_opt_seq h5 with h | ⟨hnil, h⟩
    · rw [first_assoc, Re.space] at h
      obtain ⟨u3, k, hk, h, -⟩ := first_star_seq h
      rw [first_assoc] at h
      obtain ⟨u4, a, ha, h⟩ := first_seq h
      obtain ⟨y, hy, hr, -, hl⟩ := first_collabRest h
      have haf := sem_strI.1 ha.sem
      have hks : ∀ c ∈ k, isSpace c = true := fun c hc => by rw [← spaceSet_mem]; exact sem_star_set.1 hk.sem c hc
      refine ⟨k ++ (a ++ y), ?_, .inr ⟨k, a ++ y, rfl, hks, collabWord_iff.2 ⟨a, y, rfl, haf, hr⟩⟩, fun z' r' e' hz' he' => ?_⟩
      · rw [hk.post, ha.post, hy]; simp
      · rcases hz' with rfl | ⟨k', x', rfl, hk', hx'⟩
        · simp
        · obtain ⟨a', y', rfl, ha', hy'⟩ := collabWord_iff.1 hx'
          rw [hk.post, ha.post] at e'
          have e5 : k ++ (a ++ u4.post) = k' ++ (a' ++ (y' ++ r')) := by rw [e']; simp
          obtain ⟨rfl, e6⟩ := span_unique e5 hks hk' (coll_notSpace haf _) (coll_notSpace ha' _)
          obtain ⟨rfl, e7⟩ := prefix_same e6 (by rw [foldsTo_length ha']; exact foldsTo_length haf)
          have := hl y' r' e7 hy' he'
          simp only [List.length_append]
          omega
    · obtain ⟨e7, -, -⟩ := first_collabEnd h
      refine ⟨[], by rw [e7]; rfl, .inl rfl, fun z' r' e' hz' he' => ?_⟩
      rcases hz' with rfl | ⟨k', x', rfl, hk', hx'⟩
      · simp
      · exfalso
        obtain ⟨a', y', rfl, ha', hy'⟩ := collabWord_iff.1 hx'
        refine run_nil hnil ⟨k' ++ (a' ++ y'), r', e', k' ++ (a' ++ y'), [], by simp, ?_, sem_collabEnd.2 ⟨rfl, he'⟩⟩
        refine ⟨k', a' ++ y', rfl, sem_spaces.2 hk', a', y', rfl, sem_strI.2 ha', ?_⟩
        by_cases hne : y' = []
        · exact .inr hne
        · exact .inl (collabRest_sem hy' hne)

end Py
