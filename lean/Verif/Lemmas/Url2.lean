import Verif.Lemmas.Url
import Verif.Lemmas.Spaces

/-!
# Tagging URLs
-/

open Spec

namespace Py

theorem lt_word [UnicodeDB] : isWord '<' = false := rfl

theorem lt_path [UnicodeDB] : ¬ PathChar '<' := by
  rintro (h | h)
  · rw [lt_word] at h; cases h
  · exact absurd h (by decide)

theorem lt_folds [UnicodeDB] {x y : Str} (h : FoldsTo x y) (hy : '<' ∉ y) : '<' ∉ x := by
  induction h with
  | nil => simp
  | @cons a b as bs h _ ih =>
    simp only [List.mem_cons, not_or] at hy ⊢
    refine ⟨?_, ih hy.2⟩
    rintro rfl
    have h' : b = '<' ∨ b = swapCase '<' := by simpa [caseVariants, isAscii] using h
    rcases h' with rfl | rfl
    · exact hy.1 rfl
    · exact hy.1 (by decide)

theorem raw_no_lt [UnicodeDB] {w u : Str} (h : RawUrl w u) : '<' ∉ w := by
  obtain ⟨q, full, q', rfl, hq, hq', ⟨sch, host, port, segs, sl, rfl, ⟨y, hy, hf⟩, h1, h2, h3, h4, h5⟩, -⟩ := h
  have hqu : ∀ {q : Str}, (q = [] ∨ q = ['\''] ∨ q = ['"']) → '<' ∉ q := by
    rintro q (rfl | rfl | rfl) <;> decide
  have e1 : '<' ∉ sch := by
    refine lt_folds hf ?_
    simp only [List.mem_cons, List.not_mem_nil, or_false] at hy
    rcases hy with rfl | rfl | rfl | rfl <;> decide
  have e2 : '<' ∉ host := by
    intro h
    rcases h2 _ h with h | h
    · rw [lt_word] at h; cases h
    · exact absurd h (by decide)
  have e3 : '<' ∉ port := by
    rcases h3 with rfl | ⟨ds, rfl, -, -, h8⟩
    · simp
    · intro h
      rcases List.mem_cons.1 h with h | h
      · cases h
      · have := isDec_isWord (h8 _ h)
        rw [lt_word] at this; cases this
  have e4 : '<' ∉ segs.flatMap ('/' :: ·) := by
    intro h
    obtain ⟨p, hp, hc⟩ := List.mem_flatMap.1 h
    rcases List.mem_cons.1 hc with hc | hc
    · cases hc
    · exact lt_path ((h4 p hp).2 _ hc)
  have e5 : '<' ∉ sl := by
    rcases h5 with rfl | rfl <;> decide
  simp [hqu hq, hqu hq', e1, e2, e3, e4, e5]

theorem raw_ne_nil [UnicodeDB] {w u : Str} (h : RawUrl w u) : w ≠ [] := by
  obtain ⟨q, full, q', rfl, hq, hq', ⟨sch, host, port, segs, sl, rfl, hs, h1, h2, h3, h4, h5⟩, -⟩ := h
  obtain ⟨-, a, rfl⟩ := scheme_text hs
  simp

theorem anchor_head [UnicodeDB] {w u d : Str} (h : Anchor w u d) : ∃ w', w = '<' :: w' := by
  obtain ⟨t1, s1, t2, s2, s3, q, q', s4, t3, rfl, h, -⟩ := h
  cases h with
  | @cons a b as bs h _ =>
    have := caseVariants_ascii (d := '<') (by decide) (by decide) h
    rcases this with rfl | rfl
    · exact ⟨_, rfl⟩
    · have e : swapCase '<' = '<' := by decide
      rw [e]
      exact ⟨_, rfl⟩

/-! ### Cutting a line at its URLs -/

/-- What is recorded for a link. -/
def linkRec (m : Match) : Nat × Nat × Str × Str := (m.start, m.txt.length, m.tgroup G.url, m.tgroup G.desc)

/-- What is recorded for a bare URL. -/
def rawRec (m : Match) : Nat × Nat × Str × Str := (m.start, m.txt.length, trimUrl (m.tgroup G.url), trimUrl (m.tgroup G.url))

/-- `s`, from position `n` on, is cut into characters, links `hs` and bare URLs `rs`; `b` is `s` with
all of them blanked and `us` lists what is recorded from left to right. -/
inductive Cut [UnicodeDB] : Nat → Str → Str → List Match → List Match → List (Nat × Nat × Str × Str) → Prop
  | nil (n) : Cut n [] [] [] [] []
  | ch {n c s b hs rs us} : (¬ ∃ w r, c :: s = w ++ r ∧ ∃ ud, CitesUrl w ud) → Cut (n + 1) s b hs rs us →
      Cut n (c :: s) (c :: b) hs rs us
  | link {n s b hs rs us} {m : Match} : m.start = n → m.txt ≠ [] → Anchor m.txt (m.tgroup G.url) (m.tgroup G.desc) →
      Cut (n + m.txt.length) s b hs rs us →
      Cut n (m.txt ++ s) (underscores m.txt.length ++ b) (m :: hs) rs (linkRec m :: us)
  | raw {n s b hs rs us} {m : Match} : m.start = n → m.txt ≠ [] → RawUrl m.txt (trimUrl (m.tgroup G.url)) →
      Cut (n + m.txt.length) s b hs rs us →
      Cut n (m.txt ++ s) (underscores m.txt.length ++ b) hs (m :: rs) (rawRec m :: us)

/-- The output of blanking matches. -/
abbrev Piece.blank (p : Piece) : Str := p.out fun m => underscores m.txt.length

theorem blank_prefix [UnicodeDB] {pre s : Str} {ps : List Piece} (h : Scanned Rx.re_html_tagged_url pre s ps) :
    ∀ {w r : Str}, s = w ++ r → '<' ∉ w → ∃ r', ps.flatMap Piece.blank = w ++ r' := by
  induction h with
  | nil pre =>
    intro w r e _
    have : w = [] := by cases w <;> simp_all
    exact ⟨[], by simp [this]⟩
  | @ch pre c t ps _ _ ih =>
    intro w r e hw
    cases w with
    | nil => exact ⟨_, rfl⟩
    | cons d w =>
      simp only [List.cons_append, List.cons.injEq] at e
      obtain ⟨rfl, e⟩ := e
      obtain ⟨r', hr⟩ := ih e (by simp at hw; exact hw.2)
      exact ⟨r', by simp [Piece.blank, Piece.out] at hr ⊢; exact hr⟩
  | @hit pre t ps m hm _ _ ih =>
    intro w r e hw
    cases w with
    | nil => exact ⟨_, rfl⟩
    | cons d w =>
      obtain ⟨w', hw'⟩ := anchor_head (match_html hm)
      rw [hw'] at e
      simp only [List.cons_append, List.cons.injEq] at e
      exact absurd (e.1 ▸ List.mem_cons_self) hw

theorem scanned_raw_under [UnicodeDB] (n : Nat) {pre t : Str} {ps : List Piece}
    (h : Scanned Rx.re_raw_url pre (underscores n ++ t) ps) :
    ∃ ps', ps = (List.replicate n '_').map Piece.ch ++ ps' ∧ Scanned Rx.re_raw_url (List.replicate n '_' ++ pre) t ps' := by
  induction n generalizing pre ps with
  | zero => exact ⟨ps, rfl, h⟩
  | succ n ih =>
    have e : underscores (n + 1) ++ t = '_' :: (underscores n ++ t) := rfl
    rw [e] at h
    generalize hq : '_' :: (underscores n ++ t) = q at h
    cases h with
    | nil => cases hq
    | ch _ h =>
      cases hq
      obtain ⟨ps', rfl, h'⟩ := ih h
      refine ⟨ps', rfl, ?_⟩
      rw [List.replicate_succ', List.append_assoc]; exact h'
    | @hit _ _ _ m hm hne h =>
      exfalso
      obtain ⟨c, w, hw⟩ := List.exists_cons_of_ne_nil hne
      rw [hw] at hq
      simp only [List.cons_append, List.cons.injEq] at hq
      rw [← hq.1] at hw
      obtain ⟨x', c', e, -⟩ := raw_under (x := []) (match_raw hm) hw
      cases x' <;> cases e

/-- A bare URL of the blanked line does not reach into a link. -/
theorem raw_within [UnicodeDB] {w u : Str} (hw : RawUrl w u) {line a : Str} (hl : LinksApart line) :
    ∀ (y x pre s r : Str) (ps : List Piece), w = x ++ y → Scanned Rx.re_html_tagged_url pre s ps → line = a ++ x ++ s →
      ps.flatMap Piece.blank = y ++ r →
      ∃ s' ps', s = y ++ s' ∧ ps = y.map Piece.ch ++ ps' ∧ Scanned Rx.re_html_tagged_url (y.reverse ++ pre) s' ps' ∧
        ps'.flatMap Piece.blank = r := by
  intro y
  induction y with
  | nil => intro x pre s r ps _ h _ e; exact ⟨s, ps, rfl, rfl, h, e⟩
  | cons c y ih =>
    intro x pre s r ps e h hline hb
    cases h with
    | nil => cases hb
    | @ch _ c' t ps' hn h =>
      simp only [List.flatMap_cons, Piece.blank, Piece.out, List.cons_append, List.nil_append, List.cons.injEq] at hb
      obtain ⟨rfl, hb⟩ := hb
      obtain ⟨s', ps'', rfl, rfl, h1, h2⟩ := ih (x ++ [c']) (c' :: pre) t r ps' (by simp [e]) h (by simp [hline]) hb
      exact ⟨s', ps'', rfl, rfl, by simpa using h1, h2⟩
    | @hit _ t ps' m hm hne h =>
      exfalso
      have hc : c = '_' := by
        obtain ⟨d, v, hv⟩ := List.exists_cons_of_ne_nil hne
        simp only [List.flatMap_cons, Piece.blank, Piece.out, hv, List.length_cons] at hb
        have : underscores (v.length + 1) = '_' :: underscores v.length := rfl
        rw [this] at hb
        simp only [List.cons_append, List.cons.injEq] at hb
        exact hb.1.symm
      subst hc
      obtain ⟨x', d, rfl, hd⟩ := raw_under hw e
      have := hl (a ++ x') d m.txt t _ _ (by simp [hline]) (match_html hm)
      rcases hd with hd | hd
      · exact this.1 hd
      · exact this.2 hd

theorem filterMap_ch (y : Str) (ps : List Piece) : (y.map Piece.ch ++ ps).filterMap Piece.match? = ps.filterMap Piece.match? := by
  induction y with
  | nil => rfl
  | cons c y ih => simp [List.filterMap_cons, Piece.match?]

theorem flatMap_ch (f : Match → Str) (y : Str) (ps : List Piece) :
    (y.map Piece.ch ++ ps).flatMap (Piece.out f) = y ++ ps.flatMap (Piece.out f) := by
  induction y with
  | nil => rfl
  | cons c y ih => simpa [Piece.out] using ih

theorem cut_exists [UnicodeDB] {line : Str} (hl : LinksApart line) :
    ∀ (k : Nat) (a s pre pre' : Str) (ps ps' : List Piece), s.length = k → line = a ++ s → pre.length = pre'.length →
      Scanned Rx.re_html_tagged_url pre s ps → Scanned Rx.re_raw_url pre' (ps.flatMap Piece.blank) ps' →
      ∃ us, Cut pre.length s (ps'.flatMap Piece.blank) (ps.filterMap Piece.match?) (ps'.filterMap Piece.match?) us := by
  intro k
  induction k using Nat.strongRecOn with
  | ind k ih =>
    intro a s pre pre' ps ps' hk hline hp h h'
    cases h with
    | nil =>
      have e : ps' = [] := by
        generalize hq : ([] : List Piece).flatMap Piece.blank = q at h'
        cases h' with
        | nil => rfl
        | ch => cases hq
        | @hit _ t _ m hm hne => exact absurd (List.append_eq_nil_iff.1 hq.symm).1 hne
      subst e
      exact ⟨[], .nil _⟩
    | @ch _ c t ps hn h =>
      simp only [List.flatMap_cons, Piece.blank, Piece.out, List.cons_append, List.nil_append] at h'
      generalize hq : c :: ps.flatMap Piece.blank = q at h'
      cases h' with
      | nil => cases hq
      | @ch _ c' t' ps' hn' h' =>
        simp only [List.cons.injEq] at hq
        obtain ⟨rfl, rfl⟩ := hq
        obtain ⟨us, hc⟩ := ih t.length (by rw [← hk]; simp) (a ++ [c]) t (c :: pre) (c :: pre') ps ps' rfl (by simp [hline])
          (by simp [hp]) h h'
        refine ⟨us, .ch ?_ hc⟩
        rintro ⟨w, r, e, ud, hw | ⟨hw, -⟩⟩
        · exact (matchHere_none _ _ _).1 hn ⟨w, r, e, sem_html.2 ⟨_, _, hw⟩⟩
        · obtain ⟨r', hr'⟩ := blank_prefix (.ch hn h) e (raw_no_lt hw)
          simp only [List.flatMap_cons, Piece.blank, Piece.out, List.cons_append, List.nil_append] at hr'
          exact (matchHere_none _ _ _).1 hn' ⟨w, r', hr', sem_raw.2 ⟨_, hw⟩⟩
      | @hit _ t' ps' m hm hne h' =>
        obtain ⟨s', ps1, e1, e2, h1, h2⟩ := raw_within (a := a) (match_raw hm) hl m.txt [] pre (c :: t) t' (.ch c :: ps) rfl (.ch hn h)
          (by simp [hline]) (by simpa [Piece.blank, Piece.out] using hq)
        have hlt : s'.length < k := by
          rw [← hk, e1]
          have := List.length_pos_iff.2 hne
          simp; omega
        subst h2
        obtain ⟨us, hc⟩ := ih s'.length hlt (a ++ m.txt) s' (m.txt.reverse ++ pre) (m.txt.reverse ++ pre') ps1 ps' rfl
          (by rw [hline, e1]; simp) (by simp [hp]) h1 h'
        refine ⟨rawRec m :: us, ?_⟩
        rw [e1, e2, filterMap_ch, List.filterMap_cons]
        refine .raw (by rw [(matchHere_ok hm).1.start, hp]) hne (match_raw hm) ?_
        have el : (m.txt.reverse ++ pre).length = pre.length + m.txt.length := by simp; omega
        rw [el] at hc
        exact hc
    | @hit _ t ps m hm hne h =>
      simp only [List.flatMap_cons, Piece.blank, Piece.out] at h'
      obtain ⟨ps1, rfl, h2⟩ := scanned_raw_under _ h'
      have hlt : t.length < k := by
        rw [← hk]
        have := List.length_pos_iff.2 hne
        simp; omega
      obtain ⟨us, hc⟩ := ih t.length hlt (a ++ m.txt) t (m.txt.reverse ++ pre) (List.replicate m.txt.length '_' ++ pre') ps ps1 rfl
        (by rw [hline]; simp) (by simp [hp]) h h2
      refine ⟨linkRec m :: us, ?_⟩
      rw [filterMap_ch, List.filterMap_cons, flatMap_ch]
      refine .link ((matchHere_ok hm).1.start) hne (match_html hm) ?_
      have el : (m.txt.reverse ++ pre).length = pre.length + m.txt.length := by simp; omega
      rw [el] at hc
      exact hc

/-! ### What follows from a cut -/

theorem cut_ge [UnicodeDB] {n : Nat} {s b : Str} {hs rs : List Match} {us : List (Nat × Nat × Str × Str)} (h : Cut n s b hs rs us) :
    (∀ p ∈ us, n ≤ p.1) ∧ us.Pairwise (fun p q => p.1 < q.1) := by
  induction h with
  | nil => exact ⟨by simp, .nil⟩
  | ch _ _ ih => exact ⟨fun p hp => by have := ih.1 p hp; omega, ih.2⟩
  | @link n s b hs rs us m hm hne _ _ ih =>
    have hpos := List.length_pos_iff.2 hne
    refine ⟨fun p hp => ?_, .cons (fun p hp => ?_) ih.2⟩
    · rcases List.mem_cons.1 hp with rfl | hp
      · exact Nat.le_of_eq hm.symm
      · have := ih.1 p hp; omega
    · have := ih.1 p hp
      simp only [linkRec, hm]; omega
  | @raw n s b hs rs us m hm hne _ _ ih =>
    have hpos := List.length_pos_iff.2 hne
    refine ⟨fun p hp => ?_, .cons (fun p hp => ?_) ih.2⟩
    · rcases List.mem_cons.1 hp with rfl | hp
      · exact Nat.le_of_eq hm.symm
      · have := ih.1 p hp; omega
    · have := ih.1 p hp
      simp only [rawRec, hm]; omega

theorem cut_perm [UnicodeDB] {n : Nat} {s b : Str} {hs rs : List Match} {us : List (Nat × Nat × Str × Str)} (h : Cut n s b hs rs us) :
    (hs.map linkRec ++ rs.map rawRec).Perm us := by
  induction h with
  | nil => exact .refl _
  | ch _ _ ih => exact ih
  | link _ _ _ _ ih => exact ih.cons _
  | raw _ _ _ _ ih =>
    rw [List.map_cons]
    exact List.perm_middle.trans (ih.cons _)

theorem cut_tagged [UnicodeDB] {n : Nat} {s b : Str} {hs rs : List Match} {us : List (Nat × Nat × Str × Str)} (h : Cut n s b hs rs us)
    (tag p : Str) (hp : p.length = n) :
    ∃ t ws, Tagged (fun w => ∃ ud, CitesUrl w ud) tag s t ws ∧ All2 CitesUrl ws (us.map fun p => p.2.2) ∧
      us.reverse.foldl (fun l p => splice l p.1 tag (p.1 + p.2.1)) (p ++ b) = p ++ t := by
  induction h generalizing p with
  | nil => exact ⟨[], [], .nil, .nil, by simp⟩
  | @ch n c s b hs rs us hn _ ih =>
    obtain ⟨t, ws, h1, h2, h3⟩ := ih (p ++ [c]) (by simp [hp])
    exact ⟨c :: t, ws, .ch hn h1, h2, by simpa using h3⟩
  | @link n s b hs rs us m hm hne ha _ ih =>
    obtain ⟨t, ws, h1, h2, h3⟩ := ih (p ++ underscores m.txt.length) (by simp [underscores, hp])
    have hcite : CitesUrl m.txt (linkRec m).2.2 := .inl ha
    refine ⟨tag ++ t, m.txt :: ws, .hit ⟨_, hcite⟩ h1, .cons hcite h2, ?_⟩
    rw [List.reverse_cons, List.foldl_append, ← List.append_assoc, h3]
    simp only [List.foldl_cons, List.foldl_nil, linkRec, hm, ← hp]
    have := splice_here p (underscores m.txt.length) t tag
    simpa [underscores] using this
  | @raw n s b hs rs us m hm hne ha _ ih =>
    obtain ⟨t, ws, h1, h2, h3⟩ := ih (p ++ underscores m.txt.length) (by simp [underscores, hp])
    have hcite : CitesUrl m.txt (rawRec m).2.2 := .inr ⟨ha, rfl⟩
    refine ⟨tag ++ t, m.txt :: ws, .hit ⟨_, hcite⟩ h1, .cons hcite h2, ?_⟩
    rw [List.reverse_cons, List.foldl_append, ← List.append_assoc, h3]
    simp only [List.foldl_cons, List.foldl_nil, rawRec, hm, ← hp]
    have := splice_here p (underscores m.txt.length) t tag
    simpa [underscores] using this

/-! ### The loops -/

theorem dset_fresh {κ α : Type} [DecidableEq κ] {d : List (κ × α)} {k : κ} (v : α) (h : k ∉ d.map (·.1)) : dset d k v = d ++ [(k, v)] := by
  induction d with
  | nil => rfl
  | cons p d ih =>
    obtain ⟨j, w⟩ := p
    simp only [List.map_cons, List.mem_cons, not_or] at h
    rw [dset, if_neg (fun e => h.1 e.symm), ih h.2, List.cons_append]

/-- Recording matches at new positions appends them. -/
theorem record_fresh (rec : Match → Nat × Nat × Str × Str) (step : Str → Match → Str) (ms : List Match) (d : Urls) (l : Str)
    (hrec : ∀ m, (rec m).1 = m.start) (hn : (d ++ ms.map rec).Pairwise (fun p q => p.1 ≠ q.1)) :
    ms.foldl (fun st m => (dset st.1 m.start (rec m).2, step st.2 m)) (d, l) = (d ++ ms.map rec, ms.foldl step l) := by
  induction ms generalizing d l with
  | nil => simp
  | cons m ms ih =>
    have hfresh : m.start ∉ d.map (·.1) := by
      intro hmem
      obtain ⟨p, hp, e⟩ := List.mem_map.1 hmem
      have := (List.pairwise_append.1 hn).2.2 p hp (rec m) (by simp)
      rw [hrec m] at this
      exact this e
    have e : (m.start, (rec m).2) = rec m := by rw [← hrec m]
    rw [List.foldl_cons, dset_fresh _ hfresh, e, ih]
    · simp
    · simpa using hn

theorem sortBy_unique {us l : Urls} (h : l.Perm us) (hu : us.Pairwise (fun p q => p.1 < q.1)) :
    sortBy (fun a b => decide (a.1 ≤ b.1)) l = us := by
  have hs := sortBy_sorted (le := fun (a b : Nat × Nat × Str × Str) => decide (a.1 ≤ b.1))
    (fun a b => by simp only [Bool.or_eq_true, decide_eq_true_eq]; omega)
    (fun a b c h1 h2 => by simp only [decide_eq_true_eq] at *; omega) l
  have hp := (sortBy_perm (le := fun (a b : Nat × Nat × Str × Str) => decide (a.1 ≤ b.1)) l).trans h
  generalize sortBy (fun (a b : Nat × Nat × Str × Str) => decide (a.1 ≤ b.1)) l = q at hs hp
  clear h
  induction us generalizing q with
  | nil => exact hp.eq_nil
  | cons u us ih =>
    cases q with
    | nil => exact absurd hp.symm.eq_nil (by simp)
    | cons x q =>
      have hx : x = u := by
        rcases List.mem_cons.1 (hp.mem_iff.1 (List.mem_cons_self (a := x))) with h | h
        · exact h
        · have h1 := List.rel_of_pairwise_cons hu h
          rcases List.mem_cons.1 (hp.mem_iff.2 (List.mem_cons_self (a := u))) with h2 | h2
          · exact h2.symm
          · have h3 := List.rel_of_pairwise_cons hs h2
            simp only [decide_eq_true_eq] at h3
            omega
      subst hx
      rw [ih hu.of_cons q hs.of_cons (List.perm_cons _ |>.1 hp)]

theorem html_minLen : 0 < Rx.re_html_tagged_url.minLen := by decide
theorem raw_minLen : 0 < Rx.re_raw_url.minLen := by decide

theorem tagUrls_cut [UnicodeDB] {line : Str} (hl : LinksApart line) :
    ∃ ws, Tagged (fun w => ∃ ud, CitesUrl w ud) (py! "<cds.URL />") line (tagUrls line).1 ws ∧ All2 CitesUrl ws (tagUrls line).2 := by
  have h := scan_scanned' html_minLen line
  have h' := scan_scanned' raw_minLen ((scan Rx.re_html_tagged_url line).flatMap Piece.blank)
  obtain ⟨us, hc⟩ := cut_exists hl _ [] line [] [] _ _ rfl rfl rfl h h'
  obtain ⟨h1, h2⟩ := cut_ge hc
  have h3 : (((finditer Rx.re_html_tagged_url line).map linkRec) ++
      ((finditer Rx.re_raw_url ((scan Rx.re_html_tagged_url line).flatMap Piece.blank)).map rawRec)).Perm us := cut_perm hc
  have h4 : (((finditer Rx.re_html_tagged_url line).map linkRec) ++
      ((finditer Rx.re_raw_url ((scan Rx.re_html_tagged_url line).flatMap Piece.blank)).map rawRec)).Pairwise (fun p q => p.1 ≠ q.1) :=
    h3.symm.pairwise (h2.imp fun h => Nat.ne_of_lt h) (fun h => h.symm)
  have st1 : (finditer Rx.re_html_tagged_url line).foldl htmlUrlStep ([], line) =
      ((finditer Rx.re_html_tagged_url line).map linkRec, (scan Rx.re_html_tagged_url line).flatMap Piece.blank) := by
    have := record_fresh linkRec (fun l m => splice l m.start (underscores m.txt.length) m.stop) (finditer Rx.re_html_tagged_url line) [] line
      (fun _ => rfl) (by simpa using (List.pairwise_append.1 h4).1)
    refine Eq.trans this (Prod.ext rfl ?_)
    refine splice_forward (fun l m => splice l m.start (underscores m.txt.length) m.stop) (fun m => underscores m.txt.length) h ?_ [] rfl
    intro m _
    refine ⟨by simp [underscores], fun p q hp => ?_⟩
    simp only [Match.stop, ← hp]
    exact splice_here p m.txt q _
  have st2 : (finditer Rx.re_raw_url ((scan Rx.re_html_tagged_url line).flatMap Piece.blank)).foldl rawUrlStep
      ((finditer Rx.re_html_tagged_url line).map linkRec, (scan Rx.re_html_tagged_url line).flatMap Piece.blank) =
      ((finditer Rx.re_html_tagged_url line).map linkRec ++
        (finditer Rx.re_raw_url ((scan Rx.re_html_tagged_url line).flatMap Piece.blank)).map rawRec,
        (scan Rx.re_raw_url ((scan Rx.re_html_tagged_url line).flatMap Piece.blank)).flatMap Piece.blank) := by
    have := record_fresh rawRec (fun l m => splice l m.start (underscores m.txt.length) m.stop)
      (finditer Rx.re_raw_url ((scan Rx.re_html_tagged_url line).flatMap Piece.blank)) _ ((scan Rx.re_html_tagged_url line).flatMap Piece.blank)
      (fun _ => rfl) h4
    refine Eq.trans this (Prod.ext rfl ?_)
    refine splice_forward (fun l m => splice l m.start (underscores m.txt.length) m.stop) (fun m => underscores m.txt.length) h' ?_ [] rfl
    intro m _
    refine ⟨by simp [underscores], fun p q hp => ?_⟩
    simp only [Match.stop, ← hp]
    exact splice_here p m.txt q _
  obtain ⟨t, ws, e1, e2, e3⟩ := cut_tagged hc (py! "<cds.URL />") [] rfl
  refine ⟨ws, ?_⟩
  unfold tagUrls
  simp only [st1, st2]
  rw [sortBy_unique h3 h2]
  exact ⟨by rw [List.nil_append, List.nil_append] at e3; rw [e3]; exact e1, e2⟩

end Py
