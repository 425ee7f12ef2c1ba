import Verif.Lemmas.Meek3
import Verif.Lemmas.Avoid
import Verif.Lemmas.Author

/-!
# Marking authors and collaborations brings no tags for DOIs and URLs
-/

open Py Spec
open scoped List

namespace Py

variable [UnicodeDB] {uni : Str → Str} {spell : Char → Str} {w : Str}

/-- Every character stands for itself. -/
def asIs (c : Char) : Str := [c]

omit [UnicodeDB] in
theorem shape_asIs (s : Str) : shape asIs s = ink s := by
  have : s.flatMap asIs = s := by
    induction s with
    | nil => rfl
    | cons c s ih => rw [List.flatMap_cons, ih]; rfl
  rw [shape, this]

omit [UnicodeDB] in
theorem tame_asIs (s : Str) : Tame asIs s := by
  intro c _
  by_cases h : c = '<'
  · exact .inl h
  · exact .inr (by simpa [asIs] using Ne.symm h)

omit [UnicodeDB] in
theorem seal_asIs {i : Str} (h : sealB w i = true) : Seal asIs w i := by
  simp only [sealB, Bool.and_eq_true] at h
  obtain ⟨⟨h2, h3⟩, -⟩ := h
  exact ⟨by rw [shape_asIs]; exact firm_of h2, by rw [shape_asIs]; exact h3, tame_asIs i⟩

omit [UnicodeDB] in
theorem meek_ink {u v : Str} (h : ink u = ink v) : Meek asIs w u v := .same (by rw [shape_asIs, shape_asIs, h]) fun _ => tame_asIs v

/-! ### Spellings of authors -/

omit [UnicodeDB] in
theorem replace_meek {old new : Str} (hn : Seal spell w new) (s : Str) : Meek spell w s (replace s old new) := by
  have key : ∀ (s : Str) (k : Nat), Meek spell w (s.drop k) (replaceGo old new k s) := by
    intro s
    induction s with
    | nil => intro k; rw [replaceGo, List.drop_nil]; exact Meek.refl _
    | cons c s ih =>
      intro k
      cases k with
      | succ k => rw [replaceGo]; exact ih k
      | zero =>
        rw [replaceGo, List.drop_zero]
        split
        · have := (hn.meek (c :: s.take (old.length - 1))).append (ih (old.length - 1))
          rwa [List.cons_append, List.take_append_drop] at this
        · exact (Meek.refl [c]).append (ih 0)
  exact key s 0

omit [UnicodeDB] in
theorem replaces_meek {kb : List (Str × Str)} (hk : ∀ p ∈ kb, Seal spell w p.2) : ∀ s : Str, Meek spell w s (kb.foldl (fun l p => replace l p.1 p.2) s) := by
  induction kb with
  | nil => intro s; exact Meek.refl _
  | cons p kb ih =>
    intro s
    rw [List.foldl_cons]
    exact (replace_meek (hk p (by simp)) s).trans (ih (fun q hq => hk q (by simp [hq])) _)

/-! ### Marking authors -/

omit [UnicodeDB] in
theorem authPositions_mem {line : Str} {from_ : Nat} {ms : List Match} {a : AuthPos} (h : a ∈ authPositions line from_ ms) :
    ∃ m ∈ ms, a.start = m.start ∧ a.stop = m.stop ∧ a.names = m.group G.author_names := by
  induction ms generalizing from_ with
  | nil => cases h
  | cons m ms ih =>
    rw [authPositions] at h
    split at h
    · obtain ⟨m', h1, h2⟩ := ih h
      exact ⟨m', by simp [h1], h2⟩
    · rcases List.mem_cons.1 h with rfl | h
      · exact ⟨m, by simp, rfl, rfl, rfl⟩
      · obtain ⟨m', h1, h2⟩ := ih h
        exact ⟨m', by simp [h1], h2⟩

/-- The texts that are checked. -/
def authTags : List Str :=
  [py! "(ed.)", py! "et al.", py! "<cds.AUTHetal>", py! "</cds.AUTHetal>", py! "</cds.AUTHetal>;", py! "<cds.AUTHstnd>", py! "</cds.AUTHstnd>",
   py! "</cds.AUTHstnd>;", py! "<cds.AUTHincl>", py! " (eds.)</cds.AUTHincl>", py! " (eds.)</cds.AUTHincl>;", py! "<cds.COLLABORATION>", py! "</cds.COLLABORATION>"]

omit [UnicodeDB] in
theorem seal_auth (hw : CountedTag w) {i : Str} (h : i ∈ authTags) : Seal asIs w i := by
  refine seal_asIs ?_
  rcases hw with rfl | rfl
  · have : ∀ i ∈ authTags, sealB (py! "cds.DOI") i = true := by decide
    exact this i h
  · have : ∀ i ∈ authTags, sealB (py! "cds.URL") i = true := by decide
    exact this i h

omit [UnicodeDB] in
theorem semiAfter_cases (o : Option Char) : semiAfter o = [] ∨ semiAfter o = [';'] := by
  cases o with
  | none => exact .inl rfl
  | some c =>
    show (if _ then _ else _) = _ ∨ (if _ then _ else _) = _
    split
    · exact .inr rfl
    · exact .inl rfl

theorem authText_meek (hw : CountedTag w) (s : Str) : ∃ t p q, Meek asIs w s t ∧ t = p ++ authText s ++ q := by
  have st : ∀ {i : Str}, i ∈ authTags → Seal asIs w i := fun h => seal_auth hw h
  refine ⟨sub Rx.re_etal (fun _ => py! "et al.") (sub Rx.re_ed_notation (fun _ => py! "(ed.)") s), ?_⟩
  have h1 : Meek asIs w s (sub Rx.re_etal (fun _ => py! "et al.") (sub Rx.re_ed_notation (fun _ => py! "(ed.)") s)) :=
    (sub_meek fun m _ => (st (by decide)).meek _).trans (sub_meek fun m _ => (st (by decide)).meek _)
  unfold authText
  dsimp only
  generalize sub Rx.re_etal (fun _ => py! "et al.") (sub Rx.re_ed_notation (fun _ => py! "(ed.)") s) = t at h1
  obtain ⟨a, e1, -⟩ := lstripP_split (inSet ['.']) t
  obtain ⟨b, c, e2, -⟩ := stripP_split (inSet (py! ",:;- [](")) (lstripP (inSet ['.']) t)
  split
  · exact ⟨a ++ b, c, h1, by rw [List.append_assoc, List.append_assoc, ← List.append_assoc b, ← e2, ← e1]⟩
  · obtain ⟨d, f, e3, -⟩ := stripP_split (inSet [')']) (stripP (inSet (py! ",:;- [](")) (lstripP (inSet ['.']) t))
    refine ⟨a ++ b ++ d, f ++ c, h1, ?_⟩
    have : a ++ (b ++ (d ++ stripP (inSet [')']) (stripP (inSet (py! ",:;- [](")) (lstripP (inSet ['.']) t)) ++ f) ++ c) = t := by
      rw [← e3, ← e2, ← e1]
    refine this.symm.trans ?_
    simp only [List.append_assoc]

omit [UnicodeDB] in
theorem splice_meek {out x : Str} {a b : Nat} (h : a ≤ b) (hx : Meek spell w (slice out a b) x) : Meek spell w out (splice out a x b) := by
  have e : out = out.take a ++ slice out a b ++ out.drop b := by
    have h1 : out.take a ++ slice out a b = out.take b := by
      have := List.take_append_drop a (out.take b)
      rwa [List.take_take, Nat.min_eq_left h] at this
    rw [h1, List.take_append_drop]
  have := ((Meek.refl (out.take a)).append hx).append (Meek.refl (spell := spell) (w := w) (out.drop b))
  rw [← e] at this
  exact this

omit [UnicodeDB] in
theorem occurs_zero {w x : Str} (hw : w ≠ []) (h : ¬ w <:+: x) : occurs w x = 0 := by
  induction x with
  | nil =>
    cases w with
    | nil => exact absurd rfl hw
    | cons c w => rfl
  | cons c x ih =>
    rw [List.infix_cons_iff, not_or] at h
    rw [occurs, if_neg h.1, ih h.2]

omit [UnicodeDB] in
/-- Text without the tag, between seals. -/
theorem meek_between {i j x : Str} (hi : Seal asIs w i) (hj : Seal asIs w j) (hx : occurs ('<' :: w) (ink x) = 0) (u : Str) :
    Meek asIs w u (i ++ x ++ j) := by
  refine fun _ => ⟨tame_asIs _, fun a b => ?_⟩
  have e : a ++ shape asIs (i ++ x ++ j) ++ b = a ++ shape asIs i ++ (ink x ++ shape asIs j ++ b) := by
    rw [shape_append, shape_append, shape_asIs x]
    simp only [List.append_assoc]
  rw [e, hi.count, hj.count, hx]
  have h1 := occurs_super ('<' :: w) (a ++ shape asIs u) b
  have h2 := occurs_super ('<' :: w) a (shape asIs u)
  omega

theorem authStart_le' (a : AuthPos) : (authStart a).2 ≤ a.start := by
  unfold authStart
  dsimp only
  split
  · exact Nat.le_refl _
  · split
    · split
      · split
        · exact Nat.le_refl _
        · exact Nat.sub_le _ _
      · exact Nat.le_refl _
    · exact Nat.le_refl _

theorem tagAuthor_meek (hw : CountedTag w) {a : AuthPos} (ha : a.start ≤ a.stop) {n : Str} (hn : a.names = some n) (hx : ¬ ('<' :: w) <:+: ink n) (out : Str) :
    ∃ t, tagAuthor out a = .ok t ∧ Meek asIs w out t := by
  have st : ∀ {i : Str}, i ∈ authTags → Seal asIs w i := fun h => seal_auth hw h
  have hle : (authStart a).2 ≤ a.stop := Nat.le_trans (authStart_le' a) ha
  obtain ⟨t, p, q, h1, h2⟩ := authText_meek hw (slice out (authStart a).2 a.stop)
  have misc : ∀ {j : Str}, j ∈ authTags → j ++ [';'] ∈ authTags → Seal asIs w (j ++ semiAfter out[a.stop]?) := by
    intro j h1 h2
    rcases semiAfter_cases out[a.stop]? with e | e <;> rw [e]
    · rw [List.append_nil]; exact st h1
    · exact st h2
  have keep : ∀ {i j : Str}, i ∈ authTags → j ∈ authTags → j ++ [';'] ∈ authTags →
      Meek asIs w out (splice out (authStart a).2 (i ++ authText (slice out (authStart a).2 a.stop) ++ j ++ semiAfter out[a.stop]?) a.stop) := by
    intro i j hi hj hj'
    refine splice_meek hle (h1.trans ?_)
    rw [List.append_assoc (i ++ _)]
    conv => lhs; rw [h2]
    exact Meek.keep (st hi) (misc hj hj')
  unfold tagAuthor
  dsimp only
  split
  · exact ⟨_, rfl, keep (by decide) (by decide) (by decide)⟩
  · split
    · exact ⟨_, rfl, keep (by decide) (by decide) (by decide)⟩
    · split
      · rw [hn]
        refine ⟨_, rfl, splice_meek hle ?_⟩
        have e0 : occurs ('<' :: w) (ink (stripP (inSet (py! ",:;- [](")) (sub Rx.re_etal (fun _ => py! "et al.") n))) = 0 := by
          have k1 : Meek asIs w n (sub Rx.re_etal (fun _ => py! "et al.") n) := sub_meek fun m _ => (st (by decide)).meek _
          have k2 := (k1 (tame_asIs n)).2 [] []
          simp only [List.nil_append, List.append_nil, shape_asIs] at k2
          rw [occurs_zero (by simp) hx] at k2
          obtain ⟨b, c, e2, -⟩ := stripP_split (inSet (py! ",:;- [](")) (sub Rx.re_etal (fun _ => py! "et al.") n)
          rw [e2, ink_append, ink_append] at k2
          have k3 := occurs_super ('<' :: w) (ink b ++ ink (stripP (inSet (py! ",:;- [](")) (sub Rx.re_etal (fun _ => py! "et al.") n))) (ink c)
          have k4 := occurs_super ('<' :: w) (ink b) (ink (stripP (inSet (py! ",:;- [](")) (sub Rx.re_etal (fun _ => py! "et al.") n)))
          omega
        have := meek_between (st (i := py! "<cds.AUTHincl>") (by decide)) (misc (j := py! " (eds.)</cds.AUTHincl>") (by decide) (by decide)) e0
          (slice out (authStart a).2 a.stop)
        simpa using this
      · exact ⟨_, rfl, Meek.refl _⟩

omit [UnicodeDB] in
theorem foldlM_meek {α : Type} {f : Str → α → Py Str} {l : List α} (hf : ∀ a ∈ l, ∀ s, ∃ t, f s a = .ok t ∧ Meek asIs w s t) (s : Str) :
    ∃ t, l.foldlM f s = .ok t ∧ Meek asIs w s t :=
  foldlM_makes (P := fun t => Meek asIs w s t) (Meek.refl s) fun b a ha hb => by
    obtain ⟨t, h1, h2⟩ := hf a ha b
    exact ⟨t, h1, hb.trans h2⟩

theorem match_le {r : Re} {s : Str} {m : Match} (_ : m ∈ finditer r s) : m.start ≤ m.stop := by
  unfold Match.stop; omega

omit [UnicodeDB] in
theorem CountedTag.ascii (hw : CountedTag w) : ('<' :: w).all isAscii = true := by
  rcases hw with rfl | rfl <;> decide

theorem authors_meek (hw : CountedTag w) (line line' out : Str) :
    ∃ t, (authPositions line 0 (finditer Rx.RE_AUTH line')).reverse.foldlM tagAuthor out = .ok t ∧ Meek asIs w out t := by
  refine foldlM_meek (fun a ha s => ?_) out
  obtain ⟨m, hm, h1, h2, h3⟩ := authPositions_mem (List.mem_reverse.1 ha)
  obtain ⟨n, hn⟩ := finditer_must1 auth_names hm
  obtain ⟨p, q, -, hok⟩ := finditer_ok hm
  refine tagAuthor_meek hw (by rw [h1, h2]; exact match_le hm) (h3.trans hn) ?_ s
  refine group_avoids hw.ascii (names_avoid _ ?_) hok hn
  rcases hw with rfl | rfl <;> simp

theorem shape_ink (S : Spelled uni spell) (s : Str) : shape spell (ink s) = shape spell s := by
  induction s with
  | nil => rfl
  | cons c s ih =>
    have e : shape spell (c :: s) = shape spell [c] ++ shape spell s := by rw [← shape_append]; rfl
    by_cases hc : isSpace c = true
    · have h1 : Spec.ink (c :: s) = Spec.ink s := by simp [Spec.ink, hc]
      rw [e, h1, ih, shape_space S (s := [c]) (by simpa using hc)]
      rfl
    · have : Spec.ink (c :: s) = [c] ++ Spec.ink s := by simp [Spec.ink, hc]
      rw [e, this, shape_append, ih]

omit [UnicodeDB] in
theorem CountedTag.black (hw : CountedTag w) : w.all (fun c => isAscii c && !isSpace c) = true := by
  rcases hw with rfl | rfl <;> decide

omit [UnicodeDB] in
theorem ink_le (s : Str) (hw : CountedTag w) : occurs ('<' :: w) s ≤ occurs ('<' :: w) (ink s) := by
  induction s with
  | nil => exact Nat.le_refl _
  | cons c s ih =>
    have hk : ∀ t r : Str, t.all (fun c => !isSpace c) = true → ink (t ++ r) = t ++ ink r := by
      intro t r ht
      rw [ink_append]
      congr 1
      simp only [Spec.ink, List.filter_eq_self]
      exact List.all_eq_true.1 ht
    have hb : ('<' :: w).all (fun c => !isSpace c) = true := by rcases hw with rfl | rfl <;> decide
    rw [occurs]
    split
    · next h =>
      obtain ⟨r, e⟩ := h
      have e' : s = w ++ r := by
        rw [List.cons_append] at e; exact (List.cons.inj e).2.symm
      rw [← e, hk _ _ hb]
      have ih' := ih
      rw [e', hk _ _ (by rw [List.all_cons, Bool.and_eq_true] at hb; exact hb.2)] at ih'
      rw [List.cons_append, occurs, if_pos (by exact ⟨ink r, rfl⟩), e']
      omega
    · by_cases hc : isSpace c = true
      · have : ink (c :: s) = ink s := by simp [Spec.ink, hc]
        rw [this]; omega
      · have : ink (c :: s) = c :: ink s := by simp [Spec.ink, hc]
        rw [this, occurs]; omega

theorem tagAuthors_count {lib : Lib} (S : Spelled lib.unidecode spell) (hw : CountedTag w) {kb : List (Str × Str)} (hk : ∀ p ∈ kb, Seal spell w p.2)
    {line : Str} (hl : Tame spell line) :
    ∃ t, tagAuthors lib line kb = .ok t ∧ occurs ('<' :: w) (ink t) ≤ occurs ('<' :: w) (shape spell line) := by
  unfold tagAuthors
  dsimp only
  have h1 := replaces_meek hk line
  generalize kb.foldl (fun l p => replace l p.1 p.2) line = D at h1
  have h2 : occurs ('<' :: w) (shape spell D) ≤ occurs ('<' :: w) (shape spell line) := h1.le hl
  have fin : ∀ {out t : Str}, occurs ('<' :: w) (ink out) ≤ occurs ('<' :: w) (shape spell D) → Meek asIs w out t →
      occurs ('<' :: w) (ink t) ≤ occurs ('<' :: w) (shape spell line) := by
    intro out t h3 h4
    have := h4.le (tame_asIs out)
    rw [shape_asIs, shape_asIs] at this
    omega
  split
  · obtain ⟨t, h3, h4⟩ := authors_meek hw (stripTags D) (stripTags (lib.unidecode D)) (lib.unidecode D)
    exact ⟨t, h3, fin (by rw [S.all]; exact Nat.le_refl _) h4⟩
  · obtain ⟨t, h3, h4⟩ := authors_meek hw (stripTags D) (stripTags D) D
    refine ⟨t, h3, fin ?_ h4⟩
    have := occurs_shape S hw.black (ink D)
    rwa [shape_ink S] at this

/-! ### Collaborations -/

theorem tagCollaborations_meek (hw : CountedTag w) {kb : List (Str × Re)}
    (hk : ∀ p ∈ kb, ∀ s, ∀ m ∈ finditer p.2 s, ∃ g, m.group 1 = some g ∧ '<' ∉ g) (line : Str) :
    ∃ t, tagCollaborations line kb = .ok t ∧ Meek asIs w line t := by
  have st : ∀ {i : Str}, i ∈ authTags → Seal asIs w i := fun h => seal_auth hw h
  unfold tagCollaborations
  refine foldlM_meek (fun p hp s => ?_) line
  refine foldlM_meek (fun m hm s' => ?_) s
  obtain ⟨g, hg, hlt⟩ := hk p hp _ m (List.mem_reverse.1 hm)
  unfold collabStep
  rw [hg]
  refine ⟨_, rfl, splice_meek (match_le (List.mem_reverse.1 hm)) ?_⟩
  refine Seal.meek (((st (by decide)).text ?_).append (st (by decide))) _
  intro c hc
  have := mem_stripP hc
  simp only [asIs, List.mem_singleton]
  rintro rfl
  exact hlt this

/-! ### The line after recognition -/

theorem newline_ink (s : Str) : ink (s.filter (· != '\n')) = ink s := by
  induction s with
  | nil => rfl
  | cons c s ih =>
    by_cases h : c = '\n'
    · subst h
      have e : ink ('\n' :: s) = ink s := rfl
      rw [e, ← ih]; rfl
    · have e : (c :: s).filter (· != '\n') = c :: s.filter (· != '\n') := by simp [h]
      rw [e]
      by_cases hc : isSpace c = true
      · simp only [Spec.ink, List.filter_cons, hc, Bool.not_true, Bool.false_eq_true, if_false] at ih ⊢; exact ih
      · simp only [Spec.ink, List.filter_cons, hc, Bool.not_false, if_true] at ih ⊢; rw [ih]

theorem processLine_count {lib : Lib} (S : Spelled lib.unidecode spell) (hw : CountedTag w) {kbs : TagKbs} {line : Str} (hl : Tame spell line) {f : Found}
    (hf : FoundPlain spell f kbs.publishers) (hr : ∃ t, rebuildTagged line f kbs.publishers = .ok t) (hk : ∀ p ∈ kbs.authors, Seal spell w p.2)
    (hc : ∀ p ∈ kbs.collaborations, ∀ s, ∀ m ∈ finditer p.2 s, ∃ g, m.group 1 = some g ∧ '<' ∉ g) :
    ∃ t, processLine lib line f kbs = .ok t ∧ occurs ('<' :: w) t ≤ occurs ('<' :: w) (shape spell line) := by
  obtain ⟨t1, e1⟩ := hr
  have m1 := rebuildTagged_meek (w := w) S hw hl hf e1
  obtain ⟨t2, e2, m2⟩ := tagAuthors_count S hw hk (m1 hl).1
  obtain ⟨t3, e3, m3⟩ := tagCollaborations_meek hw hc t2
  refine ⟨t3.filter (· != '\n'), ?_, ?_⟩
  · unfold processLine
    rw [e1]
    dsimp only [bind, Except.bind]
    rw [e2]
    dsimp only
    rw [e3]
    rfl
  · have h1 := ink_le (t3.filter (· != '\n')) hw
    rw [newline_ink] at h1
    have h2 := m3.le (tame_asIs t2)
    rw [shape_asIs, shape_asIs] at h2
    have h3 := m1.le hl
    omega

end Py
