import Verif.Lemmas.Numeration
import Verif.Lemmas.Url
import Verif.Lemmas.Post
import Verif.Lemmas.Titles
import Verif.Lemmas.Pipeline
import Verif.Props.Numeration
import Verif.Lemmas.Books

/-!
# Journals and their numeration in the line
-/

open Py Spec

/-- The last two parts of a sequence, the last one being a group. -/
def Py.Re.tail2 : Re → Option (Re × Nat × Re)
  | .seq a (.group g b) => some (a, g, b)
  | .seq _ r => r.tail2
  | _ => none

theorem run_tail2 [UnicodeDB] {g : Nat} {a b : Re} : ∀ {r : Re} {s t : St}, r.tail2 = some (a, g, b) → t ∈ run r s →
    ∃ u v w0 w1 w2, s.post = w0 ++ w1 ++ w2 ++ t.post ∧ t.pre = (w0 ++ w1 ++ w2).reverse ++ s.pre ∧
      Step a u v w1 ∧ Step (.group g b) v t w2 ∧ t.cap g = some w2 := by
  intro r
  induction r with
  | seq x y _ ih =>
    intro s t h ht
    cases y with
    | group g' b' =>
      simp only [Re.tail2, Option.some.injEq, Prod.mk.injEq] at h
      obtain ⟨rfl, rfl, rfl⟩ := h
      obtain ⟨v, hv, ht⟩ := run_seq.1 ht
      obtain ⟨w1, h1⟩ := run_step hv
      obtain ⟨w2, h2⟩ := run_step ht
      obtain ⟨w', u', -, hu', e1, e2, e3, -⟩ := run_group ht
      have : w' = w2 := by
        have q := h2.post
        rw [hu'.post, ← e2] at q
        exact List.append_cancel_right q
      subst this
      refine ⟨s, v, [], w1, w', ?_, ?_, h1, h2, e3⟩
      · rw [h1.post, h2.post]; simp
      · rw [h2.pre, h1.pre]; simp
    | _ =>
      obtain ⟨v, hv, ht⟩ := run_seq.1 ht
      obtain ⟨w, h1⟩ := run_step hv
      obtain ⟨u, v', w0, w1, w2, e1, e2, e3⟩ := ih h ht
      refine ⟨u, v', w ++ w0, w1, w2, ?_, ?_, e3⟩
      · rw [h1.post, e1]; simp
      · rw [e2, h1.pre]; simp
  | _ => intro s t h; simp [Re.tail2] at h

/-- The tag of a recognised title in the patterns. -/
def titleTagRe : Re := .group G.title_tag ((.str (py! "<cds.JOURNAL>")) ⬝ (.star true (.set ⟨true, false, [.ch '<']⟩)) ⬝ (.str (py! "</cds.JOURNAL>")))

theorem sem_titleTag [UnicodeDB] {pre w post : Str} (h : Sem titleTagRe pre w post) :
    ∃ z, w = py! "<cds.JOURNAL>" ++ z ++ py! "</cds.JOURNAL>" ∧ '<' ∉ z := by
  obtain ⟨_, _, rfl, rfl, z, _, rfl, h1, rfl⟩ := h
  refine ⟨z, by simp, fun hz => ?_⟩
  have := sem_star_set.1 h1 '<' hz
  simp [CSet.mem, CItem.mem] at this

theorem patterns2_tail : ∀ r ∈ numerationPatterns2, ∃ b, r.tail2 = some (titleTagRe, G.aftertitle, b) ∧ 0 < b.minLen := by
  intro r hr
  simp only [numerationPatterns2, List.mem_cons, List.not_mem_nil, or_false] at hr
  rcases hr with rfl | rfl | rfl | rfl
  · exact ⟨_, rfl, by decide +kernel⟩
  · exact ⟨_, rfl, by decide +kernel⟩
  · exact ⟨_, rfl, by decide +kernel⟩
  · exact ⟨_, rfl, by decide +kernel⟩

theorem lt_split {z y b c : Str} (hz : '<' ∉ z) (hy : '<' ∉ y) (e : z ++ '<' :: b = y ++ '<' :: c) : z = y ∧ b = c := by
  induction z generalizing y with
  | nil =>
    cases y with
    | nil => simp at e; exact ⟨rfl, e⟩
    | cons d y => simp at e; simp at hy; exact absurd e.1 hy.1
  | cons d z ih =>
    cases y with
    | nil => simp at e; simp at hz; exact absurd e.1.symm hz.1
    | cons d' y =>
      simp only [List.cons_append, List.cons.injEq] at e
      obtain ⟨h1, h2⟩ := ih (fun h => hz (by simp [h])) (fun h => hy (by simp [h])) e.2
      exact ⟨by rw [e.1, h1], h2⟩

/-- What the second search finds behind a title begins with the blank put in behind the tag. -/
theorem more_after [UnicodeDB] {before title rest : Str} {n : Numeration} (ht : '<' ∉ title)
    (hone : ∀ p q, before ++ py! "<cds.JOURNAL>" ++ title ++ py! "</cds.JOURNAL>" ++ ' ' :: rest = p ++ py! "<cds.JOURNAL>" ++ q →
      p.length = before.length)
    (h : findNumerationMore (before ++ py! "<cds.JOURNAL>" ++ title ++ py! "</cds.JOURNAL>" ++ ' ' :: rest) = .ok (some n)) :
    ∃ y r, rest = y ++ r ∧ n.len = y.length + 1 := by
  unfold findNumerationMore at h
  cases hf : numerationPatterns2.findSome? (search · (before ++ py! "<cds.JOURNAL>" ++ title ++ py! "</cds.JOURNAL>" ++ ' ' :: rest)) with
  | none => rw [hf] at h; cases h
  | some m =>
    rw [hf] at h
    dsimp only at h
    obtain ⟨n', hn, h⟩ := bind_ok h
    cases h
    obtain ⟨r, hr, hm⟩ := List.exists_of_findSome?_eq_some hf
    obtain ⟨b, hb, hmin⟩ := patterns2_tail r hr
    obtain ⟨ps, qs, hs⟩ := mem_finditer (search_mem hm)
    obtain ⟨tail, hb'⟩ := scan_hit hs
    obtain ⟨t, ht1, ht2, -, -, ht4⟩ := matchHere_cap hb'
    obtain ⟨u, v, w0, w1, w2, e1, -, e3, e4, e5⟩ := run_tail2 hb ht1
    obtain ⟨z, hz, hz'⟩ := sem_titleTag e3.sem
    have htext : ps.flatMap Piece.orig ++ (Piece.hit m :: qs).flatMap Piece.orig =
        before ++ py! "<cds.JOURNAL>" ++ title ++ py! "</cds.JOURNAL>" ++ ' ' :: rest := by
      rw [← List.flatMap_append, ← hs, scan_orig]
    have e1' : (Piece.hit m :: qs).flatMap Piece.orig = w0 ++ w1 ++ w2 ++ t.post := e1
    rw [e1', hz] at htext
    have h1 := hone (ps.flatMap Piece.orig ++ w0) (z ++ py! "</cds.JOURNAL>" ++ w2 ++ t.post) (by rw [← htext]; simp)
    have h2 : (ps.flatMap Piece.orig ++ w0) ++ (py! "<cds.JOURNAL>" ++ (z ++ py! "</cds.JOURNAL>" ++ w2 ++ t.post)) =
        before ++ (py! "<cds.JOURNAL>" ++ (title ++ py! "</cds.JOURNAL>" ++ ' ' :: rest)) := by
      simp only [List.append_assoc] at htext ⊢; exact htext
    have h3 := (List.append_inj h2 h1).2
    have h4 := List.append_cancel_left h3
    have h5 : z ++ '<' :: (py! "/cds.JOURNAL>" ++ w2 ++ t.post) = title ++ '<' :: (py! "/cds.JOURNAL>" ++ ' ' :: rest) := by
      simpa using h4
    obtain ⟨-, h6⟩ := lt_split hz' ht h5
    rw [List.append_assoc] at h6
    have h7 := List.append_cancel_left h6
    have hw2 : 0 < w2.length := by
      have hl : Lang b w2 := by
        have := sem_lang _ _ _ _ e4.sem
        exact this
      have := lang_minLen _ _ hl
      omega
    have hg : m.group G.aftertitle = some w2 := by rw [ht4, e5]
    have hlen : n.len = w2.length := by
      unfold numerationMoreOf at hn
      rw [hg] at hn
      cases hv : m.group G.vol with
      | none => rw [hv] at hn; cases hn
      | some v => rw [hv] at hn; cases hn; rfl
    cases w2 with
    | nil => simp at hw2
    | cons c y =>
      simp only [List.cons_append, List.cons.injEq] at h7
      exact ⟨y, t.post, h7.2.symm, by rw [hlen]; rfl⟩

/-- The tags of a numeration with a volume and a page. -/
theorem numerationTag_form {n : Numeration} {v p : Str} (hv : n.volume = some v) (hp : n.page = some p) :
    ∃ yr en, numerationTag n = .ok (py! " <cds.VOL>" ++ n.series.getD [] ++ v ++ py! "</cds.VOL>" ++ yr ++ py! " <cds.PG>" ++ p ++ en ++ py! "</cds.PG>") := by
  have key : numerationTag n = (do
      let tags := py! " <cds.VOL>" ++ n.series.getD [] ++ v ++ py! "</cds.VOL>"
      let tags := match n.year with
        | some (c :: y) => tags ++ py! " <cds.YR>(" ++ c :: y ++ py! ")</cds.YR>"
        | _ => tags
      match n.pageEnd with
      | some (c :: e) => return tags ++ py! " <cds.PG>" ++ showVal n.page ++ ['-'] ++ c :: e ++ py! "</cds.PG>"
      | _ => return tags ++ py! " <cds.PG>" ++ showVal n.page ++ py! "</cds.PG>") := by
    unfold numerationTag
    rw [hv]
    match hs : n.series with
    | some (c :: s) => simp [showVal, okBind, pure, Except.pure]; rfl
    | some [] => simp [showVal, okBind, pure, Except.pure]; rfl
    | none => simp [showVal, okBind, pure, Except.pure]; rfl
  rw [key, hp]
  match n.year, n.pageEnd with
  | some (c :: y), some (d :: e) => exact ⟨py! " <cds.YR>(" ++ c :: y ++ py! ")</cds.YR>", '-' :: d :: e, by simp [showVal, pure, Except.pure]⟩
  | some (c :: y), some [] => exact ⟨py! " <cds.YR>(" ++ c :: y ++ py! ")</cds.YR>", [], by simp [showVal, pure, Except.pure]⟩
  | some (c :: y), none => exact ⟨py! " <cds.YR>(" ++ c :: y ++ py! ")</cds.YR>", [], by simp [showVal, pure, Except.pure]⟩
  | some [], some (d :: e) => exact ⟨[], '-' :: d :: e, by simp [showVal, pure, Except.pure]⟩
  | some [], some [] => exact ⟨[], [], by simp [showVal, pure, Except.pure]⟩
  | some [], none => exact ⟨[], [], by simp [showVal, pure, Except.pure]⟩
  | none, some (d :: e) => exact ⟨[], '-' :: d :: e, by simp [showVal, pure, Except.pure]⟩
  | none, some [] => exact ⟨[], [], by simp [showVal, pure, Except.pure]⟩
  | none, none => exact ⟨[], [], by simp [showVal, pure, Except.pure]⟩

/-- Nothing is captured in a lookahead. -/
def Py.Re.lookPlain : Re → Bool
  | .seq a b => a.lookPlain && b.lookPlain
  | .alt a b => a.lookPlain && b.lookPlain
  | .star _ a => a.lookPlain
  | .group _ a => a.lookPlain
  | .look _ a => a.groups.isEmpty
  | _ => true

/-- What is captured lies in the text matched. -/
def Within (s t : St) : Prop := ∃ w, Adv s t w ∧ ∀ c ∈ t.caps, c ∈ s.caps ∨ ∃ x y, w = x ++ c.txt ++ y

theorem Within.refl (s : St) : Within s s := ⟨[], Adv.refl _, fun _ h => .inl h⟩

theorem Within.trans {s t u : St} (h : Within s t) (h' : Within t u) : Within s u := by
  obtain ⟨w, h1, h2⟩ := h
  obtain ⟨v, h3, h4⟩ := h'
  refine ⟨w ++ v, h1.trans h3, fun c hc => ?_⟩
  rcases h4 c hc with hc | ⟨x, y, rfl⟩
  · rcases h2 c hc with hc | ⟨x, y, rfl⟩
    · exact .inl hc
    · exact .inr ⟨x, y ++ v, by simp⟩
  · exact .inr ⟨w ++ x, y, by simp⟩

theorem iter_within [UnicodeDB] {g : Bool} {a : Re} (ih : ∀ s t, t ∈ run a s → Within s t) :
    ∀ n s t, t ∈ iter g (run a) n s → Within s t
  | 0, s, t, h => by simp [iter] at h; subst h; exact .refl _
  | n + 1, s, t, h => by
    have key : t = s ∨ ∃ u, u ∈ run a s ∧ t ∈ iter g (run a) n u := by
      simp only [iter] at h
      cases g <;> simp at h
      · rcases h with h | ⟨u, h1, h2⟩
        · exact .inl h
        · exact .inr ⟨u, h1.1, h2⟩
      · rcases h with ⟨u, h1, h2⟩ | h
        · exact .inr ⟨u, h1.1, h2⟩
        · exact .inl h
    rcases key with rfl | ⟨u, h1, h2⟩
    · exact .refl _
    · exact (ih _ _ h1).trans (iter_within ih n _ _ h2)

theorem run_within [UnicodeDB] (r : Re) (hr : r.lookPlain = true) (s t : St) (h : t ∈ run r s) : Within s t := by
  induction r generalizing s t with
  | seq a b iha ihb =>
    simp only [Re.lookPlain, Bool.and_eq_true] at hr
    obtain ⟨u, hu, ht⟩ := run_seq.1 h
    exact (iha hr.1 _ _ hu).trans (ihb hr.2 _ _ ht)
  | alt a b iha ihb =>
    simp only [Re.lookPlain, Bool.and_eq_true] at hr
    rcases run_alt.1 h with h | h
    · exact iha hr.1 _ _ h
    · exact ihb hr.2 _ _ h
  | star g a ih => exact iter_within (fun s t h => ih hr s t h) _ _ _ h
  | group g a ih =>
    simp only [run, List.mem_map] at h
    obtain ⟨u, hu, rfl⟩ := h
    obtain ⟨w, hw, hc⟩ := ih hr _ _ hu
    have hcap : (u.pre.take (u.pre.length - s.pre.length)).reverse = w := by rw [hw.2]; simp
    refine ⟨w, hw, fun c hcm => ?_⟩
    rcases List.mem_cons.1 hcm with rfl | h
    · exact .inr ⟨[], [], by simp [hcap]⟩
    · exact hc c h
  | look neg a _ =>
    have hg : a.groups = [] := by simpa [Re.lookPlain] using hr
    simp only [run] at h
    split at h
    · cases neg <;> simp at h
      subst h; exact .refl _
    · next u l hu =>
      cases neg <;> simp at h
      subst h
      obtain ⟨w, hw, hl, new, hn, hc⟩ := run_sound a s u (by rw [hu]; simp)
      refine ⟨[], by simp [Adv], fun c hcm => ?_⟩
      simp only [hn] at hcm
      rcases List.mem_append.1 hcm with h | h
      · obtain ⟨⟨b, hb, -⟩, -⟩ := hc c h
        rw [hg] at hb; cases hb
      · exact .inl h
  | _ =>
    obtain ⟨w, hw, hl, new, hn, hc⟩ := run_sound _ s t h
    refine ⟨w, hw, fun c hcm => ?_⟩
    rw [hn] at hcm
    rcases List.mem_append.1 hcm with h | h
    · obtain ⟨⟨b, hb, -⟩, -⟩ := hc c h
      cases hb
    · exact .inl h

/-- The groups of a match lie in its text. -/
theorem group_within [UnicodeDB] {r : Re} (hr : r.lookPlain = true) {adv : Bool} {pre post : Str} {m : Match}
    (h : matchHere r adv pre post = some m) {g : Nat} {x : Str} (hg : m.group g = some x) : PartOf x m.txt := by
  obtain ⟨t, ht, h1, h2, -, h3⟩ := matchHere_cap h
  obtain ⟨w, hw, hc⟩ := run_within r hr _ _ ht
  have hw' : w = m.txt := by
    have := hw.1
    simp only [h1] at this
    exact (List.append_cancel_right this).symm
  rw [h3, St.cap] at hg
  cases hf : t.caps.find? (·.g == g) with
  | none => rw [hf] at hg; cases hg
  | some c =>
    rw [hf] at hg
    cases hg
    rcases hc c (List.mem_of_find?_eq_some hf) with h | ⟨p, q, h⟩
    · cases h
    · exact ⟨p, q, by rw [← hw', h]⟩

theorem patterns_plain : numerationPatterns.all Re.lookPlain = true := by decide +kernel

/-- The first search consumes the text it matches, and everything it finds lies there. -/
theorem first_consumed [UnicodeDB] {c : Str} {n : Numeration} (h : findNumeration c = .ok (some n)) :
    ∃ w rest y v p, c = w ++ rest ∧ n.len = w.length ∧ w ≠ [] ∧ n.year = some y ∧ PartOf y w ∧ n.volume = some v ∧ PartOf v w ∧
      n.page = some p ∧ PartOf p w := by
  rcases Props.C57_numeration c with h' | ⟨n', y, v, p, h', a1, a2, a3, a4, a5, a6, a7, a8, a9, a10, a11⟩
  · rw [h] at h'; cases h'
  rw [h] at h'
  cases h'
  unfold findNumeration at h
  cases hf : firstMatch numerationPatterns c with
  | none => rw [hf] at h; cases h
  | some m =>
    rw [hf] at h
    obtain ⟨n', hn, h⟩ := bind_ok h
    cases h
    obtain ⟨r, hr, hm⟩ := List.exists_of_findSome?_eq_some hf
    have hok := List.all_eq_true.1 patterns_plain r hr
    have hin : ∀ {g x}, m.group g = some x → PartOf x m.txt := fun hx => group_within hok hm hx
    have key : n.year = m.group G.year ∧ n.volume = volumeGroup m ∧
        n.page = orElse (m.group G.page) (m.group G.jinst_page) ∧ n.len = m.stop := by
      unfold numerationOf at hn
      dsimp only at hn
      split at hn
      · cases hn; exact ⟨rfl, rfl, rfl, rfl⟩
      · split at hn
        · cases hn; exact ⟨rfl, rfl, rfl, rfl⟩
        · cases hn
    obtain ⟨k1, k2, k3, k4⟩ := key
    have hmo := reMatch_ok hm
    obtain ⟨rest, hs⟩ := hmo.split
    have hst : m.start = 0 := hmo.start
    have hor : ∀ {a b : Option Str} {x : Str}, orElse a b = some x → a = some x ∨ b = some x := by
      intro a b x hx
      unfold orElse at hx
      split at hx
      · exact .inl hx
      · exact .inr hx
    refine ⟨m.txt, rest, y, v, p, hs, by rw [k4, Match.stop, hst]; simp, ?_, a1, hin (k1 ▸ a1), a4, ?_, a7, ?_⟩
    · rintro e
      rw [k4, Match.stop, hst, e] at a10
      simp at a10
    · rw [k2] at a4
      rcases hor a4 with h | h
      · rcases hor h with h | h
        · exact hin h
        · exact hin h
      · exact hin h
    · rw [k3] at a7
      rcases hor a7 with h | h
      · exact hin h
      · exact hin h

theorem lt_first {p : Str} (h : '<' ∈ p) : ∃ a b, p = a ++ '<' :: b ∧ '<' ∉ a := by
  induction p with
  | nil => cases h
  | cons c p ih =>
    by_cases hc : c = '<'
    · exact ⟨[], p, by simp [hc], by simp⟩
    · rcases List.mem_cons.1 h with h | h
      · exact absurd h.symm hc
      · obtain ⟨a, b, rfl, ha⟩ := ih h
        exact ⟨c :: a, b, rfl, by simp [ha, Ne.symm hc]⟩

/-- The tag stands only once in a text that had no tags. -/
theorem tag_once {before title rest p q : Str} (hb : '<' ∉ before) (ht : '<' ∉ title) (hr : '<' ∉ rest)
    (e : before ++ py! "<cds.JOURNAL>" ++ title ++ py! "</cds.JOURNAL>" ++ ' ' :: rest = p ++ py! "<cds.JOURNAL>" ++ q) :
    p.length = before.length := by
  have e1 : before ++ '<' :: (py! "cds.JOURNAL>" ++ title ++ '<' :: (py! "/cds.JOURNAL>" ++ ' ' :: rest)) =
      p ++ '<' :: (py! "cds.JOURNAL>" ++ q) := by simpa using e
  by_cases hp : '<' ∈ p
  · exfalso
    obtain ⟨a, b, rfl, ha⟩ := lt_first hp
    obtain ⟨-, e2⟩ := lt_split hb ha (c := b ++ '<' :: (py! "cds.JOURNAL>" ++ q)) (by simpa using e1)
    have hx : '<' ∉ py! "cds.JOURNAL>" ++ title := by simp [ht]
    by_cases hp' : '<' ∈ b
    · obtain ⟨a', b', rfl, ha'⟩ := lt_first hp'
      obtain ⟨-, e3⟩ := lt_split hx ha' (c := b' ++ '<' :: (py! "cds.JOURNAL>" ++ q)) (by simpa using e2)
      have e4 := congrArg ('<' ∈ ·) e3
      simp [hr] at e4
    · obtain ⟨-, e3⟩ := lt_split hx hp' e2
      simp at e3
  · rw [(lt_split hb hp e1).1]

/-- The longest first part of a text whose characters are in a set is determined. -/
theorem prefix_unique {k q c q' c' : Str} (h1 : ∀ x ∈ q, x ∈ k) (h2 : ∀ x, c.head? = some x → x ∉ k) (h1' : ∀ x ∈ q', x ∈ k)
    (h2' : ∀ x, c'.head? = some x → x ∉ k) (e : q ++ c = q' ++ c') : c = c' := by
  induction q generalizing q' with
  | nil =>
    cases q' with
    | nil => exact e
    | cons d q' =>
      simp only [List.nil_append, List.cons_append] at e
      subst e
      exact absurd (h1' d (by simp)) (h2 d rfl)
  | cons d q ih =>
    cases q' with
    | nil =>
      simp only [List.nil_append, List.cons_append] at e
      subst e
      exact absurd (h1 d (by simp)) (h2' d rfl)
    | cons d' q' =>
      simp only [List.cons_append, List.cons.injEq] at e
      exact ih (fun x hx => h1 x (by simp [hx])) (fun x hx => h1' x (by simp [hx])) e.2

theorem skip_split (line : Str) (p : Nat) : ∃ q, line.drop p = q ++ line.drop (skipPunctuation line p) ∧ (∀ x ∈ q, x ∈ py! ".:-)") ∧
    (∀ x, (line.drop (skipPunctuation line p)).head? = some x → x ∉ py! ".:-)") ∧ skipPunctuation line p = p + q.length := by
  obtain ⟨c, t1, t2⟩ := takeWhile_split (p := inSet ['.', ':', '-', ')']) (line.drop p)
  have e : line.drop (skipPunctuation line p) = c := by
    unfold skipPunctuation
    rw [← List.drop_drop]
    generalize (line.drop p).takeWhile (inSet ['.', ':', '-', ')']) = q' at t1
    rw [t1, List.drop_left]
  refine ⟨_, by rw [e]; exact t1, ?_, ?_, rfl⟩
  · intro x hx
    have := List.all_eq_true.1 (List.all_takeWhile (l := line.drop p) (p := inSet ['.', ':', '-', ')'])) x hx
    simpa [inSet] using this
  · intro x hx
    rw [e] at hx
    rcases t2 with rfl | ⟨y, r, rfl, hy⟩
    · cases hx
    · simp only [List.head?_cons, Option.some.injEq] at hx
      subst hx
      simpa [inSet] using hy

theorem journalHead_form [UnicodeDB] {line info : Str} {prev : Option Prev} {start idx extras pos1 : Nat} {std : List (Str × Str)}
    {rebuilt : Str} {pv : Prev} {series : Option Str}
    (h1 : journalHead line info prev start idx extras std = .ok (some (rebuilt, pos1, pv, series))) :
    pos1 = skipPunctuation line (idx + info.length + extras) ∧ ∃ tag, rebuilt = slice line start idx ++ tag ∧
      ((find (py! "IBID") (upper info) = none ∧ ∃ t title, dget std info = some t ∧ (';' ∉ t ∧ t = title ∨ ∃ s, ';' ∉ s ∧ t = title ++ ';' :: s) ∧
          tag = py! "<cds.JOURNAL>" ++ title ++ py! "</cds.JOURNAL>") ∨
        find (py! "IBID") (upper info) ≠ none ∧ ∃ pr, prev = some pr ∧ tag = py! " <cds.JOURNALibid>" ++ pr.title ++ py! "</cds.JOURNALibid>") := by
  unfold journalHead at h1
  dsimp only at h1
  split at h1
  · next hi =>
    have hi' : find (py! "IBID") (upper info) ≠ none := by
      intro e; rw [e] at hi; cases hi
    cases prev with
    | none => cases h1
    | some _ => cases h1; exact ⟨rfl, _, by simp only [List.append_assoc]; rfl, .inr ⟨hi', _, rfl, by simp⟩⟩
  · next hi =>
    have hi' : find (py! "IBID") (upper info) = none := by simpa using hi
    cases hs : dget std info with
    | none => rw [hs] at h1; cases h1
    | some t =>
      rw [hs] at h1
      dsimp only at h1
      split at h1
      · next title ser he =>
        cases h1
        exact ⟨rfl, _, by simp only [List.append_assoc]; rfl, .inl ⟨hi', t, title, rfl, .inr ⟨ser, (rsplit1_some he).2, (rsplit1_some he).1⟩, by simp⟩⟩
      · next he =>
        cases h1
        exact ⟨rfl, _, by simp only [List.append_assoc]; rfl, .inl ⟨hi', t, t, rfl, .inl ⟨rsplit1_none he, rfl⟩, by simp⟩⟩

theorem journalHead_prev [UnicodeDB] {line info : Str} {prev : Option Prev} {start idx extras pos1 : Nat} {std : List (Str × Str)}
    {rebuilt : Str} {pv : Prev} {series : Option Str}
    (h1 : journalHead line info prev start idx extras std = .ok (some (rebuilt, pos1, pv, series))) :
    series = pv.series ∧
      ((find (py! "IBID") (upper info) = none ∧ rebuilt = slice line start idx ++ py! "<cds.JOURNAL>" ++ pv.title ++ py! "</cds.JOURNAL>" ∧
          ∃ t, dget std info = some t ∧ (';' ∉ t ∧ pv = ⟨t, none⟩ ∨ ∃ title s, t = title ++ ';' :: s ∧ ';' ∉ s ∧ pv = ⟨title, some (strip s)⟩)) ∨
        find (py! "IBID") (upper info) ≠ none ∧ prev = some pv ∧
          rebuilt = slice line start idx ++ py! " <cds.JOURNALibid>" ++ pv.title ++ py! "</cds.JOURNALibid>") := by
  unfold journalHead at h1
  dsimp only at h1
  split at h1
  · next hi =>
    have hi' : find (py! "IBID") (upper info) ≠ none := by
      intro e; rw [e] at hi; cases hi
    cases prev with
    | none => cases h1
    | some _ => cases h1; exact ⟨rfl, .inr ⟨hi', rfl, rfl⟩⟩
  · next hi =>
    have hi' : find (py! "IBID") (upper info) = none := by simpa using hi
    cases hs : dget std info with
    | none => rw [hs] at h1; cases h1
    | some t =>
      rw [hs] at h1
      dsimp only at h1
      split at h1
      · next title ser he =>
        cases h1
        exact ⟨rfl, .inl ⟨hi', rfl, t, rfl, .inr ⟨title, ser, (rsplit1_some he).1, (rsplit1_some he).2, rfl⟩⟩⟩
      · next he =>
        cases h1
        exact ⟨rfl, .inl ⟨hi', rfl, t, rfl, .inl ⟨rsplit1_none he, rfl⟩⟩⟩

theorem orElse_cases (a b : Option Str) : a.getD [] ≠ [] ∧ orElse a b = a ∨ a.getD [] = [] ∧ orElse a b = b := by
  match a with
  | none => exact .inr ⟨rfl, rfl⟩
  | some [] => exact .inr ⟨rfl, rfl⟩
  | some (c :: s) => exact .inl ⟨by simp, rfl⟩

/-- Replacing a title fails only when there is no standard title. -/
theorem addJournal_total [UnicodeDB] {line info : Str} {prev : Option Prev} {start idx extras : Nat} {std : List (Str × Str)}
    (h : (find (py! "IBID") (upper info)).isSome = true ∨ (dget std info).isSome = true) :
    ∃ r, addJournal line info prev start idx extras std = .ok r := by
  have hhead : ∃ o, journalHead line info prev start idx extras std = .ok o := by
    unfold journalHead
    dsimp only
    split
    · cases prev with
      | none => exact ⟨_, rfl⟩
      | some p => exact ⟨_, rfl⟩
    · next hi =>
      rcases h with h | h
      · exact absurd h hi
      · cases hs : dget std info with
        | none => rw [hs] at h; cases h
        | some t =>
          dsimp only
          split <;> exact ⟨_, rfl⟩
  obtain ⟨o, ho⟩ := hhead
  unfold addJournal
  rw [ho, okBind]
  cases o with
  | none => exact ⟨_, rfl⟩
  | some x =>
    obtain ⟨rebuilt, pos, p, series⟩ := x
    dsimp only
    have hnum : journalNumeration line rebuilt pos = .ok none ∨ ∃ n v p, journalNumeration line rebuilt pos = .ok (some n) ∧
        n.volume = some v ∧ n.page = some p := by
      unfold journalNumeration
      rcases Props.C57_numeration (line.drop pos) with h | ⟨n, y, v, p, h, -, -, -, hv, -, -, hp, -⟩
      · rw [h, okBind]
        rcases Props.C57_more (rebuilt ++ ' ' :: line.drop pos) with h | ⟨n, v, p, h, hv, -, -, hp, -⟩
        · exact .inl h
        · exact .inr ⟨n, v, p, h, hv, hp⟩
      · rw [h, okBind]
        exact .inr ⟨n, v, p, rfl, hv, hp⟩
    rcases hnum with h | ⟨n, v, p', h, hv, hp⟩
    · rw [h, okBind]; exact ⟨_, rfl⟩
    · rw [h, okBind]
      obtain ⟨yr, en, e⟩ := numerationTag_form (n := withSeries series n) hv hp
      dsimp only
      rw [e, okBind]
      exact ⟨_, rfl⟩
