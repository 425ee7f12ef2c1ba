import Verif.Spec.Implied
import Verif.Lemmas.Pipeline
import Verif.Lemmas.Engine
import Verif.Lemmas.Caps
import Verif.Lemmas.Recognise
import Verif.Lemmas.Author
import Verif.Props.Numeration

/-!
# Helper lemmas: numerations without a title
-/

namespace Py
open Spec

section Series
variable [UnicodeDB]

/-- The separator of the two patterns. -/
def looseRe : Re :=
  (.star true (Re.space)) ⬝ (Re.opt (.set ⟨false, false, [.ch ',', .space, .ch ':', .ch '-']⟩)) ⬝ (.star true (Re.space))

theorem loose_mem {x : Char} :
    (⟨false, false, [.ch ',', .space, .ch ':', .ch '-']⟩ : CSet).mem x = true ↔ x ∈ [',', ':', '-'] ∨ isSpace x = true := by
  simp only [CSet.mem, CItem.mem, List.any_cons, List.any_nil, Bool.or_false, Bool.or_eq_true, beq_iff_eq, List.mem_cons,
    List.not_mem_nil, or_false, Bool.false_eq_true, if_false]
  constructor
  · rintro (h | h | h | h)
    · exact .inl (.inl h)
    · exact .inr h
    · exact .inl (.inr (.inl h))
    · exact .inl (.inr (.inr h))
  · rintro ((h | h | h) | h)
    · exact .inl h
    · exact .inr (.inr (.inl h))
    · exact .inr (.inr (.inr h))
    · exact .inr (.inl h)

theorem space_mem {x : Char} : (⟨false, false, [.space]⟩ : CSet).mem x = true ↔ isSpace x = true := by
  simp [CSet.mem, CItem.mem]

theorem sem_loose {pre w post : Str} : Sem looseRe pre w post ↔ LooseSep w := by
  constructor
  · rintro ⟨u, w, rfl, h1, m, v, rfl, h2, h3⟩
    have hu : Spaces u := fun c hc => space_mem.1 (sem_star_set.1 h1 c hc)
    have hv : Spaces v := fun c hc => space_mem.1 (sem_star_set.1 h3 c hc)
    rcases h2 with ⟨x, rfl, hx⟩ | rfl
    · rcases loose_mem.1 hx with hx | hx
      · exact ⟨u, [x], v, by simp, hu, hv, .inr ⟨x, hx, rfl⟩⟩
      · refine ⟨u, [], x :: v, by simp, hu, ?_, .inl rfl⟩
        intro c hc
        rcases List.mem_cons.1 hc with rfl | hc
        · exact hx
        · exact hv c hc
    · exact ⟨u, [], v, by simp, hu, hv, .inl rfl⟩
  · rintro ⟨u, m, v, rfl, hu, hv, hm⟩
    rw [List.append_assoc]
    refine ⟨u, m ++ v, rfl, sem_star_set.2 fun c hc => space_mem.2 (hu c hc), m, v, rfl, ?_,
      sem_star_set.2 fun c hc => space_mem.2 (hv c hc)⟩
    rcases hm with rfl | ⟨c, hc, rfl⟩
    · exact .inr rfl
    · exact .inl ⟨c, rfl, loose_mem.2 (.inl hc)⟩

omit [UnicodeDB] in
theorem nat_le {a b : Char} : a.toNat ≤ b.toNat ↔ a ≤ b := Iff.rfl

theorem seriesLetter_mem {x : Char} :
    (⟨false, false, [.range 'A' 'Z', .range 'a' 'z']⟩ : CSet).mem x = true ↔ Letter x := by
  simp only [CSet.mem, CItem.mem, List.any_cons, List.any_nil, Bool.or_false, Bool.or_eq_true, Bool.false_eq_true, if_false,
    Letter, Bool.and_eq_true, decide_eq_true_eq]
  exact Or.comm.trans (or_congr (and_congr nat_le nat_le) (and_congr nat_le nat_le))

theorem capital_mem {x : Char} :
    (⟨false, false, [.range 'A' 'Z']⟩ : CSet).mem x = true ↔ 'A' ≤ x ∧ x ≤ 'Z' := by
  simp only [CSet.mem, CItem.mem, List.any_cons, List.any_nil, Bool.or_false, Bool.false_eq_true, if_false,
    Bool.and_eq_true, decide_eq_true_eq]
  exact and_congr nat_le nat_le

theorem digit_mem {x : Char} : (⟨false, false, [.digit]⟩ : CSet).mem x = true ↔ isDec x = true := by
  simp [CSet.mem, CItem.mem]

theorem front_some {v : Str} {m : Match} (h : search Rx.re_series_from_numeration v = some m) :
    ∃ c, m.group 1 = some [c] ∧ SeriesInFront v (upper [c]) := by
  rw [Rx.re_series_from_numeration, search_bos, reMatch] at h
  obtain ⟨t, ht, -, -, -, hg⟩ := matchHere_cap h
  obtain ⟨s1, h1, ht⟩ := run_seq.1 ht
  obtain ⟨s2, h2, ht⟩ := run_seq.1 ht
  obtain ⟨w1, k1⟩ := run_step h1
  obtain ⟨rfl, -⟩ := k1.sem
  obtain ⟨w2, u, -, k2, e1, e2, e3, -⟩ := run_group h2
  obtain ⟨c, rfl, hc⟩ := k2.sem
  obtain ⟨w3, k3⟩ := run_step ht
  refine ⟨c, ?_, ?_⟩
  · rw [hg, k3.cap 1 (by decide), e3]
  · obtain ⟨a, w, rfl, ka, b, w', rfl, kb, d, e, rfl, kd, ke⟩ := k3.sem
    obtain ⟨hne, hd⟩ := sem_plus_set.1 ke
    obtain ⟨x, e', rfl⟩ := List.exists_cons_of_ne_nil hne
    have hl : LooseSep (a ++ b ++ d) := by
      refine (sem_loose (pre := []) (post := [])).1 ?_
      exact ⟨a, b ++ d, by simp, sem_star_set.2 (sem_star_set.1 ka), b, d, rfl, by
        rcases kb with ⟨y, rfl, hy⟩ | rfl
        · exact .inl ⟨y, rfl, hy⟩
        · exact .inr rfl, sem_star_set.2 (sem_star_set.1 kd)⟩
    have p1 := k1.post
    have p2 := k2.post
    have p3 := k3.post
    simp only [List.nil_append] at p1
    rw [← p1] at p2
    rw [e2] at p3
    refine ⟨c, a ++ b ++ d, x, e' ++ t.post, ?_, seriesLetter_mem.1 hc, hl, digit_mem.1 (hd x (by simp)), rfl⟩
    rw [p2, p3]; simp

theorem front_none {v : Str} (h : search Rx.re_series_from_numeration v = none) (s : Str) : ¬ SeriesInFront v s := by
  rw [Rx.re_series_from_numeration, search_bos, reMatch, matchHere_none] at h
  rintro ⟨c, w, d, r, rfl, hc, hw, hd, -⟩
  obtain ⟨a, w', rfl, ka, b, e, rfl, kb, ke⟩ := (sem_loose (pre := []) (post := [])).2 hw
  refine h ⟨c :: (a ++ (b ++ e)) ++ [d], r, by simp, ?_⟩
  refine ⟨[], _, rfl, ⟨rfl, rfl⟩, [c], a ++ (b ++ e) ++ [d], by simp, ⟨c, rfl, seriesLetter_mem.2 hc⟩, a, b ++ e ++ [d], by simp,
    sem_star_set.2 (sem_star_set.1 ka), b, e ++ [d], by simp, ?_, e, [d], rfl, sem_star_set.2 (sem_star_set.1 ke), ?_⟩
  · rcases kb with ⟨y, rfl, hy⟩ | rfl
    · exact .inl ⟨y, rfl, hy⟩
    · exact .inr rfl
  · exact sem_plus_set.2 ⟨by simp, fun x hx => by rw [List.mem_singleton.1 hx]; exact digit_mem.2 hd⟩

theorem behind_some {v : Str} {m : Match} (h : search Rx.re_series_from_numeration_after_volume v = some m) :
    ∃ c, m.group 1 = some [c] ∧ SeriesBehind v (upper [c]) := by
  rw [Rx.re_series_from_numeration_after_volume, search_bos, reMatch] at h
  obtain ⟨t, ht, -, -, -, hg⟩ := matchHere_cap h
  obtain ⟨s1, h1, ht⟩ := run_seq.1 ht
  obtain ⟨s2, h2, ht⟩ := run_seq.1 ht
  obtain ⟨s3, h3, ht⟩ := run_seq.1 ht
  obtain ⟨s4, h4, ht⟩ := run_seq.1 ht
  obtain ⟨s5, h5, ht⟩ := run_seq.1 ht
  obtain ⟨w1, k1⟩ := run_step h1
  obtain ⟨rfl, -⟩ := k1.sem
  obtain ⟨w2, k2⟩ := run_step h2
  obtain ⟨w3, k3⟩ := run_step h3
  obtain ⟨w4, k4⟩ := run_step h4
  obtain ⟨w5, k5⟩ := run_step h5
  obtain ⟨w6, u, -, k6, e1, e2, e3, -⟩ := run_group ht
  obtain ⟨c, rfl, hc⟩ := k6.sem
  refine ⟨c, by rw [hg, e3], ?_⟩
  obtain ⟨hne, hd⟩ := sem_plus_set.1 k2.sem
  have hl : LooseSep (w3 ++ w4 ++ w5) := by
    refine (sem_loose (pre := []) (post := [])).1 ?_
    exact ⟨w3, w4 ++ w5, by simp, sem_star_set.2 (sem_star_set.1 k3.sem), w4, w5, rfl, by
      rcases k4.sem with ⟨y, rfl, hy⟩ | rfl
      · exact .inl ⟨y, rfl, hy⟩
      · exact .inr rfl, sem_star_set.2 (sem_star_set.1 k5.sem)⟩
  have p1 := k1.post
  have p2 := k2.post
  have p3 := k3.post
  have p4 := k4.post
  have p5 := k5.post
  have p6 := k6.post
  simp only [List.nil_append] at p1
  refine ⟨w2, w3 ++ w4 ++ w5, c, u.post, ?_, ⟨hne, fun x hx => digit_mem.1 (hd x hx)⟩, hl, (capital_mem.1 hc).1, (capital_mem.1 hc).2, rfl⟩
  rw [p1, p2, p3, p4, p5, p6]; simp

theorem behind_none {v : Str} (h : search Rx.re_series_from_numeration_after_volume v = none) (s : Str) : ¬ SeriesBehind v s := by
  rw [Rx.re_series_from_numeration_after_volume, search_bos, reMatch, matchHere_none] at h
  rintro ⟨n, w, c, r, rfl, hn, hw, h1, h2, -⟩
  obtain ⟨a, w', rfl, ka, b, e, rfl, kb, ke⟩ := (sem_loose (pre := []) (post := [])).2 hw
  refine h ⟨n ++ (a ++ (b ++ e)) ++ [c], r, by simp, ?_⟩
  refine ⟨[], _, rfl, ⟨rfl, rfl⟩, n, a ++ (b ++ e) ++ [c], by simp, sem_plus_digit hn, a, b ++ e ++ [c], by simp,
    sem_star_set.2 (sem_star_set.1 ka), b, e ++ [c], by simp, ?_, e, [c], rfl, sem_star_set.2 (sem_star_set.1 ke), ⟨c, rfl, capital_mem.2 ⟨h1, h2⟩⟩⟩
  rcases kb with ⟨y, rfl, hy⟩ | rfl
  · exact .inl ⟨y, rfl, hy⟩
  · exact .inr rfl

theorem upper_ne {c : Char} {s : Str} (h : s = upper [c]) (hc : Letter c) : s ≠ [] := by
  subst h
  unfold upper
  simp only [List.flatMap_cons, List.flatMap_nil, List.append_nil]
  have ha : isAscii c = true := by
    unfold isAscii
    rcases hc with ⟨-, h⟩ | ⟨-, h⟩ <;>
      exact decide_eq_true (Nat.lt_of_le_of_lt (UInt32.le_iff_toNat_le.1 (Char.le_def.1 h)) (by decide))
  simp [upperC, ha]

/-- What `extractSeries` finds. -/
theorem series_cases (v : Str) : (∃ s, extractSeries v = some s ∧ s ≠ [] ∧ SeriesOf v s) ∨
    (extractSeries v = none ∧ ∀ s, ¬ SeriesOf v s) := by
  unfold extractSeries
  cases h1 : search Rx.re_series_from_numeration v with
  | some m =>
    obtain ⟨c, hg, hs⟩ := front_some h1
    refine .inl ⟨upper [c], by simp [hg], ?_, .inl hs⟩
    obtain ⟨c', w, d, r, -, hl, -, -, e⟩ := hs
    exact upper_ne e hl
  | none =>
    dsimp only
    cases h2 : search Rx.re_series_from_numeration_after_volume v with
    | some m =>
      obtain ⟨c, hg, hs⟩ := behind_some h2
      refine .inl ⟨upper [c], by simp [hg], ?_, .inr ⟨front_none h1, hs⟩⟩
      obtain ⟨n, w, c', r, -, -, -, ha, hb, e⟩ := hs
      exact upper_ne e (.inr ⟨ha, hb⟩)
    | none =>
      refine .inr ⟨rfl, ?_⟩
      rintro s (h | ⟨-, h⟩)
      · exact front_none h1 s h
      · exact behind_none h2 s h

end Series

/-! ### What citations share -/

/-- Where the objects of the citations come from. -/
theorem split_from : ∀ (os : List Obj) (s : SplitSt), ∀ c ∈ splitGo s os, ∀ o ∈ c,
    o ∈ s.cur ∨ s.postponed = some o ∨ o.id ∈ ids os ∨ s.fresh ≤ o.id
  | [], s, c, hc, o, ho => by
    have : c = (insertPostponed s).1 := by simpa [splitGo] using hc
    subst this
    rcases mem_insert ho with h | h
    · exact .inl h
    · exact .inr (.inl h)
  | x :: os, s, c, hc, o, ho => by
    have app : ∀ {s : SplitSt} {x' : Obj}, x'.id = x.id → c ∈ splitGo (splitAppend s x') os →
        o ∈ s.cur ∨ s.postponed = some o ∨ o.id ∈ ids (x :: os) ∨ s.fresh ≤ o.id := by
      intro s x' hx hc
      rcases split_from os _ c hc o ho with h | h | h | h
      · rw [cur_append] at h
        rcases List.mem_append.1 h with h | h
        · exact .inl h
        · refine .inr (.inr (.inl ?_))
          rw [List.mem_singleton.1 h, hx]
          simp [ids]
      · rw [postponed_append] at h; exact .inr (.inl h)
      · exact .inr (.inr (.inl (by simp only [ids, List.map_cons, List.mem_cons] at h ⊢; exact .inr h)))
      · rw [fresh_append] at h; exact .inr (.inr (.inr h))
    have yld : ∀ {s : SplitSt} {r : SplitReason} {x' : Obj}, x'.id = x.id → c ∈ splitGo (splitAppend (splitYield s r).2 x') os →
        o ∈ s.cur ∨ s.postponed = some o ∨ o.id ∈ ids (x :: os) ∨ s.fresh ≤ o.id := by
      intro s r x' hx hc
      rcases app hx hc with h | h | h | h
      · cases h
      · rcases mem_insert (postpone_auth (cur := (insertPostponed s).1) (n := (insertPostponed s).2) h).2 with h | h
        · exact .inl h
        · exact .inr (.inl h)
      · exact .inr (.inr (.inl h))
      · exact .inr (.inr (.inr h))
    have mis : ∀ {m : Str}, (o ∈ s.cur ++ [⟨s.fresh, { ty := .misc, misc := m }⟩] ∨ s.postponed = some o ∨ o.id ∈ ids (x :: os) ∨ s.fresh + 1 ≤ o.id) →
        o ∈ s.cur ∨ s.postponed = some o ∨ o.id ∈ ids (x :: os) ∨ s.fresh ≤ o.id := by
      rintro m (h | h | h | h)
      · rcases List.mem_append.1 h with h | h
        · exact .inl h
        · refine .inr (.inr (.inr ?_))
          rw [List.mem_singleton.1 h]
          exact Nat.le_refl _
      · exact .inr (.inl h)
      · exact .inr (.inr (.inl h))
      · exact .inr (.inr (.inr (by omega)))
    unfold splitGo at hc
    split at hc
    · exact app rfl hc
    · rcases List.mem_cons.1 hc with rfl | hc
      · rcases mem_yield ho with h | h
        · exact .inl h
        · exact .inr (.inl h)
      · exact yld rfl hc
    · split at hc
      · rename_i m rest hs
        rcases List.mem_cons.1 hc with rfl | hc
        · rcases mem_yield ho with h | h
          · exact mis (.inl h)
          · exact .inr (.inl h)
        · exact mis (yld (x' := { x with el := { x.el with misc := rest } }) rfl hc)
      · exact app rfl hc

/-- Objects with the same identifier in two citations are the same author. -/
def SharedOk (c d : List Obj) : Prop := ∀ o ∈ c, ∀ p ∈ d, o.id = p.id → o = p ∧ o.isAuth = true

theorem nodup_same {l : List Obj} (h : (ids l).Nodup) {o p : Obj} (ho : o ∈ l) (hp : p ∈ l) (e : o.id = p.id) : o = p := by
  induction l with
  | nil => cases ho
  | cons a l ih =>
    simp only [ids, List.map_cons, List.nodup_cons] at h
    rcases List.mem_cons.1 ho with rfl | ho
    · rcases List.mem_cons.1 hp with rfl | hp
      · rfl
      · exact absurd (List.mem_map.2 ⟨p, hp, e.symm⟩) h.1
    · rcases List.mem_cons.1 hp with hq | hp
      · subst hq
        exact absurd (List.mem_map.2 ⟨o, by assumption, e⟩) h.1
      · exact ih h.2 ho hp

theorem yield_shared {s : SplitSt} {r : SplitReason} {x x' : Obj} {os : List Obj} (h : IdsOk s (x :: os)) (hx : x'.id = x.id)
    {d : List Obj} (hd : d ∈ splitGo (splitAppend (splitYield s r).2 x') os) : SharedOk (splitYield s r).1 d := by
  intro o ho p hp e
  have hin : o ∈ (insertPostponed s).1 := (postpone_sublist _ _).subset ho
  have hlt : o.id < s.fresh ∧ o.id ∉ ids (x :: os) := by
    rcases mem_insert hin with h1 | h1
    · have : o.id ∈ ids s.cur := List.mem_map_of_mem h1
      exact ⟨h.curLt _ this, h.disj _ this⟩
    · exact ⟨h.ppLt o h1, (h.ppos o h1).1⟩
  have hn := hlt.2
  simp only [ids, List.map_cons, List.mem_cons, not_or] at hn
  rcases split_from os _ d hd p hp with h1 | h1 | h1 | h1
  · rw [cur_append] at h1
    rcases List.mem_append.1 h1 with h1 | h1
    · cases h1
    · rw [List.mem_singleton.1 h1, hx] at e
      exact absurd e hn.1
  · rw [postponed_append] at h1
    obtain ⟨ha, hm⟩ := postpone_auth (cur := (insertPostponed s).1) (n := (insertPostponed s).2) h1
    have := nodup_same (ids_insert h) hin hm e
    exact ⟨this, this ▸ ha⟩
  · exact absurd (e ▸ h1) hn.2
  · rw [fresh_append] at h1
    have : s.fresh ≤ p.id := h1
    omega

theorem idsOk_misc {s : SplitSt} {o : Obj} {os : List Obj} (h : IdsOk s (o :: os)) (m : Str) :
    IdsOk { s with cur := s.cur ++ [⟨s.fresh, { ty := .misc, misc := m }⟩], fresh := s.fresh + 1 } (o :: os) := by
  constructor
  · simp only [ids, List.map_append, List.map_cons, List.map_nil]
    rw [List.nodup_append]
    refine ⟨h.curNd, by simp, ?_⟩
    intro a ha b hb e
    simp only [List.mem_singleton] at hb
    have := h.curLt a ha
    omega
  · exact h.rest
  · intro i hi
    simp only [ids, List.map_append, List.mem_append, List.map_cons, List.map_nil, List.mem_singleton] at hi
    rcases hi with hi | hi
    · exact h.disj i hi
    · intro hm; have := h.osLt i hm; omega
  · intro a ha
    refine ⟨(h.ppos a ha).1, ?_⟩
    simp only [ids, List.map_append, List.mem_append, List.map_cons, List.map_nil, List.mem_singleton, not_or]
    refine ⟨(h.ppos a ha).2, ?_⟩
    have := h.ppLt a ha
    omega
  · intro i hi
    simp only [ids, List.map_append, List.mem_append, List.map_cons, List.map_nil, List.mem_singleton] at hi
    rcases hi with hi | hi
    · exact Nat.lt_succ_of_lt (h.curLt i hi)
    · rw [hi]; exact Nat.lt_succ_self _
  · exact fun i hi => Nat.lt_succ_of_lt (h.osLt i hi)
  · exact fun a ha => Nat.lt_succ_of_lt (h.ppLt a ha)

theorem split_shared : ∀ (os : List Obj) (s : SplitSt), IdsOk s os → (splitGo s os).Pairwise SharedOk
  | [], s, _ => by simp [splitGo]
  | x :: os, s, h => by
    unfold splitGo
    split
    · exact split_shared os _ (idsOk_append h rfl)
    · refine List.pairwise_cons.2 ⟨fun d hd => yield_shared h rfl hd, ?_⟩
      exact split_shared os _ (idsOk_append (idsOk_yield .repeated h).2 rfl)
    · split
      · rename_i m rest hs
        have h' := idsOk_misc h m
        refine List.pairwise_cons.2 ⟨fun d hd => yield_shared h' (x' := { x with el := { x.el with misc := rest } }) rfl hd, ?_⟩
        exact split_shared os _ (idsOk_append (o' := { x with el := { x.el with misc := rest } }) (idsOk_yield .semicolon h').2 rfl)
      · exact split_shared os _ (idsOk_append h rfl)

theorem splitCitations_shared (els : List El) : (splitCitations els).Pairwise SharedOk := by
  apply split_shared
  have := ids_number els 0
  refine ⟨by simp [ids], this.1, by simp [ids], by simp, by simp [ids], ?_, by simp⟩
  intro i hi
  have := (this.2 i hi).2
  simpa using this

theorem pairwise_flat {R : List Obj → List Obj → Prop} {cs : List (List Obj)} (h : cs.Pairwise R) {c d : List Obj}
    (hc : c ∈ cs) (hd : d ∈ cs) : c = d ∨ R c d ∨ R d c := by
  induction cs with
  | nil => cases hc
  | cons a cs ih =>
    obtain ⟨h1, h2⟩ := List.pairwise_cons.1 h
    rcases List.mem_cons.1 hc with rfl | hc
    · rcases List.mem_cons.1 hd with rfl | hd
      · exact .inl rfl
      · exact .inr (.inl (h1 d hd))
    · rcases List.mem_cons.1 hd with hd | hd
      · exact .inr (.inr (hd ▸ h1 c hc))
      · exact ih h2 hc hd

/-- The heap holds the objects of the citations. -/
theorem heapOf_get (els : List El) {c : List Obj} (hc : c ∈ splitCitations els) {o : Obj} (ho : o ∈ c) :
    (heapOf (splitCitations els)).get o.id = o.el := by
  simp only [heapOf]
  cases hf : (splitCitations els).flatten.find? (·.id == o.id) with
  | none =>
    have := List.find?_eq_none.1 hf o (List.mem_flatten.2 ⟨c, hc, ho⟩)
    simp at this
  | some p =>
    have hid : p.id = o.id := by simpa using List.find?_some hf
    obtain ⟨d, hd, hp⟩ := List.mem_flatten.1 (List.mem_of_find?_eq_some hf)
    have : p = o := by
      rcases pairwise_flat (splitCitations_shared els) hd hc with rfl | h | h
      · exact nodup_same (splitCitations_ids els d hd) hp ho hid
      · exact (h p hp o ho hid).1
      · exact ((h o ho p hp hid.symm).1).symm
    rw [this]; rfl

theorem heapOf_els (els : List El) {c : List Obj} (hc : c ∈ splitCitations els) :
    (heapOf (splitCitations els)).els (c.map (·.id)) = c.map (·.el) := by
  unfold Heap.els
  rw [List.map_map]
  exact List.map_congr_left fun o ho => heapOf_get els hc ho

/-! ### Implied ibids -/

section Ibids
variable [UnicodeDB]

theorem ibidVolume_spec {n : Numeration} {j : El} {v : Str} (hv : n.volume = some v) {r : Val} (h : ibidVolume n j = .ok r) :
    ∃ vol, r = some vol ∧ VolumeFor j n vol := by
  unfold ibidVolume at h
  have second : ∀ {h0 : ∀ s, n.series = some s → s = []}, (do
      let w ← getStr j.volume
      match extractSeries w with
      | some (c :: s) => match n.volume with
        | some v => (pure (some (c :: s ++ v)) : Py Val)
        | none => .error .typeError
      | _ => return n.volume) = .ok r → ∃ vol, r = some vol ∧ VolumeFor j n vol := by
    intro h0 h
    obtain ⟨w, h1, h⟩ := bind_ok h
    have hw : j.volume = some (some w) := by
      unfold getStr at h1
      split at h1 <;> cases h1
      assumption
    rcases series_cases w with ⟨s, e, hne, hs⟩ | ⟨e, hs⟩
    · rw [e, hv] at h
      obtain ⟨c, s', rfl⟩ := List.exists_cons_of_ne_nil hne
      cases pure_ok h
      exact ⟨_, rfl, v, hv, .inr ⟨h0, w, hw, .inl ⟨_, hs, rfl⟩⟩⟩
    · rw [e, hv] at h
      cases pure_ok h
      exact ⟨_, rfl, v, hv, .inr ⟨h0, w, hw, .inr ⟨hs, rfl⟩⟩⟩
  cases hs : n.series with
  | none =>
    rw [hs] at h
    refine second (h0 := by simp [hs]) (Eq.trans ?_ h)
    simp only [bind_assoc, pure_bind]
    rfl
  | some s =>
    cases s with
    | nil =>
      rw [hs] at h
      refine second (h0 := fun s e => by rw [hs] at e; cases e; rfl) (Eq.trans ?_ h)
      simp only [bind_assoc, pure_bind]
      rfl
    | cons c s =>
      rw [hs, hv] at h
      cases pure_ok h
      exact ⟨_, rfl, v, hv, .inl ⟨c :: s, hs, by simp, rfl⟩⟩

/-- What the loop does to the elements of a citation. -/
theorem ibidLoop_spec {j : Nat} : ∀ {c : List Nat} {h : Heap} {acc : List Nat} {h' : Heap} {new : List Nat},
    (∀ i ∈ c, i < h.next) → c.Nodup → j < h.next → (h.get j).ty = .journal →
    ibidLoop j h acc c = .ok (h', new) →
    ∃ l, new = acc ++ l ∧ (∀ i ∈ l, h.next ≤ i ∧ i < h'.next) ∧ h.next ≤ h'.next ∧
      (∀ i, i < h.next → (i ∉ c ∨ (h.get i).ty ≠ .misc) → h'.get i = h.get i) ∧
      (∀ i, i < h.next → (h'.get i).ty = (h.get i).ty) ∧
      Continued (h.get j) (h.els c) (h'.els c) (h'.els l) := by
  intro c
  induction c with
  | nil =>
    intro h acc h' new _ _ _ _ e
    simp only [ibidLoop, Except.ok.injEq, Prod.mk.injEq] at e
    obtain ⟨rfl, rfl⟩ := e
    exact ⟨[], by simp, by simp, Nat.le_refl _, fun _ _ _ => rfl, fun _ _ => rfl, .nil⟩
  | cons i c ih =>
    intro h acc h' new hlt hnd hj hjt e
    have hi := hlt i (by simp)
    obtain ⟨hic, hnd'⟩ := List.nodup_cons.1 hnd
    have hlt' : ∀ x ∈ c, x < h.next := fun x hx => hlt x (by simp [hx])
    have skip : ((h.get i).ty = .misc → findNumeration (h.get i).misc = .ok none) → ibidLoop j h acc c = .ok (h', new) →
        ∃ l, new = acc ++ l ∧ (∀ i ∈ l, h.next ≤ i ∧ i < h'.next) ∧ h.next ≤ h'.next ∧
        (∀ x, x < h.next → (x ∉ i :: c ∨ (h.get x).ty ≠ .misc) → h'.get x = h.get x) ∧
        (∀ i, i < h.next → (h'.get i).ty = (h.get i).ty) ∧
        Continued (h.get j) (h.els (i :: c)) (h'.els (i :: c)) (h'.els l) := by
      intro hk e
      obtain ⟨l, k1, k2, k3, k4, k5, k6⟩ := ih hlt' hnd' hj hjt e
      refine ⟨l, k1, k2, k3, ?_, k5, ?_⟩
      · intro x hx hxc
        refine k4 x hx ?_
        rcases hxc with h | h
        · exact .inl fun hm => h (List.mem_cons_of_mem _ hm)
        · exact .inr h
      · have : h'.get i = h.get i := k4 i hi (.inl hic)
        simp only [Heap.els, List.map_cons, this]
        exact .kept hk k6
    simp only [ibidLoop] at e
    split at e
    · rename_i hty
      obtain ⟨o, h1, e⟩ := bind_ok e
      cases o with
      | none => exact skip (fun _ => h1) e
      | some n =>
        simp only at e
        obtain ⟨vo, h2, e⟩ := bind_ok e
        obtain ⟨ti, h3, e⟩ := bind_ok e
        obtain ⟨pa, h4, e⟩ := bind_ok e
        rcases Props.C57_numeration (h.get i).misc with hno | ⟨n', y, v, p, hn, hy, -, -, hv, -, -, hp, -, -, hl0, hl⟩
        · rw [h1] at hno; cases hno
        rw [h1] at hn
        cases hn
        obtain ⟨vol, rfl, hvol⟩ := ibidVolume_spec hv h2
        have hti : (h.get j).title = some ti := by
          cases ht : (h.get j).title with
          | none => rw [ht] at h3; cases h3
          | some t => rw [ht] at h3; cases h3; rfl
        have hpa : n.page = some pa := by
          unfold ibidPage at h4
          split at h4 <;> cases h4
          assumption
        generalize hk : ({ ty := .journal, misc := [], title := some ti, volume := some (some vol),
                           year := some n.year, page := some (some pa), pageEnd := some n.pageEnd,
                           isIbid := some true, extraIbids := some [] } : El) = k at e
        have hij : j ≠ i := by rintro rfl; rw [hjt] at hty; cases hty
        have hgi : ∀ x, x < h.next → x ≠ i → (((h.alloc k).1).set i { h.get i with misc := (h.get i).misc.drop n.len }).get x = h.get x := by
          intro x hx hxi
          simp only [Heap.set, Heap.alloc]
          rw [if_neg hxi, if_neg (Nat.ne_of_lt hx)]
        have hgi' : (((h.alloc k).1).set i { h.get i with misc := (h.get i).misc.drop n.len }).get i =
            { h.get i with misc := (h.get i).misc.drop n.len } := by
          simp [Heap.set]
        have hgn : (((h.alloc k).1).set i { h.get i with misc := (h.get i).misc.drop n.len }).get h.next = k := by
          simp only [Heap.set, Heap.alloc]
          rw [if_neg (Nat.ne_of_gt hi), if_pos trivial]
        have hnx : (((h.alloc k).1).set i { h.get i with misc := (h.get i).misc.drop n.len }).next = h.next + 1 := rfl
        change ibidLoop j (((h.alloc k).1).set i { h.get i with misc := (h.get i).misc.drop n.len }) (acc ++ [h.next]) c = _ at e
        generalize (((h.alloc k).1).set i { h.get i with misc := (h.get i).misc.drop n.len }) = g at *
        have hgj : g.get j = h.get j := hgi j hj hij
        obtain ⟨l, k1, k2, k3, k4, k5, k6⟩ := ih (h := g) (fun x hx => by have := hlt' x hx; omega) hnd' (by omega) (by rw [hgj]; exact hjt) e
        rw [hnx] at k2 k3 k4 k5
        refine ⟨h.next :: l, by rw [k1]; simp, ?_, by omega, ?_, ?_, ?_⟩
        · intro x hx
          rcases List.mem_cons.1 hx with rfl | hx
          · exact ⟨Nat.le_refl _, by omega⟩
          · have := k2 x hx; exact ⟨by omega, this.2⟩
        · intro x hx hxc
          have hxi : x ≠ i := by
            rintro rfl
            rcases hxc with h | h
            · exact h (by simp)
            · exact h hty
          rw [← hgi x hx hxi]
          refine k4 x (by omega) ?_
          rcases hxc with h | h
          · exact .inl fun hm => h (List.mem_cons_of_mem _ hm)
          · exact .inr (by rw [hgi x hx hxi]; exact h)
        · intro x hx
          rw [k5 x (by omega)]
          by_cases hxi : x = i
          · rw [hxi, hgi']
          · rw [hgi x hx hxi]
        · have e1 : h'.get i = { h.get i with misc := (h.get i).misc.drop n.len } := by
            rw [← hgi']; exact k4 i (by omega) (.inl hic)
          have e2 : h'.get h.next = k := by
            rw [← hgn]
            exact k4 h.next (by omega) (.inl fun hm => by have := hlt' _ hm; omega)
          have e3 : g.els c = h.els c := els_congr fun x hx => hgi x (hlt' x hx) (by rintro rfl; exact hic hx)
          rw [hgj, e3] at k6
          simp only [Heap.els, List.map_cons, e1, e2]
          refine .article hty h1 (List.take_append_drop n.len _).symm ?_ ⟨ti, vol, hti, hvol, ?_⟩ k6
          · rw [List.length_take]; omega
          · rw [← hk, hpa]
    · rename_i hty
      exact skip (fun hm => absurd hm hty) e

omit [UnicodeDB] in
theorem lastJournal_some {h : Heap} {c : List Nat} {j : Nat} (e : lastJournal h c = some j) :
    j ∈ c ∧ (h.get j).ty = .journal ∧ LastJournal (h.els c) (h.get j) := by
  unfold lastJournal at e
  have hp := List.find?_some e
  simp only [decide_eq_true_eq] at hp
  obtain ⟨-, a, b, hab, hn⟩ := List.find?_eq_some_iff_append.1 e
  have hc : c = b.reverse ++ j :: a.reverse := by
    have := congrArg List.reverse hab
    simpa using this
  refine ⟨by rw [hc]; simp, hp, b.reverse.map h.get, a.reverse.map h.get, by rw [hc]; simp [Heap.els], hp, ?_⟩
  intro x hx
  obtain ⟨i, hi, rfl⟩ := List.mem_map.1 hx
  have := hn i (List.mem_reverse.1 hi)
  simpa using this

omit [UnicodeDB] in
theorem lastJournal_none {h : Heap} {c : List Nat} (e : lastJournal h c = none) : NoJournal (h.els c) := by
  intro x hx
  obtain ⟨i, hi, rfl⟩ := List.mem_map.1 hx
  unfold lastJournal at e
  have := List.find?_eq_none.1 e i (List.mem_reverse.2 hi)
  simpa using this

omit [UnicodeDB] in
theorem noJournal_iff {h : Heap} {c : List Nat} : (c.any fun i => (h.get i).ty = .journal) = true ↔ ¬ NoJournal (h.els c) := by
  rw [List.any_eq_true]
  constructor
  · rintro ⟨i, hi, e⟩ hn
    exact hn _ (List.mem_map_of_mem hi) (by simpa using e)
  · intro hn
    refine Classical.byContradiction fun hh => hn ?_
    intro x hx e
    obtain ⟨i, hi, rfl⟩ := List.mem_map.1 hx
    exact hh ⟨i, hi, by simpa using e⟩

/-- Only elements that are no texts are shared. -/
def NoSharedText (h : Heap) (c d : List Nat) : Prop := ∀ i ∈ c, i ∈ d → (h.get i).ty ≠ .misc

/-- The step for one citation. -/
theorem ibidStep_spec {prev : List Nat} {h h' : Heap} {c c' : List Nat} (hc : ∀ i ∈ c, i < h.next) (hnd : c.Nodup)
    (hp : ∀ i ∈ prev, i < h.next) (e : ibidStep (lastJournal h prev) h c = .ok (h', c')) :
    h.next ≤ h'.next ∧ (∀ i ∈ c', i ∈ c ∨ h.next ≤ i ∧ i < h'.next) ∧
    (∀ i, i < h.next → (i ∉ c ∨ (h.get i).ty ≠ .misc) → h'.get i = h.get i) ∧
    (∀ i, i < h.next → (h'.get i).ty = (h.get i).ty) ∧
    (((NoJournal (h.els prev) ∨ ¬ NoJournal (h.els c)) ∧ h'.els c' = h.els c) ∨
     ∃ j es new, LastJournal (h.els prev) j ∧ NoJournal (h.els c) ∧ Continued j (h.els c) es new ∧ h'.els c' = es ++ new) := by
  have same : (h, c) = (h', c') → (NoJournal (h.els prev) ∨ ¬ NoJournal (h.els c)) →
      h.next ≤ h'.next ∧ (∀ i ∈ c', i ∈ c ∨ h.next ≤ i ∧ i < h'.next) ∧
    (∀ i, i < h.next → (i ∉ c ∨ (h.get i).ty ≠ .misc) → h'.get i = h.get i) ∧
    (∀ i, i < h.next → (h'.get i).ty = (h.get i).ty) ∧
    (((NoJournal (h.els prev) ∨ ¬ NoJournal (h.els c)) ∧ h'.els c' = h.els c) ∨
     ∃ j es new, LastJournal (h.els prev) j ∧ NoJournal (h.els c) ∧ Continued j (h.els c) es new ∧ h'.els c' = es ++ new) := by
    intro hh hn
    simp only [Prod.mk.injEq] at hh
    obtain ⟨rfl, rfl⟩ := hh
    exact ⟨Nat.le_refl _, fun i hi => .inl hi, fun _ _ _ => rfl, fun _ _ => rfl, .inl ⟨hn, rfl⟩⟩
  unfold ibidStep at e
  cases hl : lastJournal h prev with
  | none =>
    rw [hl] at e
    exact same (pure_ok e) (.inl (lastJournal_none hl))
  | some j =>
    rw [hl] at e
    dsimp only at e
    obtain ⟨hjm, hjt, hjl⟩ := lastJournal_some hl
    split at e
    · rename_i ha
      exact same (pure_ok e) (.inr (noJournal_iff.1 ha))
    · rename_i ha
      obtain ⟨⟨h1, new⟩, e1, e⟩ := bind_ok e
      have := pure_ok e
      simp only [Prod.mk.injEq] at this
      obtain ⟨rfl, rfl⟩ := this
      obtain ⟨l, k1, k2, k3, k4, k5, k6⟩ := ibidLoop_spec hc hnd (hp j hjm) hjt e1
      rw [List.nil_append] at k1
      subst k1
      refine ⟨k3, ?_, k4, k5, .inr ⟨h.get j, h1.els c, h1.els new, hjl, ?_, k6, by simp [Heap.els]⟩⟩
      · intro i hi
        rcases List.mem_append.1 hi with hi | hi
        · exact .inl hi
        · exact .inr (k2 i hi)
      · exact Classical.not_not.1 fun hn => ha (noJournal_iff.2 hn)

/-- What `look_for_implied_ibids` does to the citations. -/
theorem impliedIbids_spec {cs : List (List Nat)} : ∀ {prev : List Nat} {h h' : Heap} {cs' : List (List Nat)},
    (∀ c ∈ cs, WF h c) → cs.Pairwise (NoSharedText h) → (∀ i ∈ prev, i < h.next) →
    impliedIbids (lastJournal h prev) h cs = .ok (h', cs') →
    h.next ≤ h'.next ∧
    (∀ i, i < h.next → ((∀ c ∈ cs, i ∉ c) ∨ (h.get i).ty ≠ .misc) → h'.get i = h.get i) ∧
    Completed (h.els prev) (cs.map h.els) (cs'.map h'.els) := by
  induction cs with
  | nil =>
    intro prev h h' cs' _ _ _ e
    simp only [impliedIbids, Except.ok.injEq, Prod.mk.injEq] at e
    obtain ⟨rfl, rfl⟩ := e
    exact ⟨Nat.le_refl _, fun _ _ _ => rfl, .nil⟩
  | cons c cs ih =>
    intro prev h h' cs' w sh hp e
    simp only [impliedIbids] at e
    obtain ⟨⟨h1, c1⟩, e1, e''⟩ := bind_ok e
    clear e
    obtain ⟨⟨h2, cs1⟩, e2, e3⟩ := bind_ok e''
    have := pure_ok e3
    clear e3 e''
    simp only [Prod.mk.injEq] at this
    obtain ⟨rfl, rfl⟩ := this
    have wc := w c (by simp)
    obtain ⟨shc, shs⟩ := List.pairwise_cons.1 sh
    obtain ⟨n1, m1, f1, t1, s1⟩ := ibidStep_spec wc.lt wc.nodup hp e1
    have ws : ∀ d ∈ cs, WF h d := fun d hd => w d (by simp [hd])
    have sh1 : cs.Pairwise (NoSharedText h1) := by
      refine List.Pairwise.imp_of_mem ?_ shs
      intro a b ha hb hab i hi hi'
      rw [t1 i ((ws a ha).lt i hi)]
      exact hab i hi hi'
    have e2' : impliedIbids (lastJournal h1 c1) h1 cs = .ok (h2, cs1) := e2
    have lt1 : ∀ i ∈ c1, i < h1.next := by
      intro i hi
      rcases m1 i hi with h0 | h0
      · have := wc.lt i h0; omega
      · exact h0.2
    obtain ⟨n2, f2, s2⟩ := ih (fun d hd => (ws d hd).mono n1) sh1 lt1 e2'
    have els1 : h2.els c1 = h1.els c1 := by
      refine els_congr fun i hi => f2 i (lt1 i hi) ?_
      rcases m1 i hi with h0 | h0
      · by_cases hm : ∀ d ∈ cs, i ∉ d
        · exact .inl hm
        · right
          rw [t1 i (wc.lt i h0)]
          obtain ⟨d, hd⟩ := Classical.not_forall.1 hm
          obtain ⟨hd, hi'⟩ := Classical.not_imp.1 hd
          exact shc d hd i h0 (Classical.not_not.1 hi')
      · exact .inl fun d hd hi' => by have := (ws d hd).lt i hi'; omega
    have elsC : cs.map h1.els = cs.map h.els := by
      refine List.map_congr_left fun d hd => els_congr fun i hi => f1 i ((ws d hd).lt i hi) ?_
      by_cases hm : i ∈ c
      · exact .inr (shc d hd i hm hi)
      · exact .inl hm
    refine ⟨by omega, ?_, ?_⟩
    · intro i hi hc
      have hc1 : i ∉ c ∨ (h.get i).ty ≠ .misc := hc.imp (fun k => k c (by simp)) id
      rw [f2 i (by omega), f1 i hi hc1]
      rcases hc with k | k
      · exact .inl fun d hd => k d (by simp [hd])
      · exact .inr (by rw [t1 i hi]; exact k)
    · simp only [List.map_cons]
      rw [elsC] at s2
      rw [els1]
      rcases s1 with ⟨k1, k2⟩ | ⟨j, es, new, k1, k2, k3, k4⟩
      · rw [k2] at s2 ⊢
        exact .kept k1 s2
      · rw [k4] at s2 ⊢
        exact .completed k1 k2 k3 s2

end Ibids

/-! ### Later steps -/

/-- The part of an element that later steps keep. -/
def viewOf (p : Kind → Bool) (e : El) : Option El := if p e.ty then some (bare e) else none

theorem ofKinds_view (p : Kind → Bool) (es : List El) : ofKinds p es = es.filterMap (viewOf p) := by
  unfold ofKinds
  induction es with
  | nil => rfl
  | cons e es ih =>
    rw [List.filterMap_cons, List.filter_cons]
    unfold viewOf at ih ⊢
    cases p e.ty with
    | true => simp only [if_true, List.map_cons, ih]
    | false => simp only [Bool.false_eq_true, if_false, ih]

/-- Kinds left alone by later steps. -/
structure Untouched (p : Kind → Bool) : Prop where
  auth : p .auth = false
  misc : p .misc = false
  doi : p .doi = false
  collaboration : p .collaboration = false
  year : p .year = false
  recid : p .recid = false

/-- The elements in use keep what is asked for. -/
def SameView (p : Kind → Bool) (h h' : Heap) : Prop :=
  h.next ≤ h'.next ∧ ∀ i < h.next, viewOf p (h'.get i) = viewOf p (h.get i)

theorem SameView.refl (p : Kind → Bool) (h : Heap) : SameView p h h := ⟨Nat.le_refl _, fun _ _ => rfl⟩

theorem SameView.trans {p : Kind → Bool} {a b c : Heap} (h1 : SameView p a b) (h2 : SameView p b c) : SameView p a c :=
  ⟨Nat.le_trans h1.1 h2.1, fun i hi => (h2.2 i (Nat.lt_of_lt_of_le hi h1.1)).trans (h1.2 i hi)⟩

theorem SameView.set {p : Kind → Bool} {h : Heap} {i : Nat} {e : El} (he : viewOf p e = viewOf p (h.get i)) :
    SameView p h (h.set i e) := by
  refine ⟨Nat.le_refl _, fun j _ => ?_⟩
  simp only [Heap.set]
  split
  · rename_i hj; rw [hj]; exact he
  · rfl

theorem SameView.alloc (p : Kind → Bool) (h : Heap) (e : El) : SameView p h (h.alloc e).1 := by
  refine ⟨Nat.le_succ _, fun j hj => ?_⟩
  simp only [Heap.alloc]
  rw [if_neg (Nat.ne_of_lt hj)]

theorem SameView.els {p : Kind → Bool} {h h' : Heap} (s : SameView p h h') {c : List Nat} (hc : ∀ i ∈ c, i < h.next) :
    ofKinds p (h'.els c) = ofKinds p (h.els c) := by
  rw [ofKinds_view, ofKinds_view]
  unfold Heap.els
  rw [List.filterMap_map, List.filterMap_map]
  induction c with
  | nil => rfl
  | cons i c ih =>
    rw [List.filterMap_cons, List.filterMap_cons, ih fun x hx => hc x (by simp [hx])]
    simp only [Function.comp, s.2 i (hc i (by simp))]

theorem viewOf_misc (p : Kind → Bool) (e : El) (m : Str) : viewOf p { e with misc := m } = viewOf p e := rfl

theorem viewOf_recid (p : Kind → Bool) (e : El) (r : Option (Option RecId)) : viewOf p { e with recid := r } = viewOf p e := rfl

theorem viewOf_none {p : Kind → Bool} {e : El} (h : p e.ty = false) : viewOf p e = none := by
  unfold viewOf; rw [h]; rfl

theorem ofKinds_append (p : Kind → Bool) (a b : List El) : ofKinds p (a ++ b) = ofKinds p a ++ ofKinds p b := by
  simp [ofKinds]

/-- A step on a citation keeps what is asked for. -/
def StepView (p : Kind → Bool) (f : Heap → List Nat → Py (Heap × List Nat)) : Prop :=
  ∀ h c h' c', WF h c → f h c = .ok (h', c') → WF h' c' ∧ SameView p h h' ∧ ofKinds p (h'.els c') = ofKinds p (h.els c)

theorem eachCit_view {p : Kind → Bool} {f : Heap → List Nat → Py (Heap × List Nat)} (hf : StepView p f) {cs : List (List Nat)} :
    ∀ {h h' : Heap} {cs' : List (List Nat)}, (∀ c ∈ cs, WF h c) → eachCit f h cs = .ok (h', cs') →
    (∀ c ∈ cs', WF h' c) ∧ SameView p h h' ∧ cs'.map (fun c => ofKinds p (h'.els c)) = cs.map (fun c => ofKinds p (h.els c)) := by
  induction cs with
  | nil =>
    intro h h' cs' w e
    simp only [eachCit, Except.ok.injEq, Prod.mk.injEq] at e
    obtain ⟨rfl, rfl⟩ := e
    exact ⟨by simp, .refl _ _, rfl⟩
  | cons c cs ih =>
    intro h h' cs' w e
    obtain ⟨h1, c1, cs1, e1, e2, rfl⟩ := eachCit_cons e
    obtain ⟨w1, s1, v1⟩ := hf _ _ _ _ (w c (by simp)) e1
    have ws : ∀ x ∈ cs, WF h x := fun x hx => w x (by simp [hx])
    obtain ⟨w2, s2, v2⟩ := ih (fun x hx => (ws x hx).mono s1.1) e2
    refine ⟨?_, s1.trans s2, ?_⟩
    · intro x hx
      rcases List.mem_cons.1 hx with rfl | hx
      · exact w1.mono s2.1
      · exact w2 x hx
    · simp only [List.map_cons]
      rw [v2, s2.els w1.lt, v1]
      congr 1
      exact List.map_congr_left fun x hx => s1.els (ws x hx).lt

section Steps
variable [UnicodeDB] {p : Kind → Bool}

theorem removeYear_view (y : Str) (c : List Nat) : ∀ (h : Heap), SameView p h (removeYearLoop y h c) := by
  induction c with
  | nil => intro h; exact .refl _ _
  | cons i c ih =>
    intro h
    simp only [removeYearLoop]
    refine SameView.trans ?_ (ih _)
    split
    · exact .set (viewOf_misc _ _ _)
    · exact .refl _ _

theorem addYear_view (u : Untouched p) : StepView p addYear := by
  intro h c h' c' w e
  have wf := (addYear_ok (P := fun _ => True) ⟨fun _ _ => trivial, fun _ _ _ => trivial, fun _ _ _ => trivial⟩).wf h c h' c' w e
  refine ⟨wf.1, ?_⟩
  unfold addYear at e
  obtain ⟨o, h1, e⟩ := bind_ok e
  cases o with
  | none =>
    have := pure_ok e
    simp only [Prod.mk.injEq] at this
    obtain ⟨rfl, rfl⟩ := this
    exact ⟨.refl _ _, rfl⟩
  | some y =>
    have := pure_ok e
    simp only [Prod.mk.injEq] at this
    obtain ⟨rfl, rfl⟩ := this
    have s := SameView.trans (SameView.alloc p h { ty := .year, misc := [], year := some (some y) }) (removeYear_view y (c ++ [(h.alloc { ty := .year, misc := [], year := some (some y) }).2]) _)
    refine ⟨s, ?_⟩
    have s2 := (removeYear_view (p := p) y (c ++ [h.next]) (h.alloc { ty := .year, misc := [], year := some (some y) }).1).els
      (c := c ++ [h.next]) (by
        intro i hi
        rcases List.mem_append.1 hi with hi | hi
        · exact Nat.lt_succ_of_lt (w.lt i hi)
        · rw [List.mem_singleton.1 hi]; exact Nat.lt_succ_self _)
    refine Eq.trans s2 ?_
    have : (h.alloc { ty := .year, misc := [], year := some (some y) }).1.els (c ++ [h.next]) =
        (h.alloc { ty := .year, misc := [], year := some (some y) }).1.els c ++ [{ ty := .year, misc := [], year := some (some y) }] := by
      simp [Heap.els, Heap.alloc]
    rw [this, ofKinds_append, (SameView.alloc p h _).els w.lt]
    simp [ofKinds, u.year]

theorem bookSearch_view (hb : p .book = false) {books : Books} {y : Val} {c : List Nat} {is : List Nat} :
    ∀ {h h' : Heap} {c' : List Nat}, WF h c → (∀ i ∈ is, i ∈ c) → bookSearch books y h c is = .ok (h', c') →
    SameView p h h' ∧ ofKinds p (h'.els c') = ofKinds p (h.els c) := by
  induction is with
  | nil =>
    intro h h' c' _ _ e
    simp only [bookSearch, Except.ok.injEq, Prod.mk.injEq] at e
    obtain ⟨rfl, rfl⟩ := e
    exact ⟨.refl _ _, rfl⟩
  | cons i is ih =>
    intro h h' c' w hi e
    simp only [bookSearch] at e
    obtain ⟨o, h1, e⟩ := bind_ok e
    cases o with
    | none => exact ih w (fun x hx => hi x (by simp [hx])) e
    | some q =>
      obtain ⟨b, misc⟩ := q
      have := pure_ok e
      simp only [Prod.mk.injEq] at this
      obtain ⟨rfl, rfl⟩ := this
      have hbt := bookInMisc_ty h1
      have hic := w.lt i (hi i (by simp))
      have s1 := SameView.alloc p h b
      have s2 : SameView p (h.alloc b).1 ((h.alloc b).1.set i { h.get i with misc := misc }) := by
        refine .set ?_
        rw [viewOf_misc]
        simp only [Heap.alloc]
        rw [if_neg (Nat.ne_of_lt hic)]
      refine ⟨s1.trans s2, ?_⟩
      refine Eq.trans (s2.els (c := c ++ [h.next]) ?_) ?_
      · intro x hx
        rcases List.mem_append.1 hx with hx | hx
        · exact Nat.lt_succ_of_lt (w.lt x hx)
        · rw [List.mem_singleton.1 hx]; exact Nat.lt_succ_self _
      · have : (h.alloc b).1.els (c ++ [h.next]) = (h.alloc b).1.els c ++ [b] := by simp [Heap.els, Heap.alloc]
        rw [this, ofKinds_append, s1.els w.lt]
        simp [ofKinds, hbt, hb]

theorem undetectedBooks_view (hb : p .book = false) (books : Books) : StepView p (undetectedBooks books) := by
  intro h c h' c' w e
  have wf := (undetectedBooks_ok (P := fun _ => True) ⟨fun _ _ => trivial, fun _ _ _ => trivial, fun _ _ _ => trivial⟩ books).wf h c h' c' w e
  refine ⟨wf.1, ?_⟩
  unfold undetectedBooks at e
  split at e
  · obtain ⟨y, -, e⟩ := bind_ok e
    exact bookSearch_view hb w (fun _ h => h) e
  · have := pure_ok e
    simp only [Prod.mk.injEq] at this
    obtain ⟨rfl, rfl⟩ := this
    exact ⟨.refl _ _, rfl⟩

omit [UnicodeDB] in
theorem associate_view (l : Linker) : StepView p (associateCit l) := by
  intro h c h' c' w e
  have wf := (associateCit_ok (P := fun _ => True) ⟨fun _ _ => trivial, fun _ _ _ => trivial, fun _ _ _ => trivial⟩ l).wf h c h' c' w e
  refine ⟨wf.1, ?_⟩
  unfold associateCit at e
  obtain ⟨g, h1, e⟩ := bind_ok e
  have := pure_ok e
  simp only [Prod.mk.injEq] at this
  obtain ⟨rfl, rfl⟩ := this
  have key : ∀ (is : List Nat) (h g : Heap), associateLoop l h is = .ok g → SameView p h g := by
    intro is
    induction is with
    | nil => intro h g e; cases e; exact .refl _ _
    | cons i is ih =>
      intro h g e
      simp only [associateLoop] at e
      obtain ⟨x, h1, e⟩ := bind_ok e
      obtain ⟨r, rfl⟩ := associate1_eq h1
      exact SameView.trans (.set (viewOf_recid _ _ _)) (ih _ _ e)
  exact ⟨key _ _ _ h1, (key _ _ _ h1).els w.lt⟩

omit [UnicodeDB] in
theorem dupAuthors_view (u : Untouched p) : StepView p dupAuthorsCit := by
  intro h c h' c' w e
  unfold dupAuthorsCit at e
  obtain ⟨g, h1, e⟩ := bind_ok e
  have := pure_ok e
  simp only [Prod.mk.injEq] at this
  obtain ⟨rfl, rfl⟩ := this
  have f := dupAuthors_fewer h1
  have s : SameView p h g := by
    refine ⟨Nat.le_of_eq f.1.symm, fun i _ => ?_⟩
    rcases f.2 i with e | ⟨e1, e2⟩
    · rw [e]
    · rw [viewOf_none (by rw [e2]; exact u.misc), viewOf_none (by rw [e1]; exact u.auth)]
  exact ⟨w.mono s.1, s, s.els w.lt⟩

omit [UnicodeDB] in
theorem ofKinds_filter {k : Kind} (hk : p k = false) (es : List El) : ofKinds p (es.filter (·.ty ≠ k)) = ofKinds p es := by
  unfold ofKinds
  rw [List.filter_filter]
  congr 1
  refine List.filter_congr fun e _ => ?_
  by_cases h : e.ty = k
  · rw [h, hk]; rfl
  · simp [h]

omit [UnicodeDB] in
theorem dupDois_view (u : Untouched p) : StepView p dupDoisCit := by
  intro h c h' c' w e
  unfold dupDoisCit at e
  simp only [Except.ok.injEq, Prod.mk.injEq] at e
  obtain ⟨rfl, rfl⟩ := e
  have sub := dupDois_sublist h false c c
  refine ⟨⟨sub.nodup w.nodup, fun i hi => w.lt i (sub.subset hi)⟩, .refl _ _, ?_⟩
  rw [← ofKinds_filter u.doi (h.els (dupDois h false c c)), ← ofKinds_filter u.doi (h.els c), (dupDois_spec h c).1]

omit [UnicodeDB] in
theorem dupCollabs_view (u : Untouched p) : StepView p dupCollabsCit := by
  intro h c h' c' w e
  unfold dupCollabsCit at e
  obtain ⟨g, h1, e⟩ := bind_ok e
  have := pure_ok e
  simp only [Prod.mk.injEq] at this
  obtain ⟨rfl, rfl⟩ := this
  have sub := dupCollabs_sublist h1
  refine ⟨⟨sub.nodup w.nodup, fun i hi => w.lt i (sub.subset hi)⟩, .refl _ _, ?_⟩
  rw [← ofKinds_filter u.collaboration (h.els g), ← ofKinds_filter u.collaboration (h.els c), (dupCollabs_spec h1).1]

omit [UnicodeDB] in
theorem addRecid_view (u : Untouched p) : StepView p addRecid := by
  intro h c h' c' w e
  unfold addRecid at e
  split at e
  · rename_i i hi
    simp only [Except.ok.injEq, Prod.mk.injEq] at e
    obtain ⟨rfl, rfl⟩ := e
    have s := SameView.alloc p h { ty := .recid, misc := [], recid := (h.get i).recid }
    refine ⟨w.alloc _, s, ?_⟩
    have : (h.alloc { ty := .recid, misc := [], recid := (h.get i).recid }).1.els (c ++ [h.next]) =
        (h.alloc { ty := .recid, misc := [], recid := (h.get i).recid }).1.els c ++ [{ ty := .recid, misc := [], recid := (h.get i).recid }] := by
      simp [Heap.els, Heap.alloc]
    refine Eq.trans (congrArg (ofKinds p) this) ?_
    rw [ofKinds_append, s.els w.lt]
    simp [ofKinds, u.recid]
  · simp only [Except.ok.injEq, Prod.mk.injEq] at e
    obtain ⟨rfl, rfl⟩ := e
    exact ⟨w, .refl _ _, rfl⟩

omit [UnicodeDB] in
theorem dedupe_view (u : Untouched p) {h h' : Heap} {cs cs' : List (List Nat)} (w : ∀ c ∈ cs, WF h c)
    (e : dedupe h cs = .ok (h', cs')) : cs'.map (fun c => ofKinds p (h'.els c)) = cs.map (fun c => ofKinds p (h.els c)) := by
  unfold dedupe at e
  obtain ⟨⟨h1, c1⟩, e1, k1⟩ := bind_ok e
  obtain ⟨w1, -, v1⟩ := eachCit_view (dupAuthors_view u) w e1
  obtain ⟨⟨h2, c2⟩, e2, k2⟩ := bind_ok k1
  obtain ⟨w2, -, v2⟩ := eachCit_view (dupDois_view u) w1 e2
  obtain ⟨⟨h3, c3⟩, e3, k3⟩ := bind_ok k2
  obtain ⟨w3, -, v3⟩ := eachCit_view (dupCollabs_view u) w2 e3
  obtain ⟨-, -, v4⟩ := eachCit_view (addRecid_view u) w3 k3
  rw [v4, v3, v2, v1]

/-- Everything after splitting: the citations are completed, and later steps keep what was found. -/
theorem post_completed (u : Untouched p) (hb : p .book = false) {special : List Str} {books : Books} {link : Option Linker} {els : List El}
    {cs : List (List El)} (e : postProcess special books link els = .ok cs) :
    ∃ els' mid, transformElements special books link els = .ok els' ∧
      Completed [] ((splitCitations els').map fun c => c.map (·.el)) mid ∧ cs.map (ofKinds p) = mid.map (ofKinds p) := by
  unfold postProcess at e
  obtain ⟨els', h1, k1⟩ := bind_ok e
  clear e
  dsimp only at k1
  obtain ⟨⟨h, c1⟩, h2, k2⟩ := bind_ok k1
  clear k1
  obtain ⟨⟨h', c2⟩, h3, k3⟩ := bind_ok k2
  clear k2
  have := pure_ok k3
  subst this
  unfold enrich at h2
  obtain ⟨⟨g1, d1⟩, e1, m1⟩ := bind_ok h2
  clear h2
  obtain ⟨⟨g2, d2⟩, e2, m2⟩ := bind_ok m1
  clear m1
  obtain ⟨⟨g3, d3⟩, e3, m3⟩ := bind_ok m2
  clear m2
  have w0 := heapOf_wf els'
  have wi := impliedIbids_ok (P := fun _ => True) ⟨fun _ _ => trivial, fun _ _ _ => trivial, fun _ _ _ => trivial⟩ (fun _ => trivial) w0 e1
  obtain ⟨-, w1, -⟩ := wi
  have sh : ((splitCitations els').map fun c => c.map (·.id)).Pairwise (NoSharedText (heapOf (splitCitations els'))) := by
    rw [List.pairwise_map]
    refine List.Pairwise.imp_of_mem ?_ (splitCitations_shared els')
    intro a b ha hb hab i hi hi'
    obtain ⟨o, ho, rfl⟩ := List.mem_map.1 hi
    obtain ⟨q, hq, e⟩ := List.mem_map.1 hi'
    obtain ⟨-, hau⟩ := hab o ho q hq e.symm
    rw [heapOf_get els' ha ho]
    have : o.el.ty = .auth := by simpa [Obj.isAuth] using hau
    rw [this]; simp
  obtain ⟨-, -, comp⟩ := impliedIbids_spec (prev := []) w0 sh (by simp) e1
  obtain ⟨w2, -, v2⟩ := eachCit_view (addYear_view u) w1 e2
  obtain ⟨w3, -, v3⟩ := eachCit_view (undetectedBooks_view hb books) w2 e3
  refine ⟨els', d1.map g1.els, h1, ?_, ?_⟩
  · have : ((splitCitations els').map fun c => c.map (·.id)).map (heapOf (splitCitations els')).els =
        (splitCitations els').map fun c => c.map (·.el) := by
      rw [List.map_map]
      exact List.map_congr_left fun c hc => heapOf_els els' hc
    rw [this] at comp
    exact comp
  · rw [List.map_map, List.map_map]
    have fin : ∀ {a : Heap} {b : List (List Nat)}, (∀ c ∈ b, WF a c) → dedupe a b = .ok (h', c2) →
        b.map (fun c => ofKinds p (a.els c)) = d3.map (fun c => ofKinds p (g3.els c)) →
        c2.map (ofKinds p ∘ h'.els) = d1.map (ofKinds p ∘ g1.els) := by
      intro a b wb eb vb
      have := dedupe_view u wb eb
      exact this.trans (vb.trans (v3.trans v2))
    cases link with
    | none =>
      have := pure_ok m3
      simp only [Prod.mk.injEq] at this
      obtain ⟨rfl, rfl⟩ := this
      exact fin w3 h3 rfl
    | some l =>
      obtain ⟨w4, -, v4⟩ := eachCit_view (associate_view l) w3 m3
      exact fin w4 h3 v4

end Steps

end Py
