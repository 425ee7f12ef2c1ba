import Verif.Lemmas.Parse
import Verif.Lemmas.Find

/-!
# Lemmas about parsing arbitrary lines
-/

open Spec
open scoped List

namespace Py

variable [UnicodeDB]

/-! ### Numeration is part of the text -/

omit [UnicodeDB] in
theorem sub_of_steps {a b c : Str} (h : b <+ c) : b <+ a ++ c := h.trans (List.sublist_append_right a c)

/-- What the numeration pattern captures is in the text it matches, in order. -/
theorem run_tail_sub {s t : St} (h : t ∈ run numTail s) (h0 : s.cap G.yr = none) :
    ∃ w v y p, s.post = w ++ t.post ∧ t.cap G.vol = some v ∧ t.cap G.yr = y ∧ t.cap G.pg = some p ∧
      t.cap G.series = s.cap G.series ∧ v ++ (y.getD [] ++ p) <+ w := by
  unfold numTail at h
  obtain ⟨s1, w1, p1, h⟩ := run_seq_step h
  obtain ⟨s2, w2, p2, c2, h⟩ := run_group_step h
  obtain ⟨s3, w3, p3, h⟩ := run_seq_step h
  obtain ⟨s4, w4, p4, h⟩ := run_seq_step h
  obtain ⟨s5, hs5, h⟩ := run_seq.1 h
  obtain ⟨s6, w6, p6, h⟩ := run_seq_step h
  obtain ⟨s7, w7, p7, h⟩ := run_seq_step h
  obtain ⟨s8, w8, p8, c8, h⟩ := run_group_step h
  obtain ⟨w9, p9⟩ := run_step h
  have cvol : t.cap G.vol = s5.cap G.vol := by
    rw [p9.cap _ (by decide), p8.cap _ (by decide), p7.cap _ (by decide), p6.cap _ (by decide)]
  have cyr : t.cap G.yr = s5.cap G.yr := by
    rw [p9.cap _ (by decide), p8.cap _ (by decide), p7.cap _ (by decide), p6.cap _ (by decide)]
  have cser : t.cap G.series = s5.cap G.series := by
    rw [p9.cap _ (by decide), p8.cap _ (by decide), p7.cap _ (by decide), p6.cap _ (by decide)]
  have cpg : t.cap G.pg = some w8 := by rw [p9.cap _ (by decide), c8]
  have cvol4 : s4.cap G.vol = some w2 := by rw [p4.cap _ (by decide), p3.cap _ (by decide), c2]
  have cyr4 : s4.cap G.yr = none := by
    rw [p4.cap _ (by decide), p3.cap _ (by decide), p2.cap _ (by decide), p1.cap _ (by decide), h0]
  have cser4 : s4.cap G.series = s.cap G.series := by
    rw [p4.cap _ (by decide), p3.cap _ (by decide), p2.cap _ (by decide), p1.cap _ (by decide)]
  have hend : s5.post = w6 ++ (w7 ++ (w8 ++ (w9 ++ t.post))) := by rw [p6.post, p7.post, p8.post, p9.post]
  have hstart : s.post = w1 ++ (w2 ++ (w3 ++ (w4 ++ s4.post))) := by rw [p1.post, p2.post, p3.post, p4.post]
  rw [Re.opt, run_alt] at hs5
  rcases hs5 with hs5 | hs5
  · obtain ⟨u1, x1, q1, hs5⟩ := run_seq_step hs5
    obtain ⟨u2, x2, q2, d2, hs5⟩ := run_group_step hs5
    obtain ⟨x3, q3⟩ := run_step hs5
    refine ⟨w1 ++ (w2 ++ (w3 ++ (w4 ++ (x1 ++ (x2 ++ (x3 ++ (w6 ++ (w7 ++ (w8 ++ w9))))))))), w2, some x2, w8, ?_, ?_, ?_, cpg, ?_, ?_⟩
    · rw [hstart, q1.post, q2.post, q3.post, hend]; simp
    · rw [cvol, q3.cap _ (by decide), q2.cap _ (by decide), q1.cap _ (by decide), cvol4]
    · rw [cyr, q3.cap _ (by decide), d2]
    · rw [cser, q3.cap _ (by decide), q2.cap _ (by decide), q1.cap _ (by decide), cser4]
    · refine sub_of_steps (List.Sublist.append (List.Sublist.refl w2) (sub_of_steps (sub_of_steps (sub_of_steps ?_))))
      exact List.Sublist.append (List.Sublist.refl x2) (sub_of_steps (sub_of_steps (sub_of_steps (List.sublist_append_left _ _))))
  · have hs : s5 = s4 := by simpa [run] using hs5
    subst hs
    refine ⟨w1 ++ (w2 ++ (w3 ++ (w4 ++ (w6 ++ (w7 ++ (w8 ++ w9)))))), w2, none, w8, ?_, by rw [cvol, cvol4], by rw [cyr, cyr4], cpg, by rw [cser, cser4], ?_⟩
    · rw [hstart, hend]; simp
    · refine sub_of_steps (List.Sublist.append (List.Sublist.refl w2) (sub_of_steps (sub_of_steps (sub_of_steps (sub_of_steps ?_)))))
      exact List.sublist_append_left _ _

theorem match_sub {m : Match} {line : Str} (h : search Rx.re_recognised_numeration_title_plus_series line = some m) :
    ∃ rest, line = m.txt ++ rest ∧ m.start = 0 ∧ seriesVolume m ++ (m.tgroup G.yr ++ m.tgroup G.pg) <+ m.txt := by
  rw [re_recognised_eq, search_bos, reMatch] at h
  obtain ⟨t, ht, h1, -, h2, h3⟩ := matchHere_cap h
  obtain ⟨s1, w1, p1, ht⟩ := run_seq_step ht
  obtain ⟨s2, w2, p2, ht⟩ := run_seq_step ht
  obtain ⟨s3, w3, p3, ht⟩ := run_seq_step ht
  obtain ⟨s4, w4, p4, ht⟩ := run_seq_step ht
  obtain ⟨s5, w5, p5, ht⟩ := run_seq_step ht
  have e5 : line = w1 ++ (w2 ++ (w3 ++ (w4 ++ (w5 ++ s5.post)))) := by
    rw [← p5.post, ← p4.post, ← p3.post, ← p2.post, ← p1.post]
  have cs0 : ∀ g, s5.cap g = none := by
    intro g
    rw [p5.cap _ (by simp [Re.opt, Re.groups, Re.space]), p4.cap _ (by simp [Re.groups, Re.space]), p3.cap _ (by simp [Re.opt, Re.groups]),
      p2.cap _ (by simp [Re.groups, Re.space]), p1.cap _ (by simp [Re.groups])]
    rfl
  refine ⟨t.post, h1, h2, ?_⟩
  rcases run_optGroup ht with ⟨s6, w6, p6, c6, ht⟩ | ht
  · obtain ⟨s7, w7, p7, ht⟩ := run_seq_step ht
    obtain ⟨s8, w8, p8, ht⟩ := run_seq_step ht
    obtain ⟨s9, w9, p9, ht⟩ := run_seq_step ht
    obtain ⟨w, v, y, p, f1, f2, f3, f4, f5, f6⟩ := run_tail_sub ht
      (by rw [p9.cap _ (by decide), p8.cap _ (by decide), p7.cap _ (by decide), p6.cap _ (by decide), cs0])
    have hser : t.cap G.series = some w6 := by rw [f5, p9.cap _ (by decide), p8.cap _ (by decide), p7.cap _ (by decide), c6]
    have htxt : m.txt = w1 ++ (w2 ++ (w3 ++ (w4 ++ (w5 ++ (w6 ++ (w7 ++ (w8 ++ (w9 ++ w)))))))) := by
      rw [h1, p6.post, p7.post, p8.post, p9.post, f1] at e5
      simp only [← List.append_assoc] at e5 ⊢
      exact List.append_cancel_right e5
    rw [htxt]
    simp only [seriesVolume, Match.tgroup, h3, hser, f2, f3, f4, Option.getD_some]
    rw [List.append_assoc]
    refine sub_of_steps (sub_of_steps (sub_of_steps (sub_of_steps (sub_of_steps (List.Sublist.append (List.Sublist.refl w6) ?_)))))
    exact sub_of_steps (sub_of_steps (sub_of_steps f6))
  · obtain ⟨s7, w7, p7, ht⟩ := run_seq_step ht
    obtain ⟨s8, w8, p8, ht⟩ := run_seq_step ht
    obtain ⟨s9, w9, p9, ht⟩ := run_seq_step ht
    obtain ⟨w, v, y, p, f1, f2, f3, f4, f5, f6⟩ := run_tail_sub ht
      (by rw [p9.cap _ (by decide), p8.cap _ (by decide), p7.cap _ (by decide), cs0])
    have hser : t.cap G.series = none := by rw [f5, p9.cap _ (by decide), p8.cap _ (by decide), p7.cap _ (by decide), cs0]
    have htxt : m.txt = w1 ++ (w2 ++ (w3 ++ (w4 ++ (w5 ++ (w7 ++ (w8 ++ (w9 ++ w))))))) := by
      rw [h1, p7.post, p8.post, p9.post, f1] at e5
      simp only [← List.append_assoc] at e5 ⊢
      exact List.append_cancel_right e5
    rw [htxt]
    simp only [seriesVolume, Match.tgroup, h3, hser, f2, f3, f4, Option.getD_some]
    exact sub_of_steps (sub_of_steps (sub_of_steps (sub_of_steps (sub_of_steps (sub_of_steps (sub_of_steps (sub_of_steps f6)))))))

/-- The same for numeration without a title. -/
theorem extra_sub {m : Match} {line : Str} (h : reMatch Rx.re_numeration_no_ibid_txt line = some m) :
    ∃ rest, line = m.txt ++ rest ∧ m.start = 0 ∧ m.txt ≠ [] ∧ seriesVolume m ++ ((m.group G.yr).getD [] ++ m.tgroup G.pg) <+ m.txt := by
  obtain ⟨t, ht, h1, -, h2, h3⟩ := matchHere_cap h
  unfold Rx.re_numeration_no_ibid_txt at ht
  obtain ⟨s1, w1, p1, ht⟩ := run_seq_step ht
  obtain ⟨s2, w2, p2, ht⟩ := run_seq_step ht
  have tail : ∀ {s3 : St}, t ∈ run ((.star true (Re.space)) ⬝ (Re.opt (Re.ch ':')) ⬝ Re.space ⬝ (.str (py! "<cds.VOL>")) ⬝ (.group G.vol (Re.alts [Re.plus (Re.digit), (Re.plus (Re.digit)) ⬝ (Re.ch '-') ⬝ (Re.plus (Re.digit))])) ⬝ (.str (py! "</cds.VOL>")) ⬝ Re.space ⬝ (.str (py! "<cds.YR>(")) ⬝ (.group G.yr ((.set ⟨false, false, [.ch '1', .ch '2']⟩) ⬝ (Re.times 3 (Re.digit)))) ⬝ (.str (py! ")</cds.YR>")) ⬝ Re.space ⬝ (.str (py! "<cds.PG>")) ⬝ (.group G.pg ((Re.opt (.set ⟨false, false, [.ch 'R', .ch 'L']⟩)) ⬝ (Re.plus (Re.digit)) ⬝ (Re.opt (Re.ch 'c')))) ⬝ (.str (py! "</cds.PG>"))) s3 →
      ∃ w v y p, s3.post = w ++ t.post ∧ t.cap G.series = s3.cap G.series ∧ t.cap G.vol = some v ∧ t.cap G.yr = some y ∧
        t.cap G.pg = some p ∧ v ++ (y ++ p) <+ w ∧ w ≠ [] := by
    intro s3 ht
    obtain ⟨s4, w4, p4, ht⟩ := run_seq_step ht
    obtain ⟨s5, w5, p5, ht⟩ := run_seq_step ht
    obtain ⟨s6, w6, p6, ht⟩ := run_seq_step ht
    obtain ⟨s7, w7, p7, ht⟩ := run_seq_step ht
    obtain ⟨s8, w8, p8, c8, ht⟩ := run_group_step ht
    obtain ⟨s9, w9, p9, ht⟩ := run_seq_step ht
    obtain ⟨s10, w10, p10, ht⟩ := run_seq_step ht
    obtain ⟨s11, w11, p11, ht⟩ := run_seq_step ht
    obtain ⟨s12, w12, p12, c12, ht⟩ := run_group_step ht
    obtain ⟨s13, w13, p13, ht⟩ := run_seq_step ht
    obtain ⟨s14, w14, p14, ht⟩ := run_seq_step ht
    obtain ⟨s15, w15, p15, ht⟩ := run_seq_step ht
    obtain ⟨s16, w16, p16, c16, ht⟩ := run_group_step ht
    obtain ⟨w17, p17⟩ := run_step ht
    refine ⟨w4 ++ (w5 ++ (w6 ++ (w7 ++ (w8 ++ (w9 ++ (w10 ++ (w11 ++ (w12 ++ (w13 ++ (w14 ++ (w15 ++ (w16 ++ w17)))))))))))), w8, w12, w16, ?_, ?_, ?_, ?_, ?_, ?_, ?_⟩
    · rw [p4.post, p5.post, p6.post, p7.post, p8.post, p9.post, p10.post, p11.post, p12.post, p13.post, p14.post, p15.post, p16.post, p17.post]
      simp
    · rw [p17.cap _ (by decide), p16.cap _ (by decide), p15.cap _ (by decide), p14.cap _ (by decide), p13.cap _ (by decide),
        p12.cap _ (by decide), p11.cap _ (by decide), p10.cap _ (by decide), p9.cap _ (by decide), p8.cap _ (by decide),
        p7.cap _ (by decide), p6.cap _ (by decide), p5.cap _ (by decide), p4.cap _ (by decide)]
    · rw [p17.cap _ (by decide), p16.cap _ (by decide), p15.cap _ (by decide), p14.cap _ (by decide), p13.cap _ (by decide),
        p12.cap _ (by decide), p11.cap _ (by decide), p10.cap _ (by decide), p9.cap _ (by decide), c8]
    · rw [p17.cap _ (by decide), p16.cap _ (by decide), p15.cap _ (by decide), p14.cap _ (by decide), p13.cap _ (by decide), c12]
    · rw [p17.cap _ (by decide), c16]
    · refine sub_of_steps (sub_of_steps (sub_of_steps (sub_of_steps (List.Sublist.append (List.Sublist.refl w8) ?_))))
      refine sub_of_steps (sub_of_steps (sub_of_steps (List.Sublist.append (List.Sublist.refl w12) ?_)))
      exact sub_of_steps (sub_of_steps (sub_of_steps (List.sublist_append_left _ _)))
    · obtain rfl := sem_str.1 p7.sem
      simp
  refine ⟨t.post, h1, h2, ?_⟩
  have e2 : line = w1 ++ (w2 ++ s2.post) := by rw [← p2.post, ← p1.post]
  rcases run_optGroup ht with ⟨s3, w3, p3, c3, ht⟩ | ht
  · obtain ⟨w, v, y, p, f1, f2, f3, f4, f5, f6, f7⟩ := tail ht
    have htxt : m.txt = w1 ++ (w2 ++ (w3 ++ w)) := by
      rw [h1, p3.post, f1] at e2
      simp only [← List.append_assoc] at e2 ⊢
      exact List.append_cancel_right e2
    refine ⟨by rw [htxt]; simp [f7], ?_⟩
    rw [htxt]
    simp only [seriesVolume, Match.tgroup, h3, f2, c3, f3, f4, f5, Option.getD_some]
    rw [List.append_assoc]
    exact sub_of_steps (sub_of_steps (List.Sublist.append (List.Sublist.refl w3) f6))
  · obtain ⟨w, v, y, p, f1, f2, f3, f4, f5, f6, f7⟩ := tail ht
    have htxt : m.txt = w1 ++ (w2 ++ w) := by
      rw [h1, f1] at e2
      simp only [← List.append_assoc] at e2 ⊢
      exact List.append_cancel_right e2
    have hser : t.cap G.series = none := by
      rw [f2, p2.cap _ (by decide), p1.cap _ (by decide)]; rfl
    refine ⟨by rw [htxt]; simp [f7], ?_⟩
    rw [htxt]
    simp only [seriesVolume, Match.tgroup, h3, hser, f3, f4, f5, Option.getD_some]
    exact sub_of_steps (sub_of_steps f6)

/-! ### Steps -/

omit [UnicodeDB] in
theorem find_split {sub : Str} : ∀ {s : Str} {k : Nat}, find sub s = some k → ∃ a b, s = a ++ (sub ++ b) ∧ k = a.length
  | [], k, h => by
    unfold find at h
    split at h
    · next hs =>
      cases h
      have : sub = [] := by simpa using hs
      subst this
      exact ⟨[], [], rfl, rfl⟩
    · cases h
  | c :: s, k, h => by
    unfold find at h
    split at h
    · next hs =>
      cases h
      obtain ⟨r, hr⟩ := List.isPrefixOf_iff_prefix.1 hs
      exact ⟨[], r, hr.symm, rfl⟩
    · cases hf : find sub s with
      | none => rw [hf] at h; cases h
      | some j =>
        rw [hf] at h
        cases h
        obtain ⟨a, b, rfl, rfl⟩ := find_split hf
        exact ⟨c :: a, b, rfl, rfl⟩

omit [UnicodeDB] in
theorem findFrom_split {sub p b : Str} {i : Nat} (h : findFrom sub (p ++ b) p.length = some i) :
    ∃ t r, b = t ++ (sub ++ r) ∧ i = p.length + t.length := by
  unfold findFrom at h
  rw [if_pos (by simp), List.drop_left] at h
  cases hf : find sub b with
  | none => rw [hf] at h; cases h
  | some k =>
    rw [hf] at h
    cases h
    obtain ⟨t, r, rfl, rfl⟩ := find_split hf
    exact ⟨t, r, rfl, by simp [Nat.add_comm]⟩

/-- The text that an element holds together with the text still to come. -/
def stText (st : PState) : Str := st.els.flatMap elText ++ (st.misc ++ st.line)

/-- The DOI and the URL of an element. -/
def doiIn (e : El) : Option Str := e.doiString
@[inherit_doc doiIn]
def urlIn (e : El) : Option (Str × Str) := e.urlString.bind fun u => e.urlDesc.map fun d => (u, d)

/-- What a part of a step does: `b` is the text after the tag. -/
structure Keeps (b : Str) (st st' : PState) : Prop where
  line : st'.line <:+ b
  text : st'.els.flatMap elText ++ (st'.misc ++ st'.line) <+ st.els.flatMap elText ++ (st.misc ++ b)
  dois : ∃ used, st.dois = used ++ st'.dois ∧ st'.els.filterMap doiIn = st.els.filterMap doiIn ++ used
  urls : ∃ used, st.urls = used ++ st'.urls ∧ st'.els.filterMap urlIn = st.els.filterMap urlIn ++ used

omit [UnicodeDB] in
theorem keeps_drop {p b : Str} {st : PState} (hl : st.line = p ++ b) : Keeps b st { st with line := st.line.drop p.length } := by
  rw [hl, List.drop_left]
  exact ⟨List.suffix_refl _, List.Sublist.refl _, ⟨[], by simp⟩, ⟨[], by simp⟩⟩

omit [UnicodeDB] in
theorem keeps_el {b t c r : Str} {st : PState} {e : El} (n : Counts) (hb : b = t ++ (c ++ r)) (ht : elText e <+ st.misc ++ t)
    (hd : doiIn e = none) (hu : urlIn e = none) :
    Keeps b st { st with line := r, misc := [], els := st.els ++ [e], n := n } := by
  refine ⟨⟨t ++ c, by rw [hb]; simp⟩, ?_, ⟨[], by simp [hd]⟩, ⟨[], by simp [hu]⟩⟩
  simp only [List.flatMap_append, List.flatMap_cons, List.flatMap_nil, List.append_nil, List.nil_append, List.append_assoc]
  rw [hb]
  refine List.Sublist.append (List.Sublist.refl _) ?_
  rw [← List.append_assoc]
  exact List.Sublist.append ht (List.sublist_append_right _ _)

omit [UnicodeDB] in
theorem keeps_simple {tag p b : Str} {mk : Str → Str → El} {count : Counts → Counts} {st : PState} (hl : st.line = p ++ b)
    (h1 : ∀ x t, elText (mk x t) = x ++ t) (h2 : ∀ x t, doiIn (mk x t) = none) (h3 : ∀ x t, urlIn (mk x t) = none) :
    Keeps b st (simpleStep tag mk count p.length st) := by
  unfold simpleStep
  split
  · exact keeps_drop hl
  · next i hi =>
    rw [hl] at hi
    obtain ⟨t, r, hb, rfl⟩ := findFrom_split hi
    rw [hl, hb, slice_mid, drop_mid, ← hb]
    exact keeps_el _ hb (by rw [h1]; exact List.Sublist.refl _) (h2 _ _) (h3 _ _)

omit [UnicodeDB] in
theorem keeps_misc {tag p b : Str} {st : PState} (hl : st.line = p ++ b) : Keeps b st (miscStep tag p.length st) := by
  unfold miscStep
  split
  · exact keeps_drop hl
  · next i hi =>
    rw [hl] at hi
    obtain ⟨t, r, hb, rfl⟩ := findFrom_split hi
    rw [hl, hb, slice_mid, drop_mid]
    refine ⟨⟨t ++ closing tag, by simp⟩, ?_, ⟨[], by simp⟩, ⟨[], by simp⟩⟩
    simp only [List.append_assoc]
    exact List.Sublist.append (List.Sublist.refl _) (List.Sublist.append (List.Sublist.refl _)
      (List.Sublist.append (List.Sublist.refl _) (List.sublist_append_right _ _)))

omit [UnicodeDB] in
theorem keeps_subfield {tag p b : Str} {mk : Str → Str → El} {st : PState} (hl : st.line = p ++ b)
    (h1 : ∀ x t, elText (mk x t) = x ++ t) (h2 : ∀ x t, doiIn (mk x t) = none) (h3 : ∀ x t, urlIn (mk x t) = none) :
    Keeps b st (subfieldStep tag mk p.length st) := by
  unfold subfieldStep
  simp only [hl, List.drop_left]
  split
  · refine ⟨List.drop_suffix _ _, ?_, ⟨[], by simp⟩, ⟨[], by simp⟩⟩
    exact List.Sublist.append (List.Sublist.refl _) (List.Sublist.append (List.Sublist.refl _) (List.drop_sublist _ _))
  · next i hi =>
    obtain ⟨t, r, hb, rfl⟩ := find_split hi
    have e1 : b.take t.length = t := by rw [hb, List.take_left]
    have e2 : b.drop (t.length + (closing tag).length) = r := by
      rw [hb, ← List.append_assoc, List.drop_left' (by simp)]
    rw [e1, e2]
    exact keeps_el _ hb (by rw [h1]; exact List.Sublist.refl _) (h2 _ _) (h3 _ _)

theorem extra_keeps : ∀ {fuel : Nat} {title line rest : Str} {is : List Ibid}, extraIbids fuel title line = (rest, is) →
    rest <:+ line ∧ is.flatMap (fun i => i.volume ++ i.year.getD [] ++ i.page) ++ rest <+ line
  | 0, title, line, rest, is, h => by
    simp only [extraIbids, Prod.mk.injEq] at h
    obtain ⟨rfl, rfl⟩ := h
    exact ⟨List.suffix_refl _, by simp⟩
  | fuel + 1, title, line, rest, is, h => by
    rw [extraIbids] at h
    split at h
    · simp only [Prod.mk.injEq] at h
      obtain ⟨rfl, rfl⟩ := h
      exact ⟨List.suffix_refl _, by simp⟩
    · next m hm =>
      obtain ⟨r, e, h0, -, hs⟩ := extra_sub hm
      have hd : line.drop m.stop = r := by rw [e, Match.stop, h0, Nat.zero_add, List.drop_left]
      rw [hd] at h
      cases hx : extraIbids fuel [] r with
      | mk rest' more =>
        rw [hx] at h
        simp only [Prod.mk.injEq] at h
        obtain ⟨rfl, rfl⟩ := h
        obtain ⟨k1, k2⟩ := extra_keeps hx
        refine ⟨k1.trans ⟨m.txt, e.symm⟩, ?_⟩
        simp only [List.flatMap_cons, List.append_assoc]
        rw [e]
        have := List.Sublist.append hs k2
        simpa [List.append_assoc] using this

theorem keeps_journal {ibid : Bool} {b title c line : Str} {st : PState} (hb : b = title ++ (c ++ line)) :
    Keeps b st (journalStep ibid title line st) := by
  unfold journalStep
  split
  · refine ⟨⟨title ++ c, by rw [hb]; simp⟩, ?_, ⟨[], by simp⟩, ⟨[], by simp⟩⟩
    simp only [hb, List.append_assoc]
    exact List.Sublist.append (List.Sublist.refl _) (List.Sublist.append (List.Sublist.refl _)
      (List.Sublist.append (List.Sublist.refl _) (List.sublist_append_right _ _)))
  · next m hm =>
    obtain ⟨r, e, h0, hs⟩ := match_sub hm
    have hd : line.drop m.stop = r := by rw [e, Match.stop, h0, Nat.zero_add, List.drop_left]
    cases hx : extraIbids r.length title r with
    | mk rest is =>
      simp only [hd, hx]
      obtain ⟨⟨u, k1⟩, k2⟩ := extra_keeps hx
      refine ⟨⟨title ++ (c ++ (m.txt ++ u)), by rw [hb, e, ← k1]; simp⟩, ?_, ⟨[], by simp [doiIn]⟩, ⟨[], by simp [urlIn]⟩⟩
      simp only [List.flatMap_append, List.flatMap_cons, List.flatMap_nil, List.append_nil, List.nil_append, List.append_assoc,
        elText, Option.getD_some, Option.getD_none, hb, e]
      refine List.Sublist.append (List.Sublist.refl _) (List.Sublist.append (List.Sublist.refl _) (List.Sublist.append (List.Sublist.refl _) ?_))
      refine sub_of_steps ?_
      have := List.Sublist.append hs k2
      simpa [List.append_assoc] using this

omit [UnicodeDB] in
theorem ite_or {α : Type} {c : Prop} [Decidable c] {x y z : α} (h : (if c then x else y) = z) : (c ∧ x = z) ∨ (¬ c ∧ y = z) := by
  by_cases hc : c
  · exact .inl ⟨hc, by rwa [if_pos hc] at h⟩
  · exact .inr ⟨hc, by rwa [if_neg hc] at h⟩

/-- What a whole step does. -/
theorem tagStep_keeps {st st' : PState} {m : Match} {a b : Str} (hl : st.line = a ++ m.txt ++ b) (h1 : m.start = a.length)
    (h : tagStep st m = .ok st') : Keeps b { st with misc := st.misc ++ a } st' := by
  have hstop : m.stop = (a ++ m.txt).length := by rw [Match.stop, h1]; simp
  have htake : st.line.take m.start = a := by rw [hl, h1, List.append_assoc, List.take_left]
  unfold tagStep at h
  rw [htake, hstop] at h
  dsimp only at h
  rcases ite_or h with ⟨-, h⟩ | ⟨-, h⟩
  · split at h
    · cases h
      exact keeps_drop (st := { st with misc := st.misc ++ a }) hl
    · next i hi =>
      cases h
      simp only [hl] at hi
      obtain ⟨t, r, hb, rfl⟩ := findFrom_split hi
      simp only [hl, hb, slice_mid, drop_mid]
      exact keeps_journal rfl
  rcases ite_or h with ⟨-, h⟩ | ⟨-, h⟩
  · cases h; exact keeps_simple (st := { st with misc := st.misc ++ a }) hl (by simp [elText]) (by simp [doiIn]) (by simp [urlIn])
  rcases ite_or h with ⟨-, h⟩ | ⟨-, h⟩
  · cases h; exact keeps_simple (st := { st with misc := st.misc ++ a }) hl (by simp [elText]) (by simp [doiIn]) (by simp [urlIn])
  rcases ite_or h with ⟨-, h⟩ | ⟨-, h⟩
  · split at h
    · cases h
    · next u d us hu =>
      cases h
      simp only [hl, List.drop_left]
      refine ⟨List.suffix_refl _, ?_, ⟨[], by simp [doiIn]⟩, ⟨[(u, d)], by simpa using hu, by simp [urlIn]⟩⟩
      simp [elText]
  rcases ite_or h with ⟨-, h⟩ | ⟨-, h⟩
  · split at h
    · cases h
    · next d ds hd =>
      cases h
      simp only [hl, List.drop_left]
      refine ⟨List.suffix_refl _, ?_, ⟨[d], by simpa using hd, by simp [doiIn]⟩, ⟨[], by simp [urlIn]⟩⟩
      simp [elText]
  rcases ite_or h with ⟨-, h⟩ | ⟨-, h⟩
  · cases h; exact keeps_simple (st := { st with misc := st.misc ++ a }) hl (by simp [elText]) (by simp [doiIn]) (by simp [urlIn])
  rcases ite_or h with ⟨-, h⟩ | ⟨-, h⟩
  · cases h; exact keeps_misc (st := { st with misc := st.misc ++ a }) hl
  rcases ite_or h with ⟨-, h⟩ | ⟨-, h⟩
  · cases h; exact keeps_subfield (st := { st with misc := st.misc ++ a }) hl (by simp [elText]) (by simp [doiIn]) (by simp [urlIn])
  rcases ite_or h with ⟨-, h⟩ | ⟨-, h⟩
  · cases h; exact keeps_subfield (st := { st with misc := st.misc ++ a }) hl (by simp [elText]) (by simp [doiIn]) (by simp [urlIn])
  rcases ite_or h with ⟨-, h⟩ | ⟨-, h⟩
  · cases h; exact keeps_subfield (st := { st with misc := st.misc ++ a }) hl (by simp [elText]) (by simp [doiIn]) (by simp [urlIn])
  · cases h; exact keeps_subfield (st := { st with misc := st.misc ++ a }) hl (by simp [elText]) (by simp [doiIn]) (by simp [urlIn])

/-! ### The loop on arbitrary lines -/

/-- The parts of the line at a tag. -/
theorem search_parts {line : Str} {m : Match} (h : search Rx.re_tagged_citation line = some m) :
    ∃ a b, line = a ++ m.txt ++ b ∧ m.start = a.length ∧ OpenTag m.txt (m.tgroup 1) := by
  obtain ⟨a, b, e, hm, -⟩ := search_some (by decide) h
  obtain ⟨t, -, -, -, h2, -⟩ := matchHere_cap hm
  exact ⟨a, b, e, by simpa using h2, (match_openTag hm).1⟩

theorem step_shorter {st st' : PState} {m : Match} (h : search Rx.re_tagged_citation st.line = some m) (hs : tagStep st m = .ok st') :
    st'.line.length < st.line.length := by
  obtain ⟨a, b, e, h1, ho⟩ := search_parts h
  have k := (tagStep_keeps e h1 hs).line.length_le
  obtain ⟨x, hx, -⟩ := openTag_shape ho
  rw [e, hx]
  simp
  omega

theorem loop_ends : ∀ {fuel : Nat} {st : PState}, st.line.length ≤ fuel →
    (∀ fuel', st.line.length ≤ fuel' → tagLoop fuel' st = tagLoop fuel st) ∧
    (∀ st', tagLoop fuel st = .ok st' → search Rx.re_tagged_citation st'.line = none)
  | 0, st, hf => by
    have hnil : st.line = [] := List.eq_nil_of_length_eq_zero (Nat.le_zero.1 hf)
    have hn : search Rx.re_tagged_citation st.line = none := by
      rw [hnil]
      exact search_noTags (by
        intro a w b e name ho
        obtain ⟨x, rfl, -⟩ := openTag_shape ho
        simp at e)
    refine ⟨fun fuel' _ => ?_, ?_⟩
    · cases fuel' with
      | zero => rfl
      | succ n => show tagLoop (n + 1) st = .ok st; rw [tagLoop, hn]
    · intro st' h
      cases h
      exact hn
  | fuel + 1, st, hf => by
    cases hm : search Rx.re_tagged_citation st.line with
    | none =>
      have h0 : ∀ n, tagLoop n st = .ok st := by
        intro n
        cases n with
        | zero => rfl
        | succ n => rw [tagLoop, hm]
      refine ⟨fun fuel' _ => by rw [h0, h0], fun st' h => ?_⟩
      rw [h0] at h
      cases h
      exact hm
    | some m =>
      have h0 : ∀ n, tagLoop (n + 1) st = (tagStep st m >>= fun st => tagLoop n st) := by
        intro n
        rw [tagLoop, hm]
      have hpos : 0 < st.line.length := by
        obtain ⟨a, b, e, -, ho⟩ := search_parts hm
        obtain ⟨x, hx, -⟩ := openTag_shape ho
        rw [e, hx]
        simp
        omega
      rw [h0]
      cases hs : tagStep st m with
      | error e =>
        refine ⟨fun fuel' hf' => ?_, fun st' h => by cases h⟩
        cases fuel' with
        | zero => omega
        | succ n => rw [h0, hs]; rfl
      | ok st1 =>
        have hlt := step_shorter hm hs
        obtain ⟨k1, k2⟩ := loop_ends (fuel := fuel) (st := st1) (by omega)
        rw [okBind]
        refine ⟨fun fuel' hf' => ?_, k2⟩
        cases fuel' with
        | zero => omega
        | succ n => rw [h0, hs, okBind]; exact k1 n (by omega)

/-- What the whole loop keeps. -/
theorem loop_keeps : ∀ {fuel : Nat} {st st' : PState}, tagLoop fuel st = .ok st' →
    stText st' <+ stText st ∧ (∃ used, st.dois = used ++ st'.dois ∧ st'.els.filterMap doiIn = st.els.filterMap doiIn ++ used) ∧
    (∃ used, st.urls = used ++ st'.urls ∧ st'.els.filterMap urlIn = st.els.filterMap urlIn ++ used)
  | 0, st, st', h => by
    cases h
    exact ⟨List.Sublist.refl _, ⟨[], by simp⟩, ⟨[], by simp⟩⟩
  | fuel + 1, st, st', h => by
    rw [tagLoop] at h
    cases hm : search Rx.re_tagged_citation st.line with
    | none =>
      rw [hm] at h
      cases h
      exact ⟨List.Sublist.refl _, ⟨[], by simp⟩, ⟨[], by simp⟩⟩
    | some m =>
      rw [hm] at h
      obtain ⟨st1, hs, h⟩ := bind_ok h
      obtain ⟨a, b, e, h1, ho⟩ := search_parts hm
      have k := tagStep_keeps e h1 hs
      obtain ⟨r1, ⟨ud, r2, r3⟩, ⟨uu, r4, r5⟩⟩ := loop_keeps h
      obtain ⟨ud', d1, d2⟩ := k.dois
      obtain ⟨uu', u1, u2⟩ := k.urls
      refine ⟨r1.trans (k.text.trans ?_), ⟨ud' ++ ud, ?_, ?_⟩, ⟨uu' ++ uu, ?_, ?_⟩⟩
      · simp only [stText, e, List.append_assoc]
        exact List.Sublist.append (List.Sublist.refl _) (List.Sublist.append (List.Sublist.refl _)
          (List.Sublist.append (List.Sublist.refl _) (List.sublist_append_right _ _)))
      · rw [List.append_assoc, ← r2]; exact d1
      · rw [r3, d2, List.append_assoc]
      · rw [List.append_assoc, ← r4]; exact u1
      · rw [r5, u2, List.append_assoc]

/-! ### Errors -/

omit [UnicodeDB] in
theorem occurs_right (sub x y : Str) : occurs sub y ≤ occurs sub (x ++ y) := by
  induction x with
  | nil => exact Nat.le_refl _
  | cons c x ih => exact Nat.le_trans ih (Nat.le_add_left _ _)

omit [UnicodeDB] in
theorem occurs_here {sub a w b : Str} (hs : sub ≠ []) (h : sub <+: w) : occurs sub b + 1 ≤ occurs sub (a ++ w ++ b) := by
  rw [List.append_assoc]
  refine Nat.le_trans ?_ (occurs_right sub a (w ++ b))
  obtain ⟨r, rfl⟩ := h
  obtain ⟨c, q, rfl⟩ := List.exists_cons_of_ne_nil hs
  simp only [List.cons_append, occurs]
  rw [if_pos ⟨r ++ b, by simp⟩, List.append_assoc, ← List.append_assoc]
  have := occurs_right (c :: q) (q ++ r) b
  omega

theorem tagStep_error {st : PState} {m : Match} {e : PyErr} (h : tagStep st m = .error e) :
    e = .indexError ∧ ((m.tgroup 1 = py! "URL" ∧ st.urls = []) ∨ (m.tgroup 1 = py! "DOI" ∧ st.dois = [])) := by
  unfold tagStep at h
  dsimp only at h
  rcases ite_or h with ⟨-, h⟩ | ⟨-, h⟩
  · split at h <;> cases h
  rcases ite_or h with ⟨-, h⟩ | ⟨-, h⟩
  · cases h
  rcases ite_or h with ⟨-, h⟩ | ⟨-, h⟩
  · cases h
  rcases ite_or h with ⟨c, h⟩ | ⟨-, h⟩
  · split at h
    · next hu =>
      cases h
      exact ⟨rfl, .inl ⟨c, hu⟩⟩
    · cases h
  rcases ite_or h with ⟨c, h⟩ | ⟨-, h⟩
  · split at h
    · next hu =>
      cases h
      exact ⟨rfl, .inr ⟨c, hu⟩⟩
    · cases h
  rcases ite_or h with ⟨-, h⟩ | ⟨-, h⟩
  · cases h
  rcases ite_or h with ⟨-, h⟩ | ⟨-, h⟩
  · cases h
  rcases ite_or h with ⟨-, h⟩ | ⟨-, h⟩
  · cases h
  rcases ite_or h with ⟨-, h⟩ | ⟨-, h⟩
  · cases h
  rcases ite_or h with ⟨-, h⟩ | ⟨-, h⟩
  · cases h
  · cases h

omit [UnicodeDB] in
theorem lists_simple {tag : Str} {mk : Str → Str → El} {count : Counts → Counts} {n : Nat} {st : PState} :
    (simpleStep tag mk count n st).dois = st.dois ∧ (simpleStep tag mk count n st).urls = st.urls := by
  unfold simpleStep; split <;> exact ⟨rfl, rfl⟩

omit [UnicodeDB] in
theorem lists_subfield {tag : Str} {mk : Str → Str → El} {n : Nat} {st : PState} :
    (subfieldStep tag mk n st).dois = st.dois ∧ (subfieldStep tag mk n st).urls = st.urls := by
  unfold subfieldStep; dsimp only; split <;> exact ⟨rfl, rfl⟩

omit [UnicodeDB] in
theorem lists_misc {tag : Str} {n : Nat} {st : PState} :
    (miscStep tag n st).dois = st.dois ∧ (miscStep tag n st).urls = st.urls := by
  unfold miscStep; split <;> exact ⟨rfl, rfl⟩

theorem lists_journal {i : Bool} {title line : Str} {st : PState} :
    (journalStep i title line st).dois = st.dois ∧ (journalStep i title line st).urls = st.urls := by
  unfold journalStep; split <;> exact ⟨rfl, rfl⟩

theorem tagStep_lists {st st' : PState} {m : Match} (h : tagStep st m = .ok st') :
    (st'.dois = st.dois ∨ (m.tgroup 1 = py! "DOI" ∧ ∃ d, st.dois = d :: st'.dois)) ∧
    (st'.urls = st.urls ∨ (m.tgroup 1 = py! "URL" ∧ ∃ u, st.urls = u :: st'.urls)) := by
  unfold tagStep at h
  dsimp only at h
  have fin : ∀ {a : PState}, Except.ok (ε := PyErr) a = .ok st' → a.dois = st.dois ∧ a.urls = st.urls →
      (st'.dois = st.dois ∨ (m.tgroup 1 = py! "DOI" ∧ ∃ d, st.dois = d :: st'.dois)) ∧
      (st'.urls = st.urls ∨ (m.tgroup 1 = py! "URL" ∧ ∃ u, st.urls = u :: st'.urls)) := by
    intro a e ha
    cases e
    exact ⟨.inl ha.1, .inl ha.2⟩
  rcases ite_or h with ⟨-, h⟩ | ⟨-, h⟩
  · split at h
    · exact fin h ⟨rfl, rfl⟩
    · exact fin h lists_journal
  rcases ite_or h with ⟨-, h⟩ | ⟨-, h⟩
  · exact fin h lists_simple
  rcases ite_or h with ⟨-, h⟩ | ⟨-, h⟩
  · exact fin h lists_simple
  rcases ite_or h with ⟨c, h⟩ | ⟨-, h⟩
  · split at h
    · cases h
    · next hu =>
      cases h
      exact ⟨.inl rfl, .inr ⟨c, _, hu⟩⟩
  rcases ite_or h with ⟨c, h⟩ | ⟨-, h⟩
  · split at h
    · cases h
    · next hu =>
      cases h
      exact ⟨.inr ⟨c, _, hu⟩, .inl rfl⟩
  rcases ite_or h with ⟨-, h⟩ | ⟨-, h⟩
  · exact fin h lists_simple
  rcases ite_or h with ⟨-, h⟩ | ⟨-, h⟩
  · exact fin h lists_misc
  rcases ite_or h with ⟨-, h⟩ | ⟨-, h⟩
  · exact fin h lists_subfield
  rcases ite_or h with ⟨-, h⟩ | ⟨-, h⟩
  · exact fin h lists_subfield
  rcases ite_or h with ⟨-, h⟩ | ⟨-, h⟩
  · exact fin h lists_subfield
  · exact fin h lists_subfield

theorem loop_error : ∀ {fuel : Nat} {st : PState} {e : PyErr}, tagLoop fuel st = .error e →
    e = .indexError ∧ (st.urls.length < occurs (py! "<cds.URL") st.line ∨ st.dois.length < occurs (py! "<cds.DOI") st.line)
  | 0, st, e, h => by cases h
  | fuel + 1, st, e, h => by
    rw [tagLoop] at h
    cases hm : search Rx.re_tagged_citation st.line with
    | none => rw [hm] at h; cases h
    | some m =>
      rw [hm] at h
      dsimp only at h
      obtain ⟨a, b, el, h1, hn, o, ho, hw⟩ := search_parts hm
      cases hs : tagStep st m with
      | error e' =>
        rw [hs] at h
        cases h
        obtain ⟨rfl, he⟩ := tagStep_error hs
        refine ⟨rfl, he.imp ?_ ?_⟩
        · rintro ⟨h2, h3⟩
          rw [h3, el]
          rw [h2] at hw
          have := occurs_here (sub := py! "<cds.URL") (a := a) (w := m.txt) (b := b) (by simp) ⟨o ++ py! ">", by rw [hw]; simp⟩
          simp only [List.length_nil]
          omega
        · rintro ⟨h2, h3⟩
          rw [h3, el]
          rw [h2] at hw
          have := occurs_here (sub := py! "<cds.DOI") (a := a) (w := m.txt) (b := b) (by simp) ⟨o ++ py! ">", by rw [hw]; simp⟩
          simp only [List.length_nil]
          omega
      | ok st1 =>
        rw [hs] at h
        have h : tagLoop fuel st1 = .error e := h
        obtain ⟨he, hc⟩ := loop_error h
        refine ⟨he, ?_⟩
        obtain ⟨u, hu⟩ := (tagStep_keeps el h1 hs).line
        obtain ⟨hd, hul⟩ := tagStep_lists hs
        have go : ∀ (name : Str), m.tgroup 1 = name → occurs (py! "<cds." ++ name) st1.line + 1 ≤ occurs (py! "<cds." ++ name) st.line := by
          intro name hn
          rw [hn] at hw
          have h5 := occurs_here (sub := py! "<cds." ++ name) (a := a) (w := m.txt) (b := b) (by simp) ⟨o ++ py! ">", by rw [hw]; simp⟩
          have h6 := occurs_right (py! "<cds." ++ name) u st1.line
          rw [hu] at h6
          rw [el]
          omega
        have go' : ∀ sub, occurs sub st1.line ≤ occurs sub st.line := by
          intro sub
          have h6 := occurs_right sub (a ++ m.txt ++ u) st1.line
          rw [List.append_assoc, hu] at h6
          rw [el]
          exact h6
        refine hc.imp (fun hc => ?_) (fun hc => ?_)
        · rcases hul with hul | ⟨hn, u, hul⟩
          · rw [← hul]; exact Nat.lt_of_lt_of_le hc (go' _)
          · have := go _ hn
            rw [hul]
            simp only [List.length_cons]
            simp only [List.cons_append, List.nil_append] at this
            omega
        · rcases hd with hd | ⟨hn, u, hd⟩
          · rw [← hd]; exact Nat.lt_of_lt_of_le hc (go' _)
          · have := go _ hn
            rw [hd]
            simp only [List.length_cons]
            simp only [List.cons_append, List.nil_append] at this
            omega

/-! ### Tags without their closing tag -/

omit [UnicodeDB] in
theorem find_free {name p b : Str} (h : Free name b) : findFrom (closing name) (p ++ b) p.length = none := by
  unfold findFrom
  rw [if_pos (by simp), List.drop_left]
  cases hf : find (closing name) b with
  | none => rfl
  | some k =>
    obtain ⟨t, r, rfl, -⟩ := find_split hf
    exact absurd ⟨t, r, by simp [closing]⟩ h

theorem tagStep_unclosed {name t w b : Str} {st : PState} {m : Match}
    (hmem : name ∈ tagNames) (hn : name ∉ [py! "QUOTED", py! "ISBN", py! "PUBLISHER", py! "COLLABORATION", py! "DOI", py! "URL"])
    (hl : st.line = t ++ w ++ b) (h1 : m.start = t.length) (h2 : m.stop = t.length + w.length) (h3 : m.tgroup 1 = name)
    (h4 : truthy (m.tgroup G.ibid) = decide (name = py! "JOURNALibid")) (hc : Free name b) :
    tagStep st m = .ok { st with line := b, misc := st.misc ++ t } := by
  have hstop : m.stop = (t ++ w).length := by rw [h2]; simp
  have htake : st.line.take m.start = t := by rw [hl, h1, List.append_assoc, List.take_left]
  have hfind : findFrom (closing name) st.line (t ++ w).length = none := by rw [hl]; exact find_free hc
  have hdrop : st.line.drop (t ++ w).length = b := by rw [hl, List.drop_left]
  unfold tagStep
  rw [htake, hstop, h3, h4]
  simp only [tagNames, List.mem_cons, List.not_mem_nil, or_false] at hmem
  have simple : ∀ {mk : Str → Str → El} {count : Counts → Counts}, simpleStep name mk count (t ++ w).length { st with misc := st.misc ++ t } =
      { st with line := b, misc := st.misc ++ t } := by
    intro mk count
    unfold simpleStep
    dsimp only
    rw [hfind, hdrop]
  have misc : miscStep name (t ++ w).length { st with misc := st.misc ++ t } = { st with line := b, misc := st.misc ++ t } := by
    unfold miscStep
    dsimp only
    rw [hfind, hdrop]
  have journal : contains name (py! "JOURNAL") = true → (if (decide (name = py! "JOURNALibid")) = true then py! "JOURNALibid" else py! "JOURNAL") = name →
      (match findFrom (closing (if (decide (name = py! "JOURNALibid")) = true then py! "JOURNALibid" else py! "JOURNAL")) st.line (t ++ w).length with
        | none => Except.ok (ε := PyErr) { st with line := st.line.drop (t ++ w).length, misc := st.misc ++ t }
        | some i => .ok (journalStep (decide (name = py! "JOURNALibid")) (slice st.line (t ++ w).length i) (st.line.drop (i + (closing (if (decide (name = py! "JOURNALibid")) = true then py! "JOURNALibid" else py! "JOURNAL")).length)) { st with misc := st.misc ++ t })) =
      .ok { st with line := b, misc := st.misc ++ t } := by
    intro _ h
    rw [h, hfind, hdrop]
  dsimp only
  rcases hmem with rfl | rfl | rfl | rfl | rfl | rfl | rfl | rfl | rfl | rfl | rfl | rfl | rfl | rfl | rfl | rfl | rfl
  all_goals first
    | exact absurd hn (by decide)
    | exact journal (by decide +kernel) (by decide)
    | exact congrArg Except.ok simple
    | exact congrArg Except.ok misc

end Py
