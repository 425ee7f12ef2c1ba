import Verif.Model.Parse
import Verif.Spec.Parse
import Verif.Lemmas.Titles

/-!
# Lemmas about parsing tagged lines
-/

open Spec

namespace Py

variable [UnicodeDB]

omit [UnicodeDB] in
theorem tag_dec {name : Str} (h : name ∈ tagNames) : (∀ c ∈ name, c ≠ '<' ∧ c ≠ '>' ∧ c ≠ '/') := by
  revert name
  decide

theorem sem_tagName {pre w post : Str} :
    Sem (Re.alts [(.str (py! "JOURNAL")) ⬝ (Re.opt (.group G.ibid (.str (py! "ibid")))), .str (py! "VOL"), .str (py! "YR"), .str (py! "PG"), .str (py! "REPORTNUMBER"), .str (py! "ARXIV"), .str (py! "SER"), .str (py! "URL"), .str (py! "DOI"), .str (py! "QUOTED"), .str (py! "ISBN"), .str (py! "PUBLISHER"), .str (py! "COLLABORATION"), (.str (py! "AUTH")) ⬝ (Re.alts [.str (py! "stnd"), .str (py! "etal"), .str (py! "incl")])]) pre w post ↔
      w ∈ tagNames := by
  have hstr : ∀ {x pre w post : Str}, Sem (.str x) pre w post ↔ w = x := Iff.rfl
  have hfail : ∀ {pre w post : Str}, Sem .fail pre w post ↔ False := Iff.rfl
  have halt : ∀ {a b : Re} {pre w post : Str}, Sem (.alt a b) pre w post ↔ Sem a pre w post ∨ Sem b pre w post := Iff.rfl
  have hseq : ∀ {a b : Re} {pre w post : Str}, Sem (a ⬝ b) pre w post ↔ ∃ u v, w = u ++ v ∧ Sem a pre u (v ++ post) ∧ Sem b (u.reverse ++ pre) v post := Iff.rfl
  have hgrp : ∀ {g : Nat} {a : Re} {pre w post : Str}, Sem (.group g a) pre w post ↔ Sem a pre w post := Iff.rfl
  simp only [Re.alts, halt, hstr, hseq, sem_opt, hgrp]
  constructor
  · rintro (⟨u, v, rfl, rfl, rfl | rfl⟩ | h)
    · decide
    · decide
    · rcases h with rfl | rfl | rfl | rfl | rfl | rfl | rfl | rfl | rfl | rfl | rfl | rfl | ⟨u, v, rfl, rfl, rfl | rfl | rfl⟩ <;> decide
  · intro h
    simp only [tagNames, List.mem_cons, List.not_mem_nil, or_false] at h
    rcases h with rfl | rfl | rfl | rfl | rfl | rfl | rfl | rfl | rfl | rfl | rfl | rfl | rfl | rfl | rfl | rfl | rfl
    · exact .inl ⟨_, [], by simp, rfl, .inr rfl⟩
    · exact .inl ⟨py! "JOURNAL", py! "ibid", rfl, rfl, .inl rfl⟩
    · simp
    · simp
    · simp
    · simp
    · simp
    · simp
    · simp
    · simp
    · simp
    · simp
    · simp
    · simp
    · exact .inr (.inr (.inr (.inr (.inr (.inr (.inr (.inr (.inr (.inr (.inr (.inr (.inr ⟨py! "AUTH", py! "stnd", rfl, rfl, .inl rfl⟩))))))))))))
    · exact .inr (.inr (.inr (.inr (.inr (.inr (.inr (.inr (.inr (.inr (.inr (.inr (.inr ⟨py! "AUTH", py! "etal", rfl, rfl, .inr (.inl rfl)⟩))))))))))))
    · exact .inr (.inr (.inr (.inr (.inr (.inr (.inr (.inr (.inr (.inr (.inr (.inr (.inr ⟨py! "AUTH", py! "incl", rfl, rfl, .inr (.inr rfl)⟩))))))))))))

theorem sem_slash {pre w post : Str} : Sem (Re.opt (Re.space ⬝ (Re.ch '/'))) pre w post ↔ w = [] ∨ ∃ c, isSpace c = true ∧ w = [c, '/'] := by
  rw [sem_opt, or_comm]
  refine or_congr Iff.rfl ?_
  constructor
  · rintro ⟨u, v, rfl, h1, h2⟩
    obtain ⟨c, rfl, hc⟩ := sem_space1.1 h1
    exact ⟨c, hc, by rw [sem_ch.1 h2]; rfl⟩
  · rintro ⟨c, hc, rfl⟩
    exact ⟨[c], ['/'], rfl, sem_space1.2 ⟨c, rfl, hc⟩, sem_ch.2 rfl⟩

theorem sem_openTag {pre w post : Str} : Sem Rx.re_tagged_citation pre w post ↔ ∃ name, OpenTag w name := by
  constructor
  · rintro ⟨w1, w2, rfl, h1, w3, w4, rfl, h2, w5, w6, rfl, h3, h4⟩
    obtain rfl := sem_str.1 h1
    obtain rfl := sem_ch.1 h4
    exact ⟨w3, sem_tagName.1 h2, w5, sem_slash.1 h3, by simp⟩
  · rintro ⟨name, hn, o, ho, rfl⟩
    exact ⟨py! "<cds.", name ++ (o ++ ['>']), by simp, rfl, name, o ++ ['>'], rfl, sem_tagName.2 hn, o, ['>'], rfl,
      sem_slash.2 ho, sem_ch.2 rfl⟩

theorem openTag_shape {w name : Str} (h : OpenTag w name) : ∃ x, w = '<' :: x ++ ['>'] ∧ '<' ∉ x ∧ '>' ∉ x := by
  obtain ⟨hn, o, ho, rfl⟩ := h
  refine ⟨py! "cds." ++ name ++ o, by simp, ?_, ?_⟩
  · simp only [List.mem_append, not_or]
    refine ⟨⟨by decide, fun hm => (tag_dec hn _ hm).1 rfl⟩, ?_⟩
    rcases ho with rfl | ⟨c, hc, rfl⟩
    · simp
    · simp; rintro rfl; exact absurd hc (by decide)
  · simp only [List.mem_append, not_or]
    refine ⟨⟨by decide, fun hm => (tag_dec hn _ hm).2.1 rfl⟩, ?_⟩
    rcases ho with rfl | ⟨c, hc, rfl⟩
    · simp
    · simp; rintro rfl; exact absurd hc (by decide)

/-- What a match of the tag pattern records. -/
theorem match_openTag {adv : Bool} {pre post : Str} {m : Match} (h : matchHere Rx.re_tagged_citation adv pre post = some m) :
    OpenTag m.txt (m.tgroup 1) ∧ truthy (m.tgroup G.ibid) = decide (m.tgroup 1 = py! "JOURNALibid") := by
  obtain ⟨t, ht, h1, -, -, h3⟩ := matchHere_cap h
  obtain ⟨u1, w1, p1, ht⟩ := run_seq_step ht
  obtain ⟨u2, hu2, ht⟩ := run_seq.1 ht
  obtain ⟨w2, v, hv, p2, e1, e2, hc, hc'⟩ := run_group hu2
  obtain ⟨u3, w3, p3, ht⟩ := run_seq_step ht
  obtain ⟨w4, p4⟩ := run_step ht
  have hg : m.tgroup 1 = w2 := by rw [Match.tgroup, h3, p4.cap _ (by decide), p3.cap _ (by decide), hc]; rfl
  have htxt : m.txt = w1 ++ (w2 ++ (w3 ++ w4)) := by
    have e : post = w1 ++ (w2 ++ (w3 ++ (w4 ++ t.post))) := by rw [← p4.post, ← p3.post, e2, ← p2.post, ← p1.post]
    rw [h1] at e
    simp only [← List.append_assoc] at e
    have := List.append_cancel_right e
    simpa using this
  refine ⟨⟨by rw [hg]; exact sem_tagName.1 p2.sem, w3, sem_slash.1 p3.sem, ?_⟩, ?_⟩
  · rw [htxt, hg, sem_str.1 p1.sem, sem_ch.1 p4.sem]; simp
  · have hi : m.group G.ibid = v.cap G.ibid := by
      rw [h3, p4.cap _ (by decide), p3.cap _ (by decide), hc' _ (by decide)]
    have h0 : u1.cap G.ibid = none := by rw [p1.cap _ (by decide)]; rfl
    rw [hg, Match.tgroup, hi]
    rw [Re.alts, run_alt] at hv
    rcases hv with hv | hv
    · obtain ⟨a1, x1, q1, hv⟩ := run_seq_step hv
      rw [Re.opt, run_alt] at hv
      rcases hv with hv | hv
      · obtain ⟨x2, a2, -, q2, -, e4, hcap, -⟩ := run_group hv
        have hx2 := sem_str.1 q2.sem
        have e : w2 = x1 ++ x2 := by
          have h5 := p2.post
          rw [q1.post, q2.post, ← e4, ← List.append_assoc] at h5
          exact (List.append_cancel_right h5).symm
        rw [hcap, e, hx2, sem_str.1 q1.sem]
        rfl
      · have hv : v = a1 := by simpa [run] using hv
        have e : w2 = x1 := by
          have h5 := p2.post
          rw [q1.post, hv] at h5
          exact (List.append_cancel_right h5).symm
        rw [hv, q1.cap _ (by decide), h0, e, sem_str.1 q1.sem]
        rfl
    · obtain ⟨x, q⟩ := run_step hv
      rw [q.cap _ (by decide), h0]
      have e : w2 = x := by
        have h5 := p2.post
        rw [q.post] at h5
        exact (List.append_cancel_right h5).symm
      have hne : x ≠ py! "JOURNALibid" := by
        rintro rfl
        have h6 := q.sem
        have hstr : ∀ {x pre w post : Str}, Sem (.str x) pre w post ↔ w = x := Iff.rfl
        have halt : ∀ {a b : Re} {pre w post : Str}, Sem (.alt a b) pre w post ↔ Sem a pre w post ∨ Sem b pre w post := Iff.rfl
        have hseq : ∀ {a b : Re} {pre w post : Str}, Sem (a ⬝ b) pre w post ↔
            ∃ u v, w = u ++ v ∧ Sem a pre u (v ++ post) ∧ Sem b (u.reverse ++ pre) v post := Iff.rfl
        simp only [Re.alts, halt, hstr, hseq] at h6
        simp at h6
        obtain ⟨u, v, e', rfl, -⟩ := h6
        simp at e'
      rw [e]
      simp [truthy, hne]

theorem open_unique {w w' r r' name name' : Str} (h : OpenTag w name) (h' : OpenTag w' name') (e : w ++ r = w' ++ r') : w = w' := by
  obtain ⟨x, rfl, -, hx⟩ := openTag_shape h
  obtain ⟨y, rfl, -, hy⟩ := openTag_shape h'
  have e : x ++ '>' :: r = y ++ '>' :: r' := by simpa using e
  have key : ∀ {x y : Str}, '>' ∉ x → '>' ∉ y → x ++ '>' :: r = y ++ '>' :: r' → x = y := by
    intro x
    induction x with
    | nil =>
      intro y _ hy e
      cases y with
      | nil => rfl
      | cons c y => simp at e; exact absurd e.1 (by rintro rfl; simp at hy)
    | cons c x ih =>
      intro y hx hy e
      cases y with
      | nil => simp at e; exact absurd e.1 (by rintro rfl; simp at hx)
      | cons d y =>
        simp only [List.mem_cons, not_or] at hx hy
        simp only [List.cons_append, List.cons.injEq] at e
        rw [e.1, ih hx.2 hy.2 e.2]
  rw [key hx hy e]

omit [UnicodeDB] in
theorem cut_unique {P : Char → Prop} {x x' y y' : Str} (hx : ∀ c ∈ x, P c) (hx' : ∀ c ∈ x', P c)
    (hy : ∀ c, y.head? = some c → ¬ P c) (hy' : ∀ c, y'.head? = some c → ¬ P c) (e : x ++ y = x' ++ y') : x = x' ∧ y = y' := by
  induction x generalizing x' with
  | nil =>
    cases x' with
    | nil => exact ⟨rfl, by simpa using e⟩
    | cons c x' =>
      simp at e
      exact absurd (hx' c (by simp)) (hy c (by rw [e]; rfl))
  | cons c x ih =>
    cases x' with
    | nil =>
      simp at e
      exact absurd (hx c (by simp)) (hy' c (by rw [← e]; rfl))
    | cons d x' =>
      simp only [List.cons_append, List.cons.injEq] at e
      obtain ⟨h1, h2⟩ := ih (fun c hc => hx c (by simp [hc])) (fun c hc => hx' c (by simp [hc])) e.2
      exact ⟨by rw [e.1, h1], h2⟩

/-- The first tag of a line. -/
theorem search_tag {t w r name : Str} (ht : NoTags t) (hw : OpenTag w name) :
    ∃ m, search Rx.re_tagged_citation (t ++ w ++ r) = some m ∧ m.start = t.length ∧ m.stop = t.length + w.length ∧
      m.tgroup 1 = name ∧ truthy (m.tgroup G.ibid) = decide (name = py! "JOURNALibid") := by
  have hmin : 0 < Rx.re_tagged_citation.minLen := by decide
  cases hs : search Rx.re_tagged_citation (t ++ w ++ r) with
  | none =>
    have := search_none hmin hs t (w ++ r) (by simp)
    rw [matchHere_none] at this
    exact absurd ⟨w, r, rfl, sem_openTag.2 ⟨name, hw⟩⟩ this
  | some m =>
    obtain ⟨a, b, e, hm, hfirst⟩ := search_some hmin hs
    obtain ⟨ho, hi⟩ := match_openTag hm
    have hat : a = t := by
      rw [List.append_assoc, List.append_assoc, List.append_eq_append_iff] at e
      rcases e with ⟨c, rfl, e⟩ | ⟨c, rfl, e⟩
      · cases c with
        | nil => simp
        | cons c0 c =>
          have := hfirst t (c0 :: c) rfl (by simp)
          rw [matchHere_none, List.append_assoc, ← e] at this
          exact absurd ⟨w, r, rfl, sem_openTag.2 ⟨name, hw⟩⟩ this
      · cases c with
        | nil => simp
        | cons c0 c =>
          exfalso
          obtain ⟨x, hx, hx1, -⟩ := openTag_shape ho
          obtain ⟨y, hy, -⟩ := openTag_shape hw
          rw [List.append_eq_append_iff] at e
          rcases e with ⟨d, e1, e2⟩ | ⟨d, e1, e2⟩
          · exact ht a m.txt d (by rw [e1]; simp) _ ho
          · cases d with
            | nil => exact ht a m.txt [] (by rw [e1]; simp) _ ho
            | cons d0 d =>
              rw [hx] at e1
              rw [hy] at e2
              simp only [List.cons_append, List.cons.injEq] at e1 e2
              obtain ⟨rfl, -⟩ := e2
              have : '<' ∈ x ++ ['>'] := by rw [e1.2]; simp
              simp at this
              exact hx1 this
    subst hat
    have hmw : m.txt = w := by
      refine open_unique ho hw (r := b) (r' := r) ?_
      rw [List.append_assoc, List.append_assoc] at e
      exact (List.append_cancel_left e).symm
    have hn : m.tgroup 1 = name := by
      obtain ⟨h1, o1, ho1, e1⟩ := ho
      obtain ⟨h2, o2, ho2, e2⟩ := hw
      rw [hmw, e2] at e1
      have e3 : name ++ (o2 ++ ['>']) = m.tgroup 1 ++ (o1 ++ ['>']) := by simpa using e1
      have hname : ∀ {n : Str}, n ∈ tagNames → ∀ c ∈ n, isSpace c = false ∧ c ≠ '>' := by decide
      have ho : ∀ {o : Str}, (o = [] ∨ ∃ c, isSpace c = true ∧ o = [c, '/']) →
          ∀ c, (o ++ ['>']).head? = some c → ¬ (isSpace c = false ∧ c ≠ '>') := by
        rintro o (rfl | ⟨c, hc, rfl⟩) d hd
        · simp at hd; subst hd; simp
        · simp at hd; subst hd; simp [hc]
      exact (cut_unique (hname h2) (hname h1) (ho ho2) (ho ho1) e3).1.symm
    have hstart : m.start = a.length := by
      obtain ⟨t, ht, h1, -, h4, h3⟩ := matchHere_cap hm
      simpa using h4
    refine ⟨m, rfl, hstart, ?_, hn, by rw [hi, hn]⟩
    rw [Match.stop, hstart, hmw]

/-! ### Closing tags -/

omit [UnicodeDB] in
theorem find_close {sub a b : Str} {x : Str} (hs : sub = '<' :: x) (hx : '<' ∉ x) (h : ¬ sub <:+: a) :
    find sub (a ++ sub ++ b) = some a.length := by
  induction a with
  | nil =>
    rw [hs]
    simp [find]
  | cons c a ih =>
    rw [List.cons_append, List.cons_append, find, if_neg, ih]
    · rfl
    · exact fun hi => h (hi.trans (List.suffix_cons c a).isInfix)
    · intro hp
      obtain ⟨r, e⟩ := List.isPrefixOf_iff_prefix.1 hp
      have e : sub ++ r = (c :: a) ++ (sub ++ b) := by simpa using e
      rw [List.append_eq_append_iff] at e
      rcases e with ⟨d, e1, -⟩ | ⟨d, e1, e2⟩
      · exact h ⟨[], d, by rw [e1]; simp⟩
      · cases d with
        | nil => exact h ⟨[], [], by rw [e1]; simp⟩
        | cons d0 d =>
          rw [hs] at e1 e2
          simp only [List.cons_append, List.cons.injEq] at e1 e2
          apply hx
          rw [e1.2, ← e2.1]
          simp

omit [UnicodeDB] in
theorem closing_shape {name : Str} (h : name ∈ tagNames) : ∃ x, closing name = '<' :: x ∧ '<' ∉ x := by
  refine ⟨py! "/cds." ++ name ++ py! ">", rfl, ?_⟩
  simp only [List.mem_append, not_or]
  exact ⟨⟨by decide, fun hm => (tag_dec h _ hm).1 rfl⟩, by decide⟩

omit [UnicodeDB] in
theorem find_closing {name t r : Str} (h : name ∈ tagNames) (hf : Free name t) :
    find (closing name) (t ++ (closing name ++ r)) = some t.length := by
  obtain ⟨x, h1, h2⟩ := closing_shape h
  rw [← List.append_assoc]
  exact find_close h1 h2 hf

omit [UnicodeDB] in
theorem findFrom_closing {name p t r : Str} (h : name ∈ tagNames) (hf : Free name t) :
    findFrom (closing name) (p ++ (t ++ (closing name ++ r))) p.length = some (p.length + t.length) := by
  unfold findFrom
  rw [if_pos (by simp), List.drop_left, find_closing h hf, Option.map_some, Nat.add_comm]

/-! ### Numeration -/

/-- The pattern of a series. -/
def seriesRe : Re := Re.alts [.set ⟨false, false, [.range 'A' 'H']⟩, (Re.rep 1 3 (Re.ch 'I')) ⬝ (Re.opt (Re.ch 'V')), (Re.ch 'V') ⬝ (Re.rep 0 3 (Re.ch 'I'))]

omit [UnicodeDB] in
theorem rep_len {w : Str} {c : Char} (h : ∀ x ∈ w, x = c) (n : Nat) (hn : w.length = n) : w = List.replicate n c :=
  List.eq_replicate_iff.2 ⟨hn, h⟩

theorem sem_repCh {m n : Nat} (hmn : m ≤ n) {c : Char} {pre w post : Str} :
    Sem (Re.rep m n (Re.ch c)) pre w post ↔ ∃ k, m ≤ k ∧ k ≤ n ∧ w = List.replicate k c := by
  have hmem : ∀ x, CSet.mem ⟨false, false, [.ch c]⟩ x = true ↔ x = c := by
    intro x; simp [CSet.mem, CItem.mem]
  unfold Re.ch
  rw [sem_rep_set hmn]
  simp only [hmem]
  constructor
  · rintro ⟨h1, h2, h3⟩
    exact ⟨w.length, h1, h2, rep_len h3 _ rfl⟩
  · rintro ⟨k, h1, h2, rfl⟩
    exact ⟨by simpa, by simpa, fun x hx => (List.mem_replicate.1 hx).2⟩

theorem sem_series {pre w post : Str} : Sem seriesRe pre w post ↔ IsSeries w := by
  have hfail : ∀ {pre w post : Str}, Sem .fail pre w post ↔ False := Iff.rfl
  have halt : ∀ {a b : Re} {pre w post : Str}, Sem (.alt a b) pre w post ↔ Sem a pre w post ∨ Sem b pre w post := Iff.rfl
  have hseq : ∀ {a b : Re} {pre w post : Str}, Sem (a ⬝ b) pre w post ↔
    ∃ u v, w = u ++ v ∧ Sem a pre u (v ++ post) ∧ Sem b (u.reverse ++ pre) v post := Iff.rfl
  have hset : ∀ c : Char, CSet.mem ⟨false, false, [.range 'A' 'H']⟩ c = true ↔ 'A'.toNat ≤ c.toNat ∧ c.toNat ≤ 'H'.toNat := by
    intro c
    simp [CSet.mem, CItem.mem]
  simp only [seriesRe, Re.alts, halt, hseq, sem_set, hset, sem_optCh, sem_ch, IsSeries]
  refine or_congr Iff.rfl ?_
  constructor
  · rintro (⟨u, v, rfl, h1, h2⟩ | ⟨u, v, rfl, rfl, h2⟩)
    · obtain ⟨k, hk1, hk2, rfl⟩ := (sem_repCh (by decide)).1 h1
      have : k = 1 ∨ k = 2 ∨ k = 3 := by omega
      rcases this with rfl | rfl | rfl <;> rcases h2 with rfl | rfl <;> decide
    · obtain ⟨k, hk1, hk2, rfl⟩ := (sem_repCh (by decide)).1 h2
      have : k = 0 ∨ k = 1 ∨ k = 2 ∨ k = 3 := by omega
      rcases this with rfl | rfl | rfl | rfl <;> decide
  · intro h
    simp only [List.mem_cons, List.not_mem_nil, or_false] at h
    rcases h with rfl | rfl | rfl | rfl | rfl | rfl | rfl | rfl | rfl | rfl
    · exact .inl ⟨py! "I", [], rfl, (sem_repCh (by decide)).2 ⟨1, by decide, by decide, rfl⟩, .inl rfl⟩
    · exact .inl ⟨py! "II", [], rfl, (sem_repCh (by decide)).2 ⟨2, by decide, by decide, rfl⟩, .inl rfl⟩
    · exact .inl ⟨py! "III", [], rfl, (sem_repCh (by decide)).2 ⟨3, by decide, by decide, rfl⟩, .inl rfl⟩
    · exact .inl ⟨py! "I", ['V'], rfl, (sem_repCh (by decide)).2 ⟨1, by decide, by decide, rfl⟩, .inr rfl⟩
    · exact .inl ⟨py! "II", ['V'], rfl, (sem_repCh (by decide)).2 ⟨2, by decide, by decide, rfl⟩, .inr rfl⟩
    · exact .inl ⟨py! "III", ['V'], rfl, (sem_repCh (by decide)).2 ⟨3, by decide, by decide, rfl⟩, .inr rfl⟩
    · exact .inr ⟨['V'], [], rfl, rfl, (sem_repCh (by decide)).2 ⟨0, by decide, by decide, rfl⟩⟩
    · exact .inr ⟨['V'], py! "I", rfl, rfl, (sem_repCh (by decide)).2 ⟨1, by decide, by decide, rfl⟩⟩
    · exact .inr ⟨['V'], py! "II", rfl, rfl, (sem_repCh (by decide)).2 ⟨2, by decide, by decide, rfl⟩⟩
    · exact .inr ⟨['V'], py! "III", rfl, rfl, (sem_repCh (by decide)).2 ⟨3, by decide, by decide, rfl⟩⟩

/-- Letters of series. -/
def seriesChar (c : Char) : Prop := 'A'.toNat ≤ c.toNat ∧ c.toNat ≤ 'V'.toNat

omit [UnicodeDB] in
theorem series_chars {s : Str} (h : IsSeries s) : s ≠ [] ∧ ∀ c ∈ s, seriesChar c := by
  rcases h with ⟨c, rfl, h1, h2⟩ | h
  · refine ⟨by simp, fun d hd => ?_⟩
    obtain rfl := List.mem_singleton.1 hd
    exact ⟨h1, Nat.le_trans h2 (by decide)⟩
  · revert s
    unfold seriesChar
    decide

/-- An optional group captures what it matches or nothing. -/
theorem run_optGroup {g : Nat} {a b : Re} {s t : St} (h : t ∈ run (Re.opt (.group g a) ⬝ b) s) :
    (∃ u w, Step (.group g a) s u w ∧ u.cap g = some w ∧ t ∈ run b u) ∨ t ∈ run b s := by
  obtain ⟨u, hu, ht⟩ := run_seq.1 h
  rw [Re.opt, run_alt] at hu
  rcases hu with hu | hu
  · obtain ⟨w, hw⟩ := run_step hu
    obtain ⟨w', v, -, hv, h1, h2, h3, -⟩ := run_group hu
    refine .inl ⟨u, w, hw, ?_, ht⟩
    have e1 := hw.post
    rw [hv.post, h2] at e1
    rw [h3, List.append_cancel_right e1]
  · have hu : u = s := by simpa [run] using hu
    exact .inr (hu ▸ ht)

/-- The end of a numeration: volume, year and page. -/
def numTail : Re := (.str (py! "<cds.VOL>")) ⬝ (.group G.vol (Re.plus (.set ⟨true, false, [.ch '<']⟩))) ⬝ (.str (py! "</cds.VOL>")) ⬝ (.star true (Re.space)) ⬝ (Re.opt ((.str (py! " <cds.YR>(")) ⬝ (.group G.yr (Re.plus (.set ⟨true, false, [.ch '<']⟩))) ⬝ (.str (py! ")</cds.YR>")))) ⬝ (.star true (Re.space)) ⬝ (.str (py! " <cds.PG>")) ⬝ (.group G.pg (Re.plus (.set ⟨true, false, [.ch '<']⟩))) ⬝ (.str (py! "</cds.PG>"))

omit [UnicodeDB] in
theorem re_recognised_eq : Rx.re_recognised_numeration_title_plus_series =
    .bos ⬝ (.star true (Re.space)) ⬝ (Re.opt (.set ⟨false, false, [.ch '.', .ch ',']⟩)) ⬝ (.star true (Re.space)) ⬝ (Re.opt ((.str (py! "Ser.")) ⬝ (.star true (Re.space)))) ⬝ (Re.opt (.group G.series seriesRe)) ⬝ (.star true (Re.space)) ⬝ (Re.opt (Re.ch ':')) ⬝ (.star true (Re.space)) ⬝ numTail := rfl

/-- What comes after the volume in the tagged form. -/
def yearPage (year : Option Str) (page : Str) : Str :=
  (match year with | some y => py! " " ++ enclose (py! "YR") (py! "(" ++ y ++ py! ")") | none => []) ++
  py! " " ++ enclose (py! "PG") page

theorem sem_plain {pre w post : Str} : Sem (Re.plus (.set ⟨true, false, [.ch '<']⟩)) pre w post ↔ Plain w := by
  rw [sem_plus_set, not_lt_iff]; rfl

omit [UnicodeDB] in
theorem cutLt {x x' y y' : Str} (hx : '<' ∉ x) (hx' : '<' ∉ x') (e : x ++ '<' :: y = x' ++ '<' :: y') : x = x' ∧ y = y' := by
  obtain ⟨h1, h2⟩ := cut_unique (P := (· ≠ '<')) (fun c hc => by rintro rfl; exact hx hc) (fun c hc => by rintro rfl; exact hx' hc)
    (by simp) (by simp) e
  exact ⟨h1, (List.cons.inj h2).2⟩

omit [UnicodeDB] in
theorem lt_spaces {w : Str} (h : Spaces w) : '<' ∉ w := fun hm => absurd (h _ hm) (by decide)

theorem run_numTail {s t : St} {vol page r : Str} {year : Option Str} (h : t ∈ run numTail s)
    (hv : Plain vol) (hy : ∀ y, year = some y → Plain y) (hp : Plain page)
    (e : s.post = enclose (py! "VOL") vol ++ (yearPage year page ++ r)) (h0 : s.cap G.yr = none) :
    t.post = r ∧ t.cap G.vol = some vol ∧ t.cap G.yr = year ∧ t.cap G.pg = some page ∧ t.cap G.series = s.cap G.series := by
  unfold numTail at h
  obtain ⟨s1, w1, p1, h⟩ := run_seq_step h
  obtain ⟨s2, w2, p2, c2, h⟩ := run_group_step h
  obtain ⟨s3, w3, p3, h⟩ := run_seq_step h
  obtain ⟨s4, w4, p4, h⟩ := run_seq_step h
  obtain ⟨s5, hs5, h⟩ := run_seq.1 h
  obtain ⟨s6, w6, p6, h⟩ := run_seq_step h
  obtain ⟨s7, w7, p7, h⟩ := run_seq_step h
  obtain ⟨s8, w8, p8, c8, h⟩ := run_group_step h
  obtain ⟨w9, p9⟩ := run_step h
  obtain rfl := sem_str.1 p1.sem
  obtain rfl := sem_str.1 p3.sem
  obtain rfl := sem_str.1 p7.sem
  obtain rfl := sem_str.1 p9.sem
  have hw2 : Plain w2 := sem_plain.1 p2.sem
  have hw8 : Plain w8 := sem_plain.1 p8.sem
  have hw4 := lt_spaces (sem_spaces.1 p4.sem)
  have hw6 := lt_spaces (sem_spaces.1 p6.sem)
  rw [p1.post, p2.post, p3.post, p4.post] at e
  have e : w2 ++ '<' :: (py! "/cds.VOL>" ++ (w4 ++ s4.post)) = vol ++ '<' :: (py! "/cds.VOL>" ++ (yearPage year page ++ r)) := by
    simpa [enclose] using e
  obtain ⟨rfl, e⟩ := cutLt hw2.2 hv.2 e
  have e := List.append_cancel_left e
  have ends : ∀ {x : Str}, '<' ∉ x → x ++ s5.post = py! " " ++ enclose (py! "PG") page ++ r → t.post = r ∧ w8 = page := by
    intro x hx e
    rw [p6.post, p7.post, p8.post, p9.post] at e
    have e : (x ++ w6 ++ [' ']) ++ '<' :: (py! "cds.PG>" ++ (w8 ++ (py! "</cds.PG>" ++ t.post))) =
        [' '] ++ '<' :: (py! "cds.PG>" ++ (page ++ (py! "</cds.PG>" ++ r))) := by simpa [enclose] using e
    obtain ⟨-, e⟩ := cutLt (by simp [hx, hw6]) (by simp) e
    have e : w8 ++ '<' :: (py! "/cds.PG>" ++ t.post) = page ++ '<' :: (py! "/cds.PG>" ++ r) := by simpa using e
    obtain ⟨rfl, e⟩ := cutLt hw8.2 hp.2 e
    exact ⟨by simpa using e, rfl⟩
  have cvol : t.cap G.vol = s5.cap G.vol := by
    rw [p9.cap _ (by decide), p8.cap _ (by decide), p7.cap _ (by decide), p6.cap _ (by decide)]
  have cyr : t.cap G.yr = s5.cap G.yr := by
    rw [p9.cap _ (by decide), p8.cap _ (by decide), p7.cap _ (by decide), p6.cap _ (by decide)]
  have cser : t.cap G.series = s5.cap G.series := by
    rw [p9.cap _ (by decide), p8.cap _ (by decide), p7.cap _ (by decide), p6.cap _ (by decide)]
  have cpg : t.cap G.pg = some w8 := by rw [p9.cap _ (by decide), c8]
  have cvol4 : s4.cap G.vol = some w2 := by rw [p4.cap _ (by decide), p3.cap _ (by decide), c2]
  have cyr4 : s4.cap G.yr = none := by
    rw [p4.cap _ (by decide), p3.cap _ (by decide), p2.cap _ (by decide), p1.cap _ (by decide), h0]
  have cser4 : s4.cap G.series = s.cap G.series := by
    rw [p4.cap _ (by decide), p3.cap _ (by decide), p2.cap _ (by decide), p1.cap _ (by decide)]
  rw [Re.opt, run_alt] at hs5
  rcases hs5 with hs5 | hs5
  · obtain ⟨u1, x1, q1, hs5⟩ := run_seq_step hs5
    obtain ⟨u2, x2, q2, d2, hs5⟩ := run_group_step hs5
    obtain ⟨x3, q3⟩ := run_step hs5
    obtain rfl := sem_str.1 q1.sem
    obtain rfl := sem_str.1 q3.sem
    have hx2 : Plain x2 := sem_plain.1 q2.sem
    rw [q1.post, q2.post, q3.post] at e
    cases year with
    | none =>
      exfalso
      have e : (w4 ++ [' ']) ++ '<' :: (py! "cds.YR>(" ++ (x2 ++ (py! ")</cds.YR>" ++ s5.post))) =
        [' '] ++ '<' :: (py! "cds.PG>" ++ (page ++ (py! "</cds.PG>" ++ r))) := by simpa [enclose, yearPage] using e
      obtain ⟨-, e⟩ := cutLt (by simp [hw4]) (by simp) e
      simp at e
    | some y =>
      have e : (w4 ++ [' ']) ++ '<' :: (py! "cds.YR>(" ++ (x2 ++ (py! ")</cds.YR>" ++ s5.post))) =
        [' '] ++ '<' :: (py! "cds.YR>(" ++ (y ++ (py! ")</cds.YR>" ++ (py! " " ++ enclose (py! "PG") page ++ r)))) := by
          simpa [enclose, yearPage] using e
      obtain ⟨-, e⟩ := cutLt (by simp [hw4]) (by simp) e
      have e : (x2 ++ [')']) ++ '<' :: (py! "/cds.YR>" ++ s5.post) =
        (y ++ [')']) ++ '<' :: (py! "/cds.YR>" ++ (py! " " ++ enclose (py! "PG") page ++ r)) := by simpa using e
      obtain ⟨e1, e⟩ := cutLt (by simp [hx2.2]) (by simp [(hy y rfl).2]) e
      obtain rfl := List.append_cancel_right e1
      have e := List.append_cancel_left e
      obtain ⟨f1, rfl⟩ := ends (x := []) (by simp) (by simpa using e)
      refine ⟨f1, ?_, ?_, cpg, ?_⟩
      · rw [cvol, q3.cap _ (by decide), q2.cap _ (by decide), q1.cap _ (by decide), cvol4]
      · rw [cyr, q3.cap _ (by decide), d2]
      · rw [cser, q3.cap _ (by decide), q2.cap _ (by decide), q1.cap _ (by decide), cser4]
  · have hs : s5 = s4 := by simpa [run] using hs5
    subst hs
    cases year with
    | some y =>
      exfalso
      rw [p6.post, p7.post] at e
      have e : (w4 ++ w6 ++ [' ']) ++ '<' :: (py! "cds.PG>" ++ s7.post) =
        [' '] ++ '<' :: (py! "cds.YR>(" ++ (y ++ (py! ")</cds.YR>" ++ (py! " " ++ enclose (py! "PG") page ++ r)))) := by
          simpa [enclose, yearPage] using e
      obtain ⟨-, e⟩ := cutLt (by simp [hw4, hw6]) (by simp) e
      simp at e
    | none =>
      obtain ⟨f1, rfl⟩ := ends hw4 (by simpa [yearPage] using e)
      exact ⟨f1, by rw [cvol, cvol4], by rw [cyr, cyr4], cpg, by rw [cser, cser4]⟩

/-- Blanks and stops around a series. -/
def padChar (c : Char) : Prop := isSpace c = true ∨ c = '.' ∨ c = ',' ∨ c = ':'

omit [UnicodeDB] in
theorem pad_not_series {c : Char} (h : padChar c) : ¬ seriesChar c := by
  intro hs
  have h1 : ∃ n, n ≤ 86 ∧ 65 ≤ n ∧ c = Char.ofNat n := ⟨c.toNat, hs.2, hs.1, (Char.ofNat_toNat c).symm⟩
  obtain ⟨n, h2, h3, rfl⟩ := h1
  have : ∀ n ≤ 86, 65 ≤ n → ¬ (isSpace (Char.ofNat n) = true ∨ Char.ofNat n = '.' ∨ Char.ofNat n = ',' ∨ Char.ofNat n = ':') := by
    decide +kernel
  exact this n h2 h3 h

/-- What comes before the volume in the tagged form. -/
def lead (series : Option Str) : Str := match series with | some s => py! " " ++ s ++ py! " : " | none => py! " "

omit [UnicodeDB] in
theorem lead_chars {series : Option Str} (h : ∀ s, series = some s → IsSeries s) : ∀ c ∈ lead series, padChar c ∨ seriesChar c := by
  intro c hc
  cases series with
  | none =>
    simp [lead] at hc
    exact .inl (.inl (by rw [hc]; decide))
  | some s =>
    simp [lead] at hc
    rcases hc with rfl | hc | rfl | rfl | rfl
    · exact .inl (.inl (by decide))
    · exact .inr ((series_chars (h s rfl)).2 c hc)
    · exact .inl (.inl (by decide))
    · exact .inl (.inr (.inr (.inr rfl)))
    · exact .inl (.inl (by decide))

omit [UnicodeDB] in
theorem lead_lt {series : Option Str} (h : ∀ s, series = some s → IsSeries s) : '<' ∉ lead series := by
  intro hm
  rcases lead_chars h _ hm with (h | h | h | h) | h
  · exact absurd h (by decide)
  · exact absurd h (by decide)
  · exact absurd h (by decide)
  · exact absurd h (by decide)
  · exact absurd h (by unfold seriesChar; decide)

omit [UnicodeDB] in
theorem pad_lt {w : Str} (h : ∀ c ∈ w, padChar c) : '<' ∉ w := by
  intro hm
  rcases h _ hm with h | h | h | h <;> exact absurd h (by decide)

omit [UnicodeDB] in
theorem pad_spaces {w : Str} (h : Spaces w) : ∀ c ∈ w, padChar c := fun c hc => .inl (h c hc)

theorem match_numeration {adv : Bool} {series : Option Str} {vol page r : Str} {year : Option Str} {m : Match}
    (hs : ∀ s, series = some s → IsSeries s) (hv : Plain vol) (hy : ∀ y, year = some y → Plain y) (hp : Plain page)
    (h : matchHere Rx.re_recognised_numeration_title_plus_series adv [] (renderNumeration series vol year page ++ r) = some m) :
    m.txt = renderNumeration series vol year page ∧ m.group G.series = series ∧ m.group G.vol = some vol ∧
      m.group G.yr = year ∧ m.group G.pg = some page := by
  obtain ⟨t, ht, h1, -, -, h3⟩ := matchHere_cap h
  rw [re_recognised_eq] at ht
  obtain ⟨s1, w1, p1, ht⟩ := run_seq_step ht
  obtain ⟨s2, w2, p2, ht⟩ := run_seq_step ht
  obtain ⟨s3, w3, p3, ht⟩ := run_seq_step ht
  obtain ⟨s4, w4, p4, ht⟩ := run_seq_step ht
  obtain ⟨s5, w5, p5, ht⟩ := run_seq_step ht
  have hw1 : w1 = [] := p1.sem.1
  subst hw1
  have g2 := pad_spaces (sem_spaces.1 p2.sem)
  have g4 := pad_spaces (sem_spaces.1 p4.sem)
  have g3 : ∀ c ∈ w3, padChar c := by
    rcases sem_opt.1 p3.sem with ⟨c, rfl, hc⟩ | rfl
    · intro d hd
      obtain rfl := List.mem_singleton.1 hd
      simp [CSet.mem, CItem.mem] at hc
      rcases hc with rfl | rfl
      · exact .inr (.inl rfl)
      · exact .inr (.inr (.inl rfl))
    · simp
  have e0 : w2 ++ (w3 ++ (w4 ++ (w5 ++ s5.post))) = lead series ++ (enclose (py! "VOL") vol ++ (yearPage year page ++ r)) := by
    rw [← p5.post, ← p4.post, ← p3.post, ← p2.post]
    have := p1.post
    simp only [List.nil_append] at this
    rw [← this]
    cases series <;> cases year <;> simp [renderNumeration, lead, yearPage]
  have cs0 : ∀ g, g ∉ [G.series, G.vol, G.yr, G.pg] ∨ True → s5.cap g = none := by
    intro g _
    rw [p5.cap _ (by simp [Re.opt, Re.groups, Re.space]), p4.cap _ (by simp [Re.groups, Re.space]), p3.cap _ (by simp [Re.opt, Re.groups]),
      p2.cap _ (by simp [Re.groups, Re.space]), p1.cap _ (by simp [Re.groups])]
    rfl
  -- the tail, given what comes before the volume
  have tail : ∀ {s6 s7 s8 s9 : St} {w7 w8 w9 x : Str}, Step (.star true Re.space) s6 s7 w7 → Step (Re.opt (Re.ch ':')) s7 s8 w8 →
      Step (.star true Re.space) s8 s9 w9 → t ∈ run numTail s9 → s6.cap G.yr = none → '<' ∉ x →
      x ++ s6.post = lead series ++ (enclose (py! "VOL") vol ++ (yearPage year page ++ r)) →
      (∀ c ∈ w7 ++ (w8 ++ w9), padChar c) ∧ x ++ (w7 ++ (w8 ++ w9)) = lead series ∧ t.post = r ∧ t.cap G.vol = some vol ∧
        t.cap G.yr = year ∧ t.cap G.pg = some page ∧ t.cap G.series = s6.cap G.series := by
    intro s6 s7 s8 s9 w7 w8 w9 x p7 p8 p9 ht hyr hx e
    have g7 := pad_spaces (sem_spaces.1 p7.sem)
    have g9 := pad_spaces (sem_spaces.1 p9.sem)
    have g8 : ∀ c ∈ w8, padChar c := by
      rcases sem_optCh.1 p8.sem with rfl | rfl
      · simp
      · intro d hd
        obtain rfl := List.mem_singleton.1 hd
        exact .inr (.inr (.inr rfl))
    have g : ∀ c ∈ w7 ++ (w8 ++ w9), padChar c := by
      intro c hc
      simp only [List.mem_append] at hc
      rcases hc with hc | hc | hc
      · exact g7 c hc
      · exact g8 c hc
      · exact g9 c hc
    have hhead : ∃ q, s9.post = '<' :: q := by
      unfold numTail at ht
      obtain ⟨u, x, q, -⟩ := run_seq_step ht
      obtain rfl := sem_str.1 q.sem
      exact ⟨_, q.post⟩
    obtain ⟨q, hq⟩ := hhead
    have e' : (x ++ (w7 ++ (w8 ++ w9))) ++ '<' :: q = lead series ++ '<' :: (py! "cds.VOL>" ++ vol ++ py! "</cds.VOL>" ++ (yearPage year page ++ r)) := by
      rw [← hq]
      rw [p7.post, p8.post, p9.post] at e
      simpa [enclose] using e
    obtain ⟨e1, e2⟩ := cutLt (by rw [List.mem_append, not_or]; exact ⟨hx, pad_lt g⟩) (lead_lt hs) e'
    obtain ⟨f1, f2, f3, f4, f5⟩ := run_numTail (r := r) ht hv hy hp (by rw [hq, e2]; simp [enclose])
      (by rw [p9.cap _ (by decide), p8.cap _ (by decide), p7.cap _ (by decide), hyr])
    exact ⟨g, e1, f1, f2, f3, f4, by rw [f5, p9.cap _ (by decide), p8.cap _ (by decide), p7.cap _ (by decide)]⟩
  have fin : t.post = r → m.txt = renderNumeration series vol year page := by
    intro e
    rw [e] at h1
    exact (List.append_cancel_right h1).symm
  -- no `Ser.`
  have hser : (∀ c ∈ w5, padChar c ∨ seriesChar c) → w5 = [] := by
    intro hc
    rcases sem_opt.1 p5.sem with ⟨u, v, rfl, hu, -⟩ | rfl
    · obtain rfl := sem_str.1 hu
      rcases hc 'e' (by simp) with (h | h | h | h) | h
      · exact absurd h (by decide)
      · exact absurd h (by decide)
      · exact absurd h (by decide)
      · exact absurd h (by decide)
      · exact absurd h (by unfold seriesChar; decide)
    · rfl
  have lt5 : '<' ∉ w5 := by
    rcases sem_opt.1 p5.sem with ⟨u, v, rfl, hu, hv⟩ | rfl
    · obtain rfl := sem_str.1 hu
      have := lt_spaces (sem_spaces.1 hv)
      simp [this]
    · simp
  have lt234 : '<' ∉ w2 ++ (w3 ++ (w4 ++ w5)) := by
    simp only [List.mem_append, not_or]
    exact ⟨pad_lt g2, pad_lt g3, pad_lt g4, lt5⟩
  rcases run_optGroup ht with ⟨s6, w6, p6, c6, ht⟩ | ht
  · obtain ⟨s7, w7, p7, ht⟩ := run_seq_step ht
    obtain ⟨s8, w8, p8, ht⟩ := run_seq_step ht
    obtain ⟨s9, w9, p9, ht⟩ := run_seq_step ht
    have i6 : IsSeries w6 := sem_series.1 p6.sem
    have c6' := series_chars i6
    have lt6 : '<' ∉ w6 := fun hm => absurd (c6'.2 _ hm) (by unfold seriesChar; decide)
    obtain ⟨g, e1, f1, f2, f3, f4, f5⟩ := tail (x := (w2 ++ (w3 ++ (w4 ++ w5))) ++ w6) p7 p8 p9 ht
      (by rw [p6.cap _ (by decide), cs0 _ (.inr trivial)]) (by rw [List.mem_append, not_or]; exact ⟨lt234, lt6⟩)
      (by rw [← e0, p6.post]; simp)
    have h5 : w5 = [] := hser fun c hc => lead_chars hs c (by rw [← e1]; simp [hc])
    subst h5
    have hA : ∀ c ∈ w2 ++ (w3 ++ w4), ¬ seriesChar c := by
      intro c hc
      simp only [List.mem_append] at hc
      rcases hc with hc | hc | hc
      · exact pad_not_series (g2 c hc)
      · exact pad_not_series (g3 c hc)
      · exact pad_not_series (g4 c hc)
    have hser : series = some w6 := by
      cases series with
      | none =>
        exfalso
        obtain ⟨c, q, rfl⟩ := List.exists_cons_of_ne_nil c6'.1
        have hc : c ∈ lead none := by rw [← e1]; simp
        refine absurd (c6'.2 c (by simp)) (pad_not_series ?_)
        simp [lead] at hc
        exact .inl (by rw [hc]; decide)
      | some s =>
        have hs' := series_chars (hs s rfl)
        have e1 : (w2 ++ (w3 ++ w4)) ++ (w6 ++ (w7 ++ (w8 ++ w9))) = [' '] ++ (s ++ py! " : ") := by
          simpa [lead] using e1
        obtain ⟨c, q, hc⟩ := List.exists_cons_of_ne_nil c6'.1
        obtain ⟨d, q', hd⟩ := List.exists_cons_of_ne_nil hs'.1
        obtain ⟨-, e2⟩ := cut_unique (P := fun c => ¬ seriesChar c) hA
          (by simp only [List.mem_singleton]; rintro c rfl; unfold seriesChar; decide)
          (by rw [hc]; simp only [List.cons_append, List.head?_cons, Option.some.injEq]; rintro _ rfl; exact fun h => h (c6'.2 _ (by simp [hc])))
          (by rw [hd]; simp only [List.cons_append, List.head?_cons, Option.some.injEq]; rintro _ rfl; exact fun h => h (hs'.2 _ (by simp [hd])))
          e1
        obtain ⟨e3, -⟩ := cut_unique (P := seriesChar) c6'.2 hs'.2
          (fun c hc => pad_not_series (g c (List.mem_of_mem_head? (by simpa using hc))))
          (by simp only [List.head?_cons, Option.some.injEq]; rintro _ rfl; unfold seriesChar; decide) e2
        rw [e3]
    exact ⟨fin f1, by rw [h3, f5, c6, hser], by rw [h3, f2], by rw [h3, f3], by rw [h3, f4]⟩
  · obtain ⟨s7, w7, p7, ht⟩ := run_seq_step ht
    obtain ⟨s8, w8, p8, ht⟩ := run_seq_step ht
    obtain ⟨s9, w9, p9, ht⟩ := run_seq_step ht
    obtain ⟨g, e1, f1, f2, f3, f4, f5⟩ := tail (x := w2 ++ (w3 ++ (w4 ++ w5))) p7 p8 p9 ht (cs0 _ (.inr trivial)) lt234
      (by rw [← e0]; simp)
    have h5 : w5 = [] := hser fun c hc => lead_chars hs c (by rw [← e1]; simp [hc])
    subst h5
    have hser : series = none := by
      cases series with
      | none => rfl
      | some s =>
        exfalso
        obtain ⟨h6, h7⟩ := series_chars (hs s rfl)
        obtain ⟨c, q, rfl⟩ := List.exists_cons_of_ne_nil h6
        have hc : c ∈ w2 ++ (w3 ++ (w4 ++ [])) ++ (w7 ++ (w8 ++ w9)) := by rw [e1]; simp [lead]
        refine absurd (h7 c (by simp)) (pad_not_series ?_)
        rw [List.mem_append] at hc
        rcases hc with hc | hc
        · simp only [List.append_nil, List.mem_append] at hc
          rcases hc with hc | hc | hc
          · exact g2 c hc
          · exact g3 c hc
          · exact g4 c hc
        · exact g c hc
    exact ⟨fin f1, by rw [h3, f5, cs0 _ (.inr trivial), hser], by rw [h3, f2], by rw [h3, f3], by rw [h3, f4]⟩

/-- The tagged form of a numeration is recognised. -/
theorem search_numeration {series : Option Str} {vol page r : Str} {year : Option Str}
    (hs : ∀ s, series = some s → IsSeries s) (hv : Plain vol) (hy : ∀ y, year = some y → Plain y) (hp : Plain page) :
    ∃ m, search Rx.re_recognised_numeration_title_plus_series (renderNumeration series vol year page ++ r) = some m ∧
      m.stop = (renderNumeration series vol year page).length ∧ m.group G.series = series ∧ m.group G.vol = some vol ∧
      m.group G.yr = year ∧ m.group G.pg = some page := by
  have hsp : ∀ {g : Bool} {pre post : Str}, Sem (.star g Re.space) pre [' '] post := sem_spaces.2 (by intro c hc; obtain rfl := List.mem_singleton.1 hc; decide)
  have hnil : ∀ {g : Bool} {pre post : Str}, Sem (.star g Re.space) pre [] post := sem_spaces.2 (by intro c hc; simp at hc)
  have ex : ∃ m, matchHere Rx.re_recognised_numeration_title_plus_series false [] (renderNumeration series vol year page ++ r) = some m := by
    rw [matchHere_isSome]
    refine ⟨_, _, rfl, ?_⟩
    have htail : ∀ pre, Sem numTail pre (enclose (py! "VOL") vol ++ yearPage year page) r := by
      intro pre
      refine ⟨py! "<cds.VOL>", vol ++ (py! "</cds.VOL>" ++ yearPage year page), by simp [enclose], sem_str.2 rfl, _, _, rfl, sem_plain.2 hv,
        _, _, rfl, sem_str.2 rfl, ?_⟩
      cases year with
      | none =>
        refine ⟨[], yearPage none page, rfl, hnil, [], _, rfl, .inr rfl, [], _, rfl, hnil, py! " <cds.PG>", page ++ py! "</cds.PG>", ?_, sem_str.2 rfl, _, _, rfl, sem_plain.2 hp, sem_str.2 rfl⟩
        simp [enclose]
      | some y =>
        refine ⟨[], yearPage (some y) page, rfl, hnil, py! " <cds.YR>(" ++ y ++ py! ")</cds.YR>", py! " " ++ enclose (py! "PG") page, ?_, .inl ⟨py! " <cds.YR>(", y ++ py! ")</cds.YR>", by simp, sem_str.2 rfl, _, _, rfl, sem_plain.2 (hy y rfl), sem_str.2 rfl⟩,
          [], _, rfl, hnil, py! " <cds.PG>", page ++ py! "</cds.PG>", ?_, sem_str.2 rfl, _, _, rfl, sem_plain.2 hp, sem_str.2 rfl⟩
        · simp [yearPage, enclose]
        · simp [enclose]
    have hre : renderNumeration series vol year page = lead series ++ (enclose (py! "VOL") vol ++ yearPage year page) := by
      cases series <;> cases year <;> simp [renderNumeration, lead, yearPage]
    rw [hre, re_recognised_eq]
    cases series with
    | none =>
      exact ⟨[], _, rfl, ⟨rfl, rfl⟩, [' '], _, rfl, hsp, [], _, rfl, .inr rfl, [], _, rfl, hnil, [], _, rfl, .inr rfl, [], _, rfl, .inr rfl,
        [], _, rfl, hnil, [], _, rfl, .inr rfl, [], _, rfl, hnil, htail _⟩
    | some s =>
      exact ⟨[], _, rfl, ⟨rfl, rfl⟩, [' '], s ++ (py! " : " ++ (enclose (py! "VOL") vol ++ yearPage year page)), by simp, hsp, [], _, rfl, .inr rfl, [], _, rfl, hnil, [], _, rfl, .inr rfl,
        s, _, rfl, .inl (sem_series.2 (hs s rfl)),
        [' '], _, rfl, hsp, [':'], _, rfl, .inl (sem_ch.2 rfl), [' '], _, rfl, hsp, htail _⟩
  obtain ⟨m, hm⟩ := ex
  refine ⟨m, ?_, ?_, (match_numeration hs hv hy hp hm).2⟩
  · rw [re_recognised_eq, search_bos, reMatch, ← re_recognised_eq]; exact hm
  · obtain ⟨t, -, -, -, h, -⟩ := matchHere_cap hm
    rw [Match.stop, h, (match_numeration hs hv hy hp hm).1]
    simp

/-! ### One item -/

/-- The first tag is not that of a volume. -/
def NoVol (s : Str) : Prop := ∀ a b, s = a ++ (py! "<cds.VOL>" ++ b) → '<' ∈ a

theorem no_extra {s : Str} (h : NoVol s) : reMatch Rx.re_numeration_no_ibid_txt s = none := by
  rw [reMatch, matchHere_none]
  rintro ⟨w, rest, rfl, w1, v1, rfl, h1, w2, v2, rfl, h2, w3, v3, rfl, h3, w4, v4, rfl, h4, w5, v5, rfl, h5, w6, v6, rfl, h6, w7, v7, rfl, h7, -⟩
  obtain rfl := sem_str.1 h7
  have hw1 : w1 = [] := h1.1
  subst hw1
  have l2 : '<' ∉ w2 := by
    rcases h2 with ⟨a, b, rfl, ha, c, d, rfl, hc, hd⟩ | ⟨a, b, rfl, ha, c, d, rfl, hc, hd⟩
    · obtain rfl := sem_ch.1 hc
      have := lt_spaces (sem_spaces.1 ha)
      have := lt_spaces (sem_spaces.1 hd)
      simp [*]
    · obtain rfl := sem_str.1 hc
      have := lt_spaces (plusSpace_sem.1 ha).2
      have := lt_spaces (plusSpace_sem.1 hd).2
      simp [*]
  have l3 : '<' ∉ w3 := by
    rcases sem_opt.1 h3 with h3 | rfl
    · intro hm
      exact absurd ((series_chars (sem_series.1 h3)).2 _ hm) (by unfold seriesChar; decide)
    · simp
  have l4 := lt_spaces (sem_spaces.1 h4)
  have l5 : '<' ∉ w5 := by
    rcases sem_optCh.1 h5 with rfl | rfl <;> simp
  have l6 : '<' ∉ w6 := by
    obtain ⟨c, rfl, hc⟩ := sem_space1.1 h6
    simp only [List.mem_singleton]
    rintro rfl
    exact absurd hc (by decide)
  have := h (w2 ++ (w3 ++ (w4 ++ (w5 ++ w6)))) (v7 ++ rest) (by simp)
  simp [l2, l3, l4, l5, l6] at this

theorem extra_none {s title : Str} {fuel : Nat} (h : NoVol s) : extraIbids fuel title s = (s, []) := by
  cases fuel with
  | zero => rfl
  | succ n => rw [extraIbids, no_extra h]

/-- Counting an item. -/
def addCount (n : Counts) : Item → Counts
  | .journal .. => { n with title := n.title + 1 }
  | .report _ => { n with reportnum := n.reportnum + 1 }
  | .arxiv _ => { n with reportnum := n.reportnum + 1 }
  | .url .. => { n with url := n.url + 1 }
  | .doi _ => { n with doi := n.doi + 1 }
  | .author .. => { n with auth := n.auth + 1 }
  | _ => n

/-- The opening tag of an item. -/
def openOf : Item → Str × Str
  | .journal true .. => (py! "<cds.JOURNALibid>", py! "JOURNALibid")
  | .journal false .. => (py! "<cds.JOURNAL>", py! "JOURNAL")
  | .report _ => (py! "<cds.REPORTNUMBER>", py! "REPORTNUMBER")
  | .arxiv _ => (py! "<cds.ARXIV>", py! "ARXIV")
  | .url .. => (py! "<cds.URL />", py! "URL")
  | .doi _ => (py! "<cds.DOI />", py! "DOI")
  | .author k _ => (py! "<cds.AUTH" ++ k ++ py! ">", py! "AUTH" ++ k)
  | .quoted _ => (py! "<cds.QUOTED>", py! "QUOTED")
  | .isbn _ => (py! "<cds.ISBN>", py! "ISBN")
  | .publisher _ => (py! "<cds.PUBLISHER>", py! "PUBLISHER")
  | .collaboration _ => (py! "<cds.COLLABORATION>", py! "COLLABORATION")

theorem open_plain {name : Str} (h : name ∈ tagNames) : OpenTag (py! "<cds." ++ name ++ py! ">") name :=
  ⟨h, [], .inl rfl, by simp⟩

theorem open_item {it : Item} (h : it.Ok) : OpenTag (openOf it).1 (openOf it).2 ∧ (openOf it).2 ≠ py! "VOL" ∧
    ∃ q, it.render = (openOf it).1 ++ q := by
  cases it with
  | journal ibid title series vol year page =>
    cases ibid
    · exact ⟨open_plain (name := py! "JOURNAL") (by decide), by simp [openOf], _, by simp [Item.render, openOf, enclose]; rfl⟩
    · exact ⟨open_plain (name := py! "JOURNALibid") (by decide), by simp [openOf], _, by simp [Item.render, openOf, enclose]; rfl⟩
  | report t => exact ⟨open_plain (name := py! "REPORTNUMBER") (by decide), by simp [openOf], _, by simp [Item.render, openOf, enclose]; rfl⟩
  | arxiv t => exact ⟨open_plain (name := py! "ARXIV") (by decide), by simp [openOf], _, by simp [Item.render, openOf, enclose]; rfl⟩
  | url u d => exact ⟨⟨by simp [openOf, tagNames], [' ', '/'], .inr ⟨' ', by decide, rfl⟩, rfl⟩, by simp [openOf], [], by simp [Item.render, openOf]⟩
  | doi d => exact ⟨⟨by simp [openOf, tagNames], [' ', '/'], .inr ⟨' ', by decide, rfl⟩, rfl⟩, by simp [openOf], [], by simp [Item.render, openOf]⟩
  | author k t =>
    obtain ⟨hk, -⟩ := h
    refine ⟨?_, by simp [openOf], _, by simp [Item.render, openOf, enclose]; rfl⟩
    simp only [List.mem_cons, List.not_mem_nil, or_false] at hk
    rcases hk with rfl | rfl | rfl
    · exact open_plain (name := py! "AUTHstnd") (by decide)
    · exact open_plain (name := py! "AUTHetal") (by decide)
    · exact open_plain (name := py! "AUTHincl") (by decide)
  | quoted t => exact ⟨open_plain (name := py! "QUOTED") (by decide), by simp [openOf], _, by simp [Item.render, openOf, enclose]; rfl⟩
  | isbn t => exact ⟨open_plain (name := py! "ISBN") (by decide), by simp [openOf], _, by simp [Item.render, openOf, enclose]; rfl⟩
  | publisher t => exact ⟨open_plain (name := py! "PUBLISHER") (by decide), by simp [openOf], _, by simp [Item.render, openOf, enclose]; rfl⟩
  | collaboration t => exact ⟨open_plain (name := py! "COLLABORATION") (by decide), by simp [openOf], _, by simp [Item.render, openOf, enclose]; rfl⟩

omit [UnicodeDB] in
theorem slice_mid (p t q : Str) : slice (p ++ (t ++ q)) p.length (p.length + t.length) = t := by
  rw [slice, ← List.append_assoc, List.take_left' (by simp), List.drop_left]

omit [UnicodeDB] in
theorem drop_mid (p t c q : Str) : (p ++ (t ++ (c ++ q))).drop (p.length + t.length + c.length) = q := by
  rw [← List.append_assoc, ← List.append_assoc, List.drop_left' (by simp [Nat.add_assoc])]

omit [UnicodeDB] in
theorem simple_ok {tag p t rest : Str} {mk : Str → Str → El} {count : Counts → Counts} {st : PState} (h : tag ∈ tagNames)
    (hf : Free tag t) (hl : st.line = p ++ (t ++ (closing tag ++ rest))) :
    simpleStep tag mk count p.length st =
      { st with line := rest, misc := [], els := st.els ++ [mk st.misc t], n := count st.n } := by
  unfold simpleStep
  rw [hl, findFrom_closing h hf]
  simp only [slice_mid, drop_mid]

omit [UnicodeDB] in
theorem subfield_ok {tag p t rest : Str} {mk : Str → Str → El} {st : PState} (h : tag ∈ tagNames)
    (hf : Free tag t) (hl : st.line = p ++ (t ++ (closing tag ++ rest))) :
    subfieldStep tag mk p.length st = { st with line := rest, misc := [], els := st.els ++ [mk st.misc t] } := by
  unfold subfieldStep
  simp only [hl, List.drop_left, find_closing h hf, List.take_left]
  congr 1
  rw [← List.append_assoc, List.drop_left' (by simp)]

theorem journal_ok {ibid : Bool} {title vol page rest : Str} {series year : Option Str} {st : PState}
    (hs : ∀ s, series = some s → IsSeries s) (hv : Plain vol) (hy : ∀ y, year = some y → Plain y) (hp : Plain page)
    (hr : NoVol rest) :
    journalStep ibid title (renderNumeration series vol year page ++ rest) st =
      { st with line := rest, misc := [], els := st.els ++ [Item.el st.misc (.journal ibid title series vol year page)],
                n := { st.n with title := st.n.title + 1 } } := by
  obtain ⟨m, h1, h2, h3, h4, h5, h6⟩ := search_numeration (r := rest) hs hv hy hp
  unfold journalStep
  rw [h1]
  simp only [h2, List.drop_left, extra_none hr]
  congr 1
  cases series <;> cases year <;> simp [Item.el, seriesVolume, Match.tgroup, h3, h4, h5, h6]

theorem tagStep_item {it : Item} {t rest : Str} {st : PState} {m : Match} {us : List (Str × Str)} {ds : List Str}
    (hok : it.Ok) (hr : NoVol rest) (hl : st.line = t ++ (it.render ++ rest)) (hu : st.urls = it.urls ++ us) (hd : st.dois = it.dois ++ ds)
    (h1 : m.start = t.length) (h2 : m.stop = t.length + (openOf it).1.length) (h3 : m.tgroup 1 = (openOf it).2)
    (h4 : truthy (m.tgroup G.ibid) = decide ((openOf it).2 = py! "JOURNALibid")) :
    tagStep st m = .ok { line := rest, misc := [], els := st.els ++ [it.el (st.misc ++ t)], urls := us, dois := ds,
                         n := addCount st.n it } := by
  have htake : st.line.take m.start = t := by rw [hl, h1, List.take_left]
  unfold tagStep
  simp only [htake, h3, h4]
  cases it with
  | journal ibid title series vol year page =>
    obtain ⟨k1, k2, k3, k4, k5⟩ := hok
    cases ibid
    · have e : m.stop = (t ++ py! "<cds.JOURNAL>").length := by rw [h2]; simp [openOf]
      have el : st.line = (t ++ py! "<cds.JOURNAL>") ++ (title ++ (closing (py! "JOURNAL") ++ (renderNumeration series vol year page ++ rest))) := by
        simp [hl, Item.render, enclose, closing]
      have ef := findFrom_closing (name := py! "JOURNAL") (p := t ++ py! "<cds.JOURNAL>") (t := title) (r := renderNumeration series vol year page ++ rest) (by decide) k1
      show (if contains (py! "JOURNAL") (py! "JOURNAL") = true then _ else _) = _
      rw [if_pos (by decide +kernel)]
      show (match findFrom (closing (py! "JOURNAL")) st.line m.stop with
        | none => _
        | some i => Except.ok (journalStep false (slice st.line m.stop i) (st.line.drop (i + (closing (py! "JOURNAL")).length)) _)) = _
      rw [e, el, ef]
      simp only [slice_mid, drop_mid]
      refine congrArg Except.ok ((journal_ok k2 k3 k4 k5 hr).trans ?_)
      simp [addCount, hu, hd, Item.urls, Item.dois]
    · have e : m.stop = (t ++ py! "<cds.JOURNALibid>").length := by rw [h2]; simp [openOf]
      have el : st.line = (t ++ py! "<cds.JOURNALibid>") ++ (title ++ (closing (py! "JOURNALibid") ++ (renderNumeration series vol year page ++ rest))) := by
        simp [hl, Item.render, enclose, closing]
      have ef := findFrom_closing (name := py! "JOURNALibid") (p := t ++ py! "<cds.JOURNALibid>") (t := title) (r := renderNumeration series vol year page ++ rest) (by decide) k1
      show (if contains (py! "JOURNALibid") (py! "JOURNAL") = true then _ else _) = _
      rw [if_pos (by decide +kernel)]
      show (match findFrom (closing (py! "JOURNALibid")) st.line m.stop with
        | none => _
        | some i => Except.ok (journalStep true (slice st.line m.stop i) (st.line.drop (i + (closing (py! "JOURNALibid")).length)) _)) = _
      rw [e, el, ef]
      simp only [slice_mid, drop_mid]
      refine congrArg Except.ok ((journal_ok k2 k3 k4 k5 hr).trans ?_)
      simp [addCount, hu, hd, Item.urls, Item.dois]
  | report x =>
    have e : m.stop = (t ++ py! "<cds.REPORTNUMBER>").length := by rw [h2]; simp [openOf]
    simp only [openOf]
    rw [e]
    refine congrArg Except.ok ((simple_ok (p := t ++ py! "<cds.REPORTNUMBER>") (t := x) (rest := rest) (by decide) hok (by simp [hl, Item.render, enclose, closing])).trans ?_)
    simp [addCount, Item.el, hu, hd, Item.urls, Item.dois]
  | arxiv x =>
    have e : m.stop = (t ++ py! "<cds.ARXIV>").length := by rw [h2]; simp [openOf]
    simp only [openOf]
    rw [e]
    refine congrArg Except.ok ((simple_ok (p := t ++ py! "<cds.ARXIV>") (t := x) (rest := rest) (by decide) hok (by simp [hl, Item.render, enclose, closing])).trans ?_)
    simp [addCount, Item.el, hu, hd, Item.urls, Item.dois]
  | url u d =>
    have e : m.stop = (t ++ py! "<cds.URL />").length := by rw [h2]; simp [openOf]
    have edrop : st.line.drop m.stop = rest := by
      rw [e, hl, Item.render, ← List.append_assoc, List.drop_left]
    simp only [openOf]
    rw [if_neg (by decide +kernel), if_neg (by decide), if_neg (by decide)]
    simp only [hu, hd, edrop, Item.urls, Item.dois]
    simp [addCount, Item.el]
  | doi d =>
    have e : m.stop = (t ++ py! "<cds.DOI />").length := by rw [h2]; simp [openOf]
    have edrop : st.line.drop m.stop = rest := by
      rw [e, hl, Item.render, ← List.append_assoc, List.drop_left]
    simp only [openOf]
    rw [if_neg (by decide +kernel), if_neg (by decide), if_neg (by decide), if_neg (by decide)]
    simp only [hu, hd, edrop, Item.urls, Item.dois]
    simp [addCount, Item.el]
  | author k x =>
    obtain ⟨hk, hf⟩ := hok
    simp only [List.mem_cons, List.not_mem_nil, or_false] at hk
    rcases hk with rfl | rfl | rfl
    · have e : m.stop = (t ++ py! "<cds.AUTHstnd>").length := by rw [h2]; simp [openOf]
      simp only [openOf]
      rw [e]
      refine congrArg Except.ok ((simple_ok (p := t ++ py! "<cds.AUTHstnd>") (t := x) (rest := rest) (by decide) hf (by simp [hl, Item.render, enclose, closing])).trans ?_)
      simp [addCount, Item.el, hu, hd, Item.urls, Item.dois]
      rfl
    · have e : m.stop = (t ++ py! "<cds.AUTHetal>").length := by rw [h2]; simp [openOf]
      simp only [openOf]
      rw [e]
      refine congrArg Except.ok ((simple_ok (p := t ++ py! "<cds.AUTHetal>") (t := x) (rest := rest) (by decide) hf (by simp [hl, Item.render, enclose, closing])).trans ?_)
      simp [addCount, Item.el, hu, hd, Item.urls, Item.dois]
      rfl
    · have e : m.stop = (t ++ py! "<cds.AUTHincl>").length := by rw [h2]; simp [openOf]
      simp only [openOf]
      rw [e]
      refine congrArg Except.ok ((simple_ok (p := t ++ py! "<cds.AUTHincl>") (t := x) (rest := rest) (by decide) hf (by simp [hl, Item.render, enclose, closing])).trans ?_)
      simp [addCount, Item.el, hu, hd, Item.urls, Item.dois]
      rfl
  | quoted x =>
    have e : m.stop = (t ++ py! "<cds.QUOTED>").length := by rw [h2]; simp [openOf]
    simp only [openOf]
    rw [e]
    refine congrArg Except.ok ((subfield_ok (p := t ++ py! "<cds.QUOTED>") (t := x) (rest := rest) (by decide) hok (by simp [hl, Item.render, enclose, closing])).trans ?_)
    simp [addCount, Item.el, hu, hd, Item.urls, Item.dois]
  | isbn x =>
    have e : m.stop = (t ++ py! "<cds.ISBN>").length := by rw [h2]; simp [openOf]
    simp only [openOf]
    rw [e]
    refine congrArg Except.ok ((subfield_ok (p := t ++ py! "<cds.ISBN>") (t := x) (rest := rest) (by decide) hok (by simp [hl, Item.render, enclose, closing])).trans ?_)
    simp [addCount, Item.el, hu, hd, Item.urls, Item.dois]
  | publisher x =>
    have e : m.stop = (t ++ py! "<cds.PUBLISHER>").length := by rw [h2]; simp [openOf]
    simp only [openOf]
    rw [e]
    refine congrArg Except.ok ((subfield_ok (p := t ++ py! "<cds.PUBLISHER>") (t := x) (rest := rest) (by decide) hok (by simp [hl, Item.render, enclose, closing])).trans ?_)
    simp [addCount, Item.el, hu, hd, Item.urls, Item.dois]
  | collaboration x =>
    have e : m.stop = (t ++ py! "<cds.COLLABORATION>").length := by rw [h2]; simp [openOf]
    simp only [openOf]
    rw [e]
    refine congrArg Except.ok ((subfield_ok (p := t ++ py! "<cds.COLLABORATION>") (t := x) (rest := rest) (by decide) hok (by simp [hl, Item.render, enclose, closing])).trans ?_)
    simp [addCount, Item.el, hu, hd, Item.urls, Item.dois]

/-! ### The loop -/

theorem search_noTags {s : Str} (h : NoTags s) : search Rx.re_tagged_citation s = none := by
  cases hs : search Rx.re_tagged_citation s with
  | none => rfl
  | some m =>
    obtain ⟨a, b, e, hm, -⟩ := search_some (by decide) hs
    obtain ⟨r, hr, -⟩ := matchHere_sem hm
    obtain ⟨ho, -⟩ := match_openTag hm
    exact absurd ho (h a m.txt b (by simpa using e) _)

omit [UnicodeDB] in
theorem renderLine_cons (t : Str) (it : Item) (toks : List (Str × Item)) (last : Str) :
    renderLine ((t, it) :: toks) last = t ++ (it.render ++ renderLine toks last) := by
  simp [renderLine]

theorem noVol_line {toks : List (Str × Item)} {last : Str} (hok : ∀ p ∈ toks, NoTags p.1 ∧ p.2.Ok) (hl : NoTags last) :
    NoVol (renderLine toks last) := by
  intro a b e
  refine Classical.byContradiction fun ha => ?_
  have hv : OpenTag (py! "<cds.VOL>") (py! "VOL") := open_plain (name := py! "VOL") (by decide)
  have hna : NoTags a := by
    rintro x w y rfl name hw
    obtain ⟨z, rfl, -⟩ := openTag_shape hw
    simp at ha
  obtain ⟨m, h1, -, -, h4, -⟩ := search_tag (r := b) hna hv
  cases toks with
  | nil =>
    have e : last = a ++ (py! "<cds.VOL>" ++ b) := by simpa [renderLine] using e
    exact hl a _ b (by rw [e]; simp) _ hv
  | cons p toks =>
    obtain ⟨t, it⟩ := p
    obtain ⟨ht, hi⟩ := hok _ (.head _)
    obtain ⟨o1, o2, q, o3⟩ := open_item hi
    rw [renderLine_cons, o3] at e
    obtain ⟨m', h1', -, -, h4', -⟩ := search_tag (r := q ++ renderLine toks last) ht o1
    rw [List.append_assoc] at h1 h1'
    rw [← e, List.append_assoc, h1'] at h1
    obtain rfl := Option.some.inj h1
    exact o2 (h4'.symm.trans h4)

theorem loop_line {toks : List (Str × Item)} {last : Str} (hok : ∀ p ∈ toks, NoTags p.1 ∧ p.2.Ok) (hl : NoTags last)
    {us : List (Str × Str)} {ds : List Str} {st : PState} {fuel : Nat} (hf : toks.length ≤ fuel) (h1 : st.line = renderLine toks last)
    (h2 : st.misc = []) (hu : st.urls = toks.flatMap (·.2.urls) ++ us) (hd : st.dois = toks.flatMap (·.2.dois) ++ ds) :
    tagLoop fuel st = .ok { line := last, misc := [], els := st.els ++ toks.map (fun p => p.2.el p.1), urls := us, dois := ds,
                            n := toks.foldl (fun n p => addCount n p.2) st.n } := by
  induction toks generalizing st fuel with
  | nil =>
    have e : st.line = last := by rw [h1]; simp [renderLine]
    have : tagLoop fuel st = .ok st := by
      cases fuel with
      | zero => rfl
      | succ n => rw [tagLoop, e, search_noTags hl]
    rw [this]
    cases st
    simp at h2 hu hd e
    simp [h2, hu, hd, e]
  | cons p toks ih =>
    obtain ⟨t, it⟩ := p
    cases fuel with
    | zero => simp at hf
    | succ n =>
      obtain ⟨ht, hi⟩ := hok _ (.head _)
      obtain ⟨o1, o2, q, o3⟩ := open_item hi
      have h1' := h1
      rw [renderLine_cons, o3] at h1'
      obtain ⟨m, k1, k2, k3, k4, k5⟩ := search_tag (r := q ++ renderLine toks last) ht o1
      rw [renderLine_cons] at h1
      have hr := noVol_line (toks := toks) (fun p hp => hok p (.tail _ hp)) hl
      have hstep := tagStep_item (us := toks.flatMap (·.2.urls) ++ us) (ds := toks.flatMap (·.2.dois) ++ ds) hi hr h1
        (by rw [hu]; simp) (by rw [hd]; simp) k2 k3 k4 k5
      have hs : search Rx.re_tagged_citation st.line = some m := by rw [h1', ← k1]; simp
      rw [tagLoop, hs]
      show (tagStep st m >>= fun st => tagLoop n st) = _
      rw [hstep, okBind, ih (fun p hp => hok p (.tail _ hp)) (by simpa using hf) rfl rfl rfl rfl, h2]
      simp

omit [UnicodeDB] in
theorem len_line (toks : List (Str × Item)) (last : Str) : toks.length ≤ (renderLine toks last).length := by
  induction toks with
  | nil => simp
  | cons p toks ih =>
    obtain ⟨t, it⟩ := p
    have : 1 ≤ it.render.length := by
      cases it <;> simp [Item.render, enclose] <;> omega
    rw [renderLine_cons]
    simp only [List.length_cons, List.length_append]
    omega

omit [UnicodeDB] in
theorem strip_leftOver (s : Str) : truthy (stripP (inSet [' ', '.', ';', ',']) s) = decide (LeftOver s) := by
  rw [Bool.eq_iff_iff, truthy_stripP, decide_eq_true_iff, LeftOver]
  simp [inSet]

omit [UnicodeDB] in
theorem count_line (toks : List (Str × Item)) (n : Counts) :
    toks.foldl (fun n p => addCount n p.2) n =
      { n with title := n.title + howMany .journal (toks.map (fun p => p.2.el p.1))
               reportnum := n.reportnum + howMany .reportnumber (toks.map (fun p => p.2.el p.1))
               url := n.url + howMany .url (toks.map (fun p => p.2.el p.1))
               doi := n.doi + howMany .doi (toks.map (fun p => p.2.el p.1))
               auth := n.auth + howMany .auth (toks.map (fun p => p.2.el p.1)) } := by
  induction toks generalizing n with
  | nil => simp [howMany]
  | cons p toks ih =>
    obtain ⟨t, it⟩ := p
    rw [List.foldl_cons, ih]
    cases it <;> simp [addCount, howMany, Item.el, Nat.add_assoc, Nat.add_comm]

end Py
