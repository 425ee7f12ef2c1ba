import Verif.Lemmas.Caps
import Verif.Lemmas.Post
import Verif.Lemmas.Url
import Verif.Spec.Hdl
import Verif.Spec.Basic

/-!
# Handles in texts
-/

open Py Spec

variable [UnicodeDB]

/-- The expression ends with a greedy repetition of the set. -/
def Py.Re.tailStar (k : CSet) : Re → Prop
  | .star true (.set k') => k' = k
  | .seq _ b => b.tailStar k
  | .group _ a => a.tailStar k
  | _ => False

/-- A pattern that ends with a greedy repetition takes all there is. -/
theorem runK_tail {β : Type} {k : CSet} {r : Re} (hr : r.tailStar k) {f : St → Option β} (hf : ∀ t, f t ≠ none) {s : St} {x : β}
    (h : runK r s f = some x) : ∃ t ∈ run r s, f t = some x ∧ ∀ c, t.post.head? = some c → k.mem c = false := by
  induction r generalizing s f with
  | seq a b _ ih =>
    rw [runK_seq_eq, runK_eq] at h
    obtain ⟨u, hu, h⟩ := List.exists_of_findSome?_eq_some h
    obtain ⟨t, ht, h1, h2⟩ := ih hr hf h
    exact ⟨t, run_seq.2 ⟨u, hu, ht⟩, h1, h2⟩
  | group g a ih =>
    simp only [runK] at h
    obtain ⟨u, hu, h1, h2⟩ := ih hr (fun t => hf _) h
    exact ⟨_, by simp only [run, List.mem_map]; exact ⟨u, hu, rfl⟩, h1, h2⟩
  | star g a _ =>
    cases g with
    | false => exact hr.elim
    | true =>
      cases a with
      | set k' =>
        simp only [Re.tailStar] at hr
        subst hr
        obtain ⟨w, rest, hw⟩ := runK_star_some h
        refine ⟨⟨w.reverse ++ s.pre, rest, s.caps⟩, ?_, hw.ok, ?_⟩
        · rw [run_star_set, hw.split]
          exact greedySt_mem w rest s.pre hw.mem
        · intro c hc
          cases hm : k'.mem c with
          | false => rfl
          | true =>
            cases rest with
            | nil => simp at hc
            | cons d rest =>
              simp at hc
              subst hc
              exact absurd (hw.longest (w ++ [d]) rest (by rw [hw.split]; simp) (by
                intro y hy
                rcases List.mem_append.1 hy with hy | hy
                · exact hw.mem y hy
                · rw [List.mem_singleton.1 hy]; exact hm) (by simp)) (hf _)
      | _ => exact hr.elim
  | _ => exact hr.elim

theorem nspace_mem {c : Char} : CSet.mem ⟨false, false, [.nspace]⟩ c = true ↔ isSpace c = false := by
  simp [CSet.mem, CItem.mem]

/-- The pattern of what announces a handle. -/
def hdlPrefixRe : Re :=
  Re.alts [(.set ⟨false, false, [.ch 'h', .ch 'H']⟩) ⬝ (.set ⟨false, false, [.ch 'd', .ch 'D']⟩) ⬝
      (.set ⟨false, false, [.ch 'l', .ch 'L']⟩) ⬝ (Re.ch ':'),
    (.str (py! "http")) ⬝ (Re.opt (Re.ch 's')) ⬝ (.str (py! "://hdl.handle.net/"))]

/-- The pattern of a handle. -/
def handleRe : Re := (Re.plus (.set ⟨false, false, [.nspace]⟩)) ⬝ (Re.ch '/') ⬝ (Re.plus (.set ⟨false, false, [.nspace]⟩))

omit [UnicodeDB] in
theorem re_hdl_eq : Rx.re_hdl = hdlPrefixRe ⬝ .group G.hdl_id handleRe := rfl

theorem two_mem {a b c : Char} : CSet.mem ⟨false, false, [.ch a, .ch b]⟩ c = true ↔ c ∈ [a, b] := by
  simp [CSet.mem, CItem.mem]

theorem sem_hdlPrefix {pre w post : Str} : Sem hdlPrefixRe pre w post ↔ HdlPrefix w := by
  constructor
  · rintro (⟨_, _, rfl, ⟨a, rfl, ha⟩, _, _, rfl, ⟨b, rfl, hb⟩, _, _, rfl, ⟨c, rfl, hc⟩, h⟩ | ⟨_, _, rfl, h1, _, _, rfl, h2, h3⟩)
    · rw [sem_ch.1 h]
      exact .inl ⟨a, b, c, rfl, two_mem.1 ha, two_mem.1 hb, two_mem.1 hc⟩
    · cases h1
      cases h3
      rcases sem_opt.1 h2 with h2 | rfl
      · rw [sem_ch.1 h2]
        exact .inr (.inr rfl)
      · exact .inr (.inl rfl)
  · rintro (⟨a, b, c, rfl, ha, hb, hc⟩ | rfl | rfl)
    · exact .inl ⟨[a], _, rfl, ⟨a, rfl, two_mem.2 ha⟩, [b], _, rfl, ⟨b, rfl, two_mem.2 hb⟩, [c], _, rfl, ⟨c, rfl, two_mem.2 hc⟩, sem_ch.2 rfl⟩
    · exact .inr ⟨py! "http", py! "://hdl.handle.net/", rfl, rfl, [], _, rfl, sem_opt.2 (.inr rfl), rfl⟩
    · exact .inr ⟨py! "http", py! "s://hdl.handle.net/", rfl, rfl, py! "s", _, rfl, sem_opt.2 (.inl (sem_ch.2 rfl)), rfl⟩

theorem sem_handle {pre w post : Str} : Sem handleRe pre w post ↔ IsHandle w := by
  constructor
  · rintro ⟨a, _, rfl, h1, _, b, rfl, h2, h3⟩
    rw [sem_plus_set] at h1 h3
    rw [sem_ch] at h2
    subst h2
    refine ⟨fun c hc => ?_, a, b, rfl, h1.1, h3.1⟩
    simp only [List.mem_append, List.mem_singleton] at hc
    rcases hc with hc | rfl | hc
    · exact nspace_mem.1 (h1.2 c hc)
    · rfl
    · exact nspace_mem.1 (h3.2 c hc)
  · rintro ⟨h, a, b, rfl, h1, h2⟩
    exact ⟨a, '/' :: b, rfl, sem_plus_set.2 ⟨h1, fun c hc => nspace_mem.2 (h c (by simp [hc]))⟩, ['/'], b, rfl, sem_ch.2 rfl,
      sem_plus_set.2 ⟨h2, fun c hc => nspace_mem.2 (h c (by simp [hc]))⟩⟩

theorem sem_hdl {pre w post : Str} : Sem Rx.re_hdl pre w post ↔ ∃ p i, w = p ++ i ∧ HdlPrefix p ∧ IsHandle i := by
  rw [re_hdl_eq]
  constructor
  · rintro ⟨p, i, rfl, h1, h2⟩
    exact ⟨p, i, rfl, sem_hdlPrefix.1 h1, sem_handle.1 h2⟩
  · rintro ⟨p, i, rfl, h1, h2⟩
    exact ⟨p, i, rfl, sem_hdlPrefix.2 h1, sem_handle.2 h2⟩

theorem hdl_none {pre post : Str} : matchHere Rx.re_hdl false pre post = none ↔ ¬ HdlHere post := by
  rw [matchHere_none]
  constructor
  · rintro h ⟨p, i, r, rfl, h1, h2⟩
    exact h ⟨p ++ i, r, rfl, sem_hdl.2 ⟨p, i, rfl, h1, h2⟩⟩
  · rintro h ⟨w, r, rfl, hw⟩
    obtain ⟨p, i, rfl, h1, h2⟩ := sem_hdl.1 hw
    exact h ⟨p, i, r, rfl, h1, h2⟩

omit [UnicodeDB] in
theorem mkMatch_txt {t : St} {w pre : Str} (h : t.pre = w.reverse ++ pre) : (mkMatch pre t).txt = w := by
  simp [mkMatch, h]

/-- A match of the pattern is a handle up to the next blank. -/
theorem hdl_match {pre post : Str} {m : Match} (h : matchHere Rx.re_hdl false pre post = some m) :
    ∃ p i r, post = p ++ i ++ r ∧ m.txt = p ++ i ∧ m.start = pre.length ∧ m.group G.hdl_id = some i ∧ HdlPrefix p ∧ IsHandle i ∧
      ∀ c, r.head? = some c → isSpace c = true := by
  simp only [matchHere, Bool.false_and, Bool.false_eq_true, if_false] at h
  rw [re_hdl_eq] at h
  obtain ⟨t, ht, h1, h2⟩ := runK_tail (k := ⟨false, false, [.nspace]⟩) (by exact rfl) (by simp) h
  obtain ⟨u, hu, ht⟩ := run_seq.1 ht
  obtain ⟨p, hp⟩ := run_step hu
  obtain ⟨i, v, -, hv, e1, e2, e3, -⟩ := run_group ht
  simp only [Option.some.injEq] at h1
  subst h1
  refine ⟨p, i, t.post, ?_, ?_, rfl, e3, sem_hdlPrefix.1 hp.sem, sem_handle.1 hv.sem, ?_⟩
  · have := hp.post
    rw [hv.post] at this
    rw [e2, List.append_assoc]
    exact this
  · refine mkMatch_txt ?_
    rw [e1, hv.pre, hp.pre]
    simp
  · intro c hc
    have := h2 c hc
    cases hs : isSpace c with
    | true => rfl
    | false => rw [nspace_mem.2 hs] at this; cases this

/-! ### Inserting the elements -/

omit [UnicodeDB] in
theorem insertAfter_perm {e x : El} : ∀ {d d' : List El}, insertAfter e x d = some d' → d'.Perm (x :: d)
  | [], _, h => by cases h
  | y :: ys, d', h => by
    simp only [insertAfter] at h
    split at h
    · cases h
      exact List.Perm.swap _ _ _
    · cases hi : insertAfter e x ys with
      | none => rw [hi] at h; cases h
      | some z =>
        rw [hi] at h
        cases h
        exact ((insertAfter_perm hi).cons y).trans (List.Perm.swap _ _ _)

omit [UnicodeDB] in
theorem insertAfter_none {e x : El} : ∀ {d : List El}, e ∉ d → insertAfter e x d = none
  | [], _ => rfl
  | y :: ys, h => by
    simp only [List.mem_cons, not_or] at h
    simp only [insertAfter]
    rw [if_neg (Ne.symm h.1), insertAfter_none h.2]
    rfl

omit [UnicodeDB] in
theorem hdlLoop_append : ∀ (xs ys : List Match) (d : List El) (e : El) (a : List El), hdlLoop d e a (xs ++ ys) =
    hdlLoop (hdlLoop d e a xs).1 (hdlLoop d e a xs).2.1 (hdlLoop d e a xs).2.2 ys
  | [], _, _, _, _ => rfl
  | m :: xs, ys, d, e, a => by
    simp only [List.cons_append, hdlLoop]
    split
    · rw [hdlLoop_append xs]
    · rw [hdlLoop_append xs]

/-- The elements for the handles. -/
abbrev hdlEls (hs : List (Str × Str)) : List El := hs.map fun h => { ty := .hdl, misc := h.2, hdlId := some h.1 }

/-- The loop over the handles of one element. -/
theorem hdlLoop_spec {pre s : Str} {ps : List Piece} (h : Scanned Rx.re_hdl pre s ps) (d : List El) (e : El) (a : List El)
    (he : e.misc = pre.reverse ++ s) :
    ∃ b hs, HdlCut s b hs ∧ ∃ d' a', hdlLoop d e a (ps.filterMap Piece.match?).reverse = (d', { e with misc := pre.reverse ++ b }, a') ∧
      (d' ++ a').Perm (d ++ (hdlEls hs ++ a)) ∧
      (((∀ m, { e with misc := m } ∉ d) ∨ hs = []) → d' = d ∧ a' = hdlEls hs ++ a) := by
  induction h with
  | nil pre =>
    refine ⟨[], [], .nil, d, a, ?_, .refl _, fun _ => ⟨rfl, rfl⟩⟩
    simp only [List.filterMap_nil, List.reverse_nil, hdlLoop, ← he]
  | @ch pre c t ps hm _ ih =>
    obtain ⟨b, hs, h1, d', a', h2, h3, h4⟩ := ih (by rw [he]; simp)
    refine ⟨c :: b, hs, .ch (hdl_none.1 hm) h1, d', a', ?_, h3, h4⟩
    rw [List.filterMap_cons]
    simp only [Piece.match?]
    rw [h2]
    simp
  | @hit pre t ps m hm hne _ ih =>
    obtain ⟨b, hs, h1, d', a', h2, h3, h4⟩ := ih (by rw [he]; simp)
    obtain ⟨p, i, r, e1, e2, e3, e4, e5, e6, e7⟩ := hdl_match hm
    have hr : t = r := by
      rw [e2] at e1
      exact List.append_cancel_left e1
    subst hr
    rw [e1]
    refine ⟨[], (i, b) :: hs, .hit e5 e6 e7 h1, ?_⟩
    rw [List.filterMap_cons]
    simp only [Piece.match?, List.reverse_cons]
    rw [hdlLoop_append, h2]
    have k1 : ((m.txt.reverse ++ pre).reverse ++ b).drop m.stop = b := by
      rw [Match.stop, e3, show pre.length + m.txt.length = (m.txt.reverse ++ pre).reverse.length by simp, List.drop_left]
    have k2 : ((m.txt.reverse ++ pre).reverse ++ b).take m.start = pre.reverse := by
      rw [e3, show (m.txt.reverse ++ pre).reverse ++ b = pre.reverse ++ (m.txt ++ b) by simp, List.take_left' (by simp)]
    simp only [hdlLoop, k1, k2, e4, List.append_nil]
    cases hi : insertAfter { e with misc := pre.reverse } { ty := .hdl, misc := b, hdlId := some i } d' with
    | some z =>
      refine ⟨z, a', rfl, ?_, ?_⟩
      · have q1 := (insertAfter_perm hi).append_right a'
        refine q1.trans ?_
        simp only [hdlEls, List.map_cons, List.cons_append]
        exact (h3.cons _).trans List.perm_middle.symm
      · rintro (hd | hd)
        rotate_left
        · cases hd
        have := insertAfter_none (x := { ty := .hdl, misc := b, hdlId := some i }) (hd pre.reverse)
        rw [(h4 (.inl hd)).1, this] at hi
        cases hi
    | none =>
      refine ⟨d', _, rfl, ?_, ?_⟩
      · simp only [hdlEls, List.map_cons, List.cons_append]
        exact List.perm_middle.trans ((h3.cons _).trans List.perm_middle.symm)
      · rintro (hd | hd)
        rotate_left
        · cases hd
        obtain ⟨q1, q2⟩ := h4 (.inl hd)
        exact ⟨q1, by rw [q2]; rfl⟩

omit [UnicodeDB] in
theorem hdl_minLen : 0 < Rx.re_hdl.minLen := by decide +kernel

/-- The loop over the elements. -/
theorem hdlGo_perm : ∀ (es d : List El), ∃ outs, All2 CutUp es outs ∧ (hdlGo d es).Perm (d ++ outs.flatten)
  | [], d => ⟨[], .nil, by simp [hdlGo]⟩
  | e :: es, d => by
    obtain ⟨b, hs, h1, d', a', h2, h3, -⟩ := hdlLoop_spec (scan_scanned' hdl_minLen e.misc) d e [] rfl
    obtain ⟨outs, h4, h5⟩ := hdlGo_perm es (d' ++ { e with misc := [].reverse ++ b } :: a')
    refine ⟨cutUp e b hs :: outs, .cons ⟨b, hs, h1, rfl⟩ h4, ?_⟩
    simp only [hdlGo, finditer, h2]
    refine h5.trans ?_
    rw [List.flatten_cons, ← List.append_assoc]
    refine List.Perm.append_right _ ?_
    refine List.perm_middle.trans ?_
    rw [List.append_nil] at h3
    exact (h3.cons _).trans List.perm_middle.symm

omit [UnicodeDB] in
theorem hdlCut_cases {s b : Str} {hs : List (Str × Str)} (h : HdlCut s b hs) :
    (s = [] ∧ b = [] ∧ hs = []) ∨ (∃ c s' b', s = c :: s' ∧ b = c :: b' ∧ ¬ HdlHere s ∧ HdlCut s' b' hs) ∨
      ∃ p i r b' hs', s = p ++ i ++ r ∧ b = [] ∧ hs = (i, b') :: hs' ∧ HdlPrefix p ∧ IsHandle i ∧
        (∀ c, r.head? = some c → isSpace c = true) ∧ HdlCut r b' hs' := by
  cases h with
  | nil => exact .inl ⟨rfl, rfl, rfl⟩
  | ch h1 h2 => exact .inr (.inl ⟨_, _, _, rfl, rfl, h1, h2⟩)
  | hit h1 h2 h3 h4 => exact .inr (.inr ⟨_, _, _, _, _, rfl, rfl, rfl, h1, h2, h3, h4⟩)

omit [UnicodeDB] in
theorem hdlPrefix_unique {p p' x y : Str} (h : HdlPrefix p) (h' : HdlPrefix p') (e : p ++ x = p' ++ y) : p = p' := by
  rcases h with ⟨a, b, c, rfl, ha, hb, hc⟩ | rfl | rfl <;> rcases h' with ⟨a', b', c', rfl, ha', hb', hc'⟩ | rfl | rfl
  · simp only [List.cons_append, List.nil_append, List.cons.injEq] at e
    obtain ⟨rfl, rfl, rfl, -⟩ := e
    rfl
  all_goals first
    | rfl
    | (exfalso
       simp only [List.cons_append, List.nil_append, List.cons.injEq] at e
       simp_all)

omit [UnicodeDB] in
theorem run_unique {i i' r r' : Str} (h : ∀ c ∈ i, isSpace c = false) (h' : ∀ c ∈ i', isSpace c = false)
    (hr : ∀ c, r.head? = some c → isSpace c = true) (hr' : ∀ c, r'.head? = some c → isSpace c = true) (e : i ++ r = i' ++ r') :
    i = i' := by
  induction i generalizing i' with
  | nil =>
    cases i' with
    | nil => rfl
    | cons c i' =>
      simp only [List.nil_append] at e
      subst e
      have h1 := hr c rfl
      rw [h' c (by simp)] at h1
      cases h1
  | cons c i ih =>
    cases i' with
    | nil =>
      simp only [List.nil_append] at e
      subst e
      have h1 := hr' c rfl
      rw [h c (by simp)] at h1
      cases h1
    | cons d i' =>
      simp only [List.cons_append, List.cons.injEq] at e
      rw [e.1, ih (fun c hc => h c (by simp [hc])) (fun c hc => h' c (by simp [hc])) e.2]

omit [UnicodeDB] in
theorem hdlPrefix_ne {p x : Str} (h : HdlPrefix p) : p ++ x ≠ [] := by
  rcases h with ⟨a, b, c, rfl, _⟩ | rfl | rfl <;> simp

omit [UnicodeDB] in
/-- There is one way only to cut up a text. -/
theorem hdlCut_unique {s b b' : Str} {hs hs' : List (Str × Str)} (h : HdlCut s b hs) (h' : HdlCut s b' hs') : b = b' ∧ hs = hs' := by
  induction h generalizing b' hs' with
  | nil =>
    rcases hdlCut_cases h' with ⟨-, rfl, rfl⟩ | ⟨_, _, _, e, -⟩ | ⟨p, i, r, _, _, e, _, _, h1, _⟩
    · exact ⟨rfl, rfl⟩
    · cases e
    · rw [List.append_assoc] at e
      exact absurd e.symm (hdlPrefix_ne h1)
  | ch h1 h2 ih =>
    rcases hdlCut_cases h' with ⟨e, -⟩ | ⟨_, _, _, e, rfl, -, h3⟩ | ⟨p, i, r, _, _, e, _, _, h3, h4, _⟩
    · cases e
    · simp only [List.cons.injEq] at e
      obtain ⟨rfl, rfl⟩ := e
      obtain ⟨rfl, rfl⟩ := ih h3
      exact ⟨rfl, rfl⟩
    · exact absurd ⟨p, i, r, e, h3, h4⟩ h1
  | @hit p i r b hs h1 h2 h3 h4 ih =>
    rcases hdlCut_cases h' with ⟨e, -⟩ | ⟨_, _, _, e, rfl, h5, -⟩ | ⟨p', i', r', _, _, e, rfl, rfl, h5, h6, h7, h8⟩
    · rw [List.append_assoc] at e
      exact absurd e (hdlPrefix_ne h1)
    · exact absurd ⟨p, i, r, rfl, h1, h2⟩ h5
    · rw [List.append_assoc, List.append_assoc] at e
      have hp := hdlPrefix_unique h1 h5 e
      subst hp
      have e := List.append_cancel_left e
      have hi := run_unique h2.1 h6.1 h3 h7 e
      subst hi
      have e := List.append_cancel_left e
      subst e
      obtain ⟨rfl, rfl⟩ := ih h8
      exact ⟨rfl, rfl⟩

/-- The loop over the elements keeps the order when it confuses no two elements. -/
theorem hdlGo_order : ∀ (es seen d : List El), (∀ e ∈ es, e.ty ≠ .hdl) →
    (∀ x ∈ d, x.ty = .hdl ∨ ∃ y ∈ seen, ∃ m, x = { y with misc := m }) →
    (∀ x ∈ seen, ∀ y ∈ es, Differ x y ∨ HdlCut y.misc y.misc []) →
    es.Pairwise (fun x y => Differ x y ∨ HdlCut y.misc y.misc []) →
    ∃ outs, All2 CutUp es outs ∧ hdlGo d es = d ++ outs.flatten
  | [], _, d, _, _, _, _ => ⟨[], .nil, by simp [hdlGo]⟩
  | e :: es, seen, d, h1, h2, h3, h4 => by
    obtain ⟨b, hs, k1, d', a', k2, -, k3⟩ := hdlLoop_spec (scan_scanned' hdl_minLen e.misc) d e [] rfl
    have hk : (∀ m, { e with misc := m } ∉ d) ∨ hs = [] := by
      by_cases hn : HdlCut e.misc e.misc []
      · exact .inr (hdlCut_unique k1 hn).2
      · left
        intro m hm
        rcases h2 _ hm with h | ⟨y, hy, m', h⟩
        · exact h1 e (by simp) h
        · rcases h3 y hy e (by simp) with hd | hd
          · apply hd
            have := congrArg (fun x : El => { x with misc := [] }) h
            exact this.symm
          · exact hn hd
    obtain ⟨rfl, rfl⟩ := k3 hk
    rw [List.append_nil] at k2
    rw [List.pairwise_cons] at h4
    obtain ⟨outs, o1, o2⟩ := hdlGo_order es (e :: seen) (d' ++ cutUp e b hs) (fun x hx => h1 x (by simp [hx])) (by
        intro x hx
        rcases List.mem_append.1 hx with hx | hx
        · rcases h2 x hx with h | ⟨y, hy, m, h⟩
          · exact .inl h
          · exact .inr ⟨y, by simp [hy], m, h⟩
        · simp only [cutUp, List.mem_cons, List.mem_map] at hx
          rcases hx with rfl | ⟨q, _, rfl⟩
          · exact .inr ⟨e, by simp, b, rfl⟩
          · exact .inl rfl) (by
        intro x hx y hy
        rcases List.mem_cons.1 hx with rfl | hx
        · exact h4.1 y hy
        · exact h3 x hx y (by simp [hy])) h4.2
    refine ⟨cutUp e b hs :: outs, .cons ⟨b, hs, k1, rfl⟩ o1, ?_⟩
    simp only [hdlGo, finditer, k2]
    rw [List.flatten_cons, ← List.append_assoc, ← o2]
    rfl
