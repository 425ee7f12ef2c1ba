import Verif.Lemmas.Blank
import Verif.Lemmas.Spaces

/-!
# URLs
-/

open Spec

namespace Py

/-- The part of the patterns that is the URL. -/
def urlBody : Re := (Re.alts [(Re.strI (py! "http")) ⬝ (Re.opt (Re.chI 's')), (Re.opt (Re.chI 's')) ⬝ (Re.strI (py! "ftp"))]) ⬝ (Re.strI (py! "://")) ⬝ (Re.plus (.set ⟨false, false, [.word, .digit, .ch '_', .ch '.', .ch '-']⟩)) ⬝ (Re.opt ((Re.ch ':') ⬝ (Re.rep 1 5 (Re.digit)))) ⬝ (.star true ((Re.ch '/') ⬝ (Re.plus (.set ⟨false, false, [.word, .digit, .ch '_', .ch '.', .ch '?', .ch '=', .ch '&', .ch '%', .ch '~', .ch '∼', .ch '-']⟩)))) ⬝ (Re.opt (Re.ch '/'))

/-- A quotation mark. -/
def quoteRe : Re := .set ⟨false, false, [.ch '\'', .ch '"']⟩

theorem re_raw_url_eq : Rx.re_raw_url = Re.opt quoteRe ⬝ .group G.url urlBody ⬝ Re.opt quoteRe := rfl

theorem re_html_eq : Rx.re_html_tagged_url = (Re.strI (py! "<a")) ⬝ (Re.plus (Re.space)) ⬝ (Re.strI (py! "href")) ⬝ (.star true (Re.space)) ⬝ (Re.ch '=') ⬝ (.star true (Re.space)) ⬝ quoteRe ⬝ (.group G.url urlBody) ⬝ quoteRe ⬝ (.star true (Re.space)) ⬝ (Re.ch '>') ⬝ (.group G.desc (Re.plus (.set ⟨true, false, [.ch '<']⟩))) ⬝ (Re.strI (py! "</a>")) := rfl

theorem host_mem [UnicodeDB] (c : Char) : CSet.mem ⟨false, false, [.word, .digit, .ch '_', .ch '.', .ch '-']⟩ c = true ↔ HostChar c := by
  simp only [CSet.mem, CItem.mem, HostChar, Bool.false_eq_true, if_false, List.any_cons, List.any_nil, Bool.or_false, Bool.or_eq_true, beq_iff_eq,
    List.mem_cons, List.not_mem_nil, or_false]
  constructor
  · rintro (h | h | h)
    · exact .inl h
    · exact .inl (isDec_isWord h)
    · exact .inr h
  · rintro (h | h)
    · exact .inl h
    · exact .inr (.inr h)

theorem path_mem [UnicodeDB] (c : Char) : CSet.mem ⟨false, false, [.word, .digit, .ch '_', .ch '.', .ch '?', .ch '=', .ch '&', .ch '%', .ch '~', .ch '∼', .ch '-']⟩ c = true ↔ PathChar c := by
  simp only [CSet.mem, CItem.mem, PathChar, Bool.false_eq_true, if_false, List.any_cons, List.any_nil, Bool.or_false, Bool.or_eq_true, beq_iff_eq,
    List.mem_cons, List.not_mem_nil, or_false]
  constructor
  · rintro (h | h | h)
    · exact .inl h
    · exact .inl (isDec_isWord h)
    · exact .inr h
  · rintro (h | h)
    · exact .inl h
    · exact .inr (.inr h)

theorem quote_sem [UnicodeDB] {pre w post : Str} : Sem quoteRe pre w post ↔ ∃ q, w = [q] ∧ (q = '\'' ∨ q = '"') := by
  simp [quoteRe, Sem, CSet.mem, CItem.mem]

theorem optQuote_sem [UnicodeDB] {pre w post : Str} : Sem (Re.opt quoteRe) pre w post ↔ (w = [] ∨ w = ['\''] ∨ w = ['"']) := by
  rw [sem_opt, quote_sem]
  constructor
  · rintro (⟨q, rfl, rfl | rfl⟩ | rfl) <;> simp
  · rintro (rfl | rfl | rfl) <;> simp

theorem sem_optS [UnicodeDB] {pre w post : Str} : Sem (Re.opt (Re.chI 's')) pre w post ↔ (w = [] ∨ FoldsTo w ['s']) := by
  rw [sem_opt, sem_chI, or_comm]
  refine or_congr_right ?_
  constructor
  · rintro ⟨c, rfl, h⟩; exact .cons h .nil
  · intro h
    cases h with
    | cons h t => cases t; exact ⟨_, rfl, h⟩

/-- Parts that begin with a character. -/
theorem sem_parts [UnicodeDB] {g : Bool} {x : Char} {k : CSet} {P : Char → Prop} (hk : ∀ c, k.mem c = true ↔ P c) {pre w post : Str} :
    Sem (.star g ((Re.ch x) ⬝ (Re.plus (.set k)))) pre w post ↔
      ∃ ps : List Str, w = ps.flatMap (x :: ·) ∧ ∀ p ∈ ps, p ≠ [] ∧ ∀ c ∈ p, P c := by
  have hpart : ∀ pre w post, Sem ((Re.ch x) ⬝ (Re.plus (.set k))) pre w post ↔ ∃ p, w = x :: p ∧ p ≠ [] ∧ ∀ c ∈ p, P c := by
    intro pre w post
    constructor
    · rintro ⟨u, v, rfl, h1, h2⟩
      rw [sem_ch] at h1; subst h1
      exact ⟨v, rfl, by simpa [sem_plus_set, hk] using h2⟩
    · rintro ⟨p, rfl, h1, h2⟩
      exact ⟨[x], p, rfl, sem_ch.2 rfl, sem_plus_set.2 ⟨h1, by simpa [hk] using h2⟩⟩
  rw [sem_star_free hpart (by rintro w ⟨p, rfl, -⟩; simp)]
  constructor
  · rintro ⟨ws, rfl, h⟩
    refine ⟨ws.map List.tail, ?_, ?_⟩
    · induction ws with
      | nil => rfl
      | cons x ws ih =>
        obtain ⟨p, rfl, -⟩ := h x (by simp)
        rw [List.map_cons, List.flatMap_cons, List.flatten_cons, ih fun y hy => h y (by simp [hy])]; rfl
    · simp only [List.mem_map]
      rintro _ ⟨x, hx, rfl⟩
      obtain ⟨p, rfl, h'⟩ := h x hx
      exact h'
  · rintro ⟨ps, rfl, h⟩
    refine ⟨ps.map (x :: ·), by simp [List.flatMap], ?_⟩
    simp only [List.mem_map]
    rintro _ ⟨x, hx, rfl⟩
    exact ⟨x, rfl, h x hx⟩

theorem sem_urlBody [UnicodeDB] {pre w post : Str} : Sem urlBody pre w post ↔ UrlText w := by
  have hport : ∀ pre w post, Sem (Re.opt ((Re.ch ':') ⬝ (Re.rep 1 5 (Re.digit)))) pre w post ↔
      (w = [] ∨ ∃ ds, w = ':' :: ds ∧ 1 ≤ ds.length ∧ ds.length ≤ 5 ∧ ∀ c ∈ ds, isDec c = true) := by
    intro pre w post
    rw [sem_opt, or_comm]
    refine or_congr_right ?_
    constructor
    · rintro ⟨u, v, rfl, h1, h2⟩
      rw [sem_ch] at h1; subst h1
      exact ⟨v, rfl, by simpa [sem_rep_set, Re.digit, CSet.mem, CItem.mem] using h2⟩
    · rintro ⟨ds, rfl, h⟩
      exact ⟨[':'], ds, rfl, sem_ch.2 rfl, (sem_rep_set (by omega)).2 (by simpa [CSet.mem, CItem.mem] using h)⟩
  constructor
  · rintro ⟨a, w, rfl, h1, b, w, rfl, h2, host, w, rfl, h3, port, w, rfl, h4, ps, sl, rfl, h5, h6⟩
    obtain ⟨segs, rfl, hs⟩ := (sem_parts path_mem).1 h5
    replace h2 : FoldsTo _ _ := sem_strI.1 h2
    obtain ⟨h3, h3'⟩ := sem_plus_set.1 h3
    refine ⟨a ++ b, host, port, segs, sl, by simp, ?_, h3, fun c hc => (host_mem c).1 (h3' c hc), (hport _ _ _).1 h4, hs, sem_optCh.1 h6⟩
    rcases h1 with ⟨x, y, rfl, h7, h8⟩ | ⟨x, y, rfl, h7, h8⟩
    · replace h7 : FoldsTo _ _ := sem_strI.1 h7
      rcases sem_optS.1 h8 with rfl | h8
      · exact ⟨_, by simp, foldsTo_append (foldsTo_append h7 (.nil : FoldsTo [] [])) h2⟩
      · exact ⟨_, by simp, foldsTo_append (foldsTo_append h7 h8) h2⟩
    · replace h8 : FoldsTo _ _ := sem_strI.1 h8
      rcases sem_optS.1 h7 with rfl | h7
      · exact ⟨_, by simp, foldsTo_append (foldsTo_append (.nil : FoldsTo [] []) h8) h2⟩
      · exact ⟨_, by simp, foldsTo_append (foldsTo_append h7 h8) h2⟩
  · rintro ⟨sch, host, port, segs, sl, rfl, hsch, h3, h3', h4, h5, h6⟩
    obtain ⟨a, b, rfl, ha, hb⟩ : ∃ a b, sch = a ++ b ∧ (∀ pre post, Sem (Re.alts [(Re.strI (py! "http")) ⬝ (Re.opt (Re.chI 's')), (Re.opt (Re.chI 's')) ⬝ (Re.strI (py! "ftp"))]) pre a post) ∧ FoldsTo b (py! "://") := by
      obtain ⟨y, hy, hf⟩ := hsch
      simp only [List.mem_cons, List.not_mem_nil, or_false] at hy
      rcases hy with rfl | rfl | rfl | rfl
      · obtain ⟨a, b, rfl, h1, h2⟩ := foldsTo_split (v := py! "http") (w := py! "://") hf
        exact ⟨a, b, rfl, fun _ _ => .inl ⟨a, [], by simp, sem_strI.2 h1, .inr rfl⟩, h2⟩
      · obtain ⟨a, b, rfl, h1, h2⟩ := foldsTo_split (v := py! "https") (w := py! "://") hf
        obtain ⟨x, y, rfl, h3, h4⟩ := foldsTo_split (v := py! "http") (w := ['s']) h1
        exact ⟨_, b, rfl, fun _ _ => .inl ⟨x, y, rfl, sem_strI.2 h3, sem_optS.2 (.inr h4)⟩, h2⟩
      · obtain ⟨a, b, rfl, h1, h2⟩ := foldsTo_split (v := py! "ftp") (w := py! "://") hf
        exact ⟨a, b, rfl, fun _ _ => .inr ⟨[], a, rfl, .inr rfl, sem_strI.2 h1⟩, h2⟩
      · obtain ⟨a, b, rfl, h1, h2⟩ := foldsTo_split (v := py! "sftp") (w := py! "://") hf
        obtain ⟨x, y, rfl, h3, h4⟩ := foldsTo_split (v := ['s']) (w := py! "ftp") h1
        exact ⟨_, b, rfl, fun _ _ => .inr ⟨x, y, rfl, sem_optS.2 (.inr h3), sem_strI.2 h4⟩, h2⟩
    simp only [List.append_assoc]
    exact ⟨a, _, rfl, ha _ _, b, _, rfl, sem_strI.2 hb, host, _, rfl, sem_plus_set.2 ⟨h3, fun c hc => (host_mem c).2 (h3' c hc)⟩,
      port, _, rfl, (hport _ _ _).2 h4, _, sl, rfl, (sem_parts path_mem).2 ⟨segs, rfl, h5⟩, sem_optCh.2 h6⟩

theorem full_iff {full : Str} : (∃ u, full = u ++ ['.'] ∨ (full = u ∧ full.getLast? ≠ some '.')) := by
  by_cases h : full.getLast? = some '.'
  · obtain ⟨ys, hys⟩ := List.getLast?_eq_some_iff.1 h
    exact ⟨ys, .inl hys⟩
  · exact ⟨full, .inr ⟨rfl, h⟩⟩

theorem sem_raw [UnicodeDB] {pre w post : Str} : Sem Rx.re_raw_url pre w post ↔ ∃ u, RawUrl w u := by
  rw [re_raw_url_eq]
  constructor
  · rintro ⟨q, _, rfl, h1, full, q', rfl, h2, h3⟩
    obtain ⟨u, hu⟩ := full_iff (full := full)
    exact ⟨u, q, full, q', by simp, optQuote_sem.1 h1, optQuote_sem.1 h3, sem_urlBody.1 h2, hu⟩
  · rintro ⟨u, q, full, q', rfl, h1, h2, h3, -⟩
    simp only [List.append_assoc]
    exact ⟨q, _, rfl, optQuote_sem.2 h1, full, q', rfl, sem_urlBody.2 h3, optQuote_sem.2 h2⟩

theorem not_lt_iff [UnicodeDB] {b : Str} : (∀ c ∈ b, CSet.mem ⟨true, false, [.ch '<']⟩ c = true) ↔ '<' ∉ b := by
  have hb : ∀ c, CSet.mem ⟨true, false, [.ch '<']⟩ c = true ↔ c ≠ '<' := by
    intro c; simp [CSet.mem, CItem.mem]
  simp only [hb]
  exact ⟨fun h hm => h _ hm rfl, fun h c hc e => h (e ▸ hc)⟩

theorem plusSpace_sem [UnicodeDB] {pre w post : Str} : Sem (Re.plus Re.space) pre w post ↔ (w ≠ [] ∧ Spaces w) := by
  rw [Re.space, sem_plus_set]; simp only [spaceSet_mem]; rfl

theorem sem_html [UnicodeDB] {pre w post : Str} : Sem Rx.re_html_tagged_url pre w post ↔ ∃ u d, Anchor w u d := by
  rw [re_html_eq]
  constructor
  · rintro ⟨t1, _, rfl, h1, s1, _, rfl, h2, t2, _, rfl, h3, s2, _, rfl, h4, _, _, rfl, h5, s3, _, rfl, h6, _, _, rfl, h7, u, _, rfl, h8,
      _, _, rfl, h9, s4, _, rfl, h10, _, _, rfl, h11, d, t3, rfl, h12, h13⟩
    rw [sem_ch] at h5 h11
    subst h5 h11
    obtain ⟨q, rfl, hq⟩ := quote_sem.1 h7
    obtain ⟨q', rfl, hq'⟩ := quote_sem.1 h9
    obtain ⟨h14, h15⟩ := sem_plus_set.1 h12
    exact ⟨u, d, t1, s1, t2, s2, s3, q, q', s4, t3, by simp, sem_strI.1 h1, (plusSpace_sem.1 h2).1, (plusSpace_sem.1 h2).2, sem_strI.1 h3,
      sem_spaces.1 h4, sem_spaces.1 h6, hq, sem_urlBody.1 h8, hq', sem_spaces.1 h10, h14, not_lt_iff.1 h15, sem_strI.1 h13⟩
  · rintro ⟨u, d, t1, s1, t2, s2, s3, q, q', s4, t3, rfl, h1, h2, h2', h3, h4, h6, h7, h8, h9, h10, h12, h12', h13⟩
    simp only [List.append_assoc]
    exact ⟨t1, _, rfl, sem_strI.2 h1, s1, _, rfl, plusSpace_sem.2 ⟨h2, h2'⟩, t2, _, rfl, sem_strI.2 h3, s2, _, rfl, sem_spaces.2 h4, ['='], _, rfl, sem_ch.2 rfl,
      s3, _, rfl, sem_spaces.2 h6, [q], _, rfl, quote_sem.2 ⟨q, rfl, h7⟩, u, _, rfl, sem_urlBody.2 h8, [q'], _, rfl, quote_sem.2 ⟨q', rfl, h9⟩,
      s4, _, rfl, sem_spaces.2 h10, ['>'], _, rfl, sem_ch.2 rfl, d, _, rfl, sem_plus_set.2 ⟨h12, not_lt_iff.2 h12'⟩, sem_strI.2 h13⟩

/-- One component of a pattern. -/
theorem run_seq_step [UnicodeDB] {a b : Re} {s t : St} (h : t ∈ run (a ⬝ b) s) : ∃ u w, Step a s u w ∧ t ∈ run b u := by
  obtain ⟨u, hu, ht⟩ := run_seq.1 h
  obtain ⟨w, hw⟩ := run_step hu
  exact ⟨u, w, hw, ht⟩

/-- One component of a pattern that is a group. -/
theorem run_group_step [UnicodeDB] {g : Nat} {a b : Re} {s t : St} (h : t ∈ run (.group g a ⬝ b) s) :
    ∃ u w, Step (.group g a) s u w ∧ u.cap g = some w ∧ t ∈ run b u := by
  obtain ⟨u, hu, ht⟩ := run_seq.1 h
  obtain ⟨w, hw⟩ := run_step hu
  obtain ⟨w', v, -, hv, h1, h2, h3, -⟩ := run_group hu
  refine ⟨u, w, hw, ?_, ht⟩
  have e1 := hw.post
  rw [hv.post, h2] at e1
  rw [h3, List.append_cancel_right e1]

theorem trimUrl_full {full : Str} : full = trimUrl full ++ ['.'] ∨ full = trimUrl full ++ [','] ∨
    (full = trimUrl full ∧ full.getLast? ≠ some '.') := by
  unfold trimUrl
  cases h : full.getLast? with
  | none => exact .inr (.inr ⟨rfl, by simp⟩)
  | some c =>
    obtain ⟨ys, rfl⟩ := List.getLast?_eq_some_iff.1 h
    by_cases h1 : c = '.'
    · subst h1; simp
    · by_cases h2 : c = ','
      · subst h2; simp
      · simp [h1, h2]

theorem getLast?_right {x : Str} (y : Str) (h : x ≠ []) : (y ++ x).getLast? = x.getLast? := by
  rw [List.getLast?_append]
  cases hx : x.getLast? with
  | none => exact absurd (List.getLast?_eq_none_iff.1 hx) h
  | some c => rfl

theorem comma_word [UnicodeDB] : isWord ',' = false := rfl
theorem comma_dec [UnicodeDB] : isDec ',' = false := rfl

theorem flatMap_last {x : Char} {ps : List Str} {c : Char} (h : (ps.flatMap (x :: ·)).getLast? = some c) (hp : ∀ p ∈ ps, p ≠ []) :
    ∃ p ∈ ps, c ∈ p := by
  induction ps with
  | nil => simp at h
  | cons p ps ih =>
    rw [List.flatMap_cons, List.getLast?_append] at h
    cases h2 : (ps.flatMap (x :: ·)).getLast? with
    | none =>
      rw [h2] at h
      have hne := hp p (by simp)
      obtain ⟨q, y, rfl⟩ : ∃ q y, p = q ++ [y] := ⟨p.dropLast, p.getLast hne, (List.dropLast_concat_getLast hne).symm⟩
      rw [Option.none_or, ← List.cons_append, getLast?_right _ (by simp)] at h
      exact ⟨q ++ [y], by simp, by cases h; simp⟩
    | some d =>
      rw [h2] at h
      simp only [Option.some_or, Option.some.injEq] at h
      obtain ⟨p', h3, h4⟩ := ih (h ▸ h2) fun p' hp' => hp p' (by simp [hp'])
      exact ⟨p', by simp [h3], h4⟩

theorem url_last [UnicodeDB] {u : Str} (h : UrlText u) : u.getLast? ≠ some ',' := by
  obtain ⟨sch, host, port, segs, sl, rfl, -, h1, h2, h3, h4, h5⟩ := h
  intro hl
  have comma_host : ¬ HostChar ',' := by
    rintro (h | h)
    · rw [comma_word] at h; cases h
    · exact absurd h (by decide)
  have comma_path : ¬ PathChar ',' := by
    rintro (h | h)
    · rw [comma_word] at h; cases h
    · exact absurd h (by decide)
  rw [List.getLast?_append] at hl
  rcases h5 with rfl | rfl
  · simp only [List.getLast?_nil, Option.none_or] at hl
    rw [List.getLast?_append] at hl
    cases h6 : (segs.flatMap ('/' :: ·)).getLast? with
    | some d =>
      rw [h6] at hl
      cases hl
      obtain ⟨p, hp, hc⟩ := flatMap_last h6 fun p hp => (h4 p hp).1
      exact comma_path ((h4 p hp).2 _ hc)
    | none =>
      rw [h6, Option.none_or, List.getLast?_append] at hl
      rcases h3 with rfl | ⟨ds, rfl, h7, h8, h9⟩
      · simp only [List.getLast?_nil, Option.none_or] at hl
        rw [getLast?_right _ h1] at hl
        exact comma_host (h2 _ (List.mem_of_getLast? hl))
      · obtain ⟨q, y, rfl⟩ : ∃ q y, ds = q ++ [y] := by
          have hne : ds ≠ [] := by rintro rfl; simp at h7
          exact ⟨ds.dropLast, ds.getLast hne, (List.dropLast_concat_getLast hne).symm⟩
        rw [← List.cons_append, getLast?_right _ (by simp)] at hl
        simp at hl
        subst hl
        have := h9 ',' (by simp)
        rw [comma_dec] at this
        cases this
  · simp at hl

theorem match_raw [UnicodeDB] {adv : Bool} {pre post : Str} {m : Match} (h : matchHere Rx.re_raw_url adv pre post = some m) :
    RawUrl m.txt (trimUrl (m.tgroup G.url)) := by
  obtain ⟨t, ht, h1, -, -, h3⟩ := matchHere_cap h
  rw [re_raw_url_eq] at ht
  obtain ⟨u, q, hq, ht⟩ := run_seq_step ht
  obtain ⟨v, w, hw, hc, ht⟩ := run_group_step ht
  obtain ⟨q', hq'⟩ := run_step ht
  have hg : m.tgroup G.url = w := by rw [Match.tgroup, h3, hq'.cap _ (by decide), hc]; rfl
  have htxt : m.txt = q ++ w ++ q' := by
    have e : post = q ++ (w ++ (q' ++ t.post)) := by rw [← hq'.post, ← hw.post, ← hq.post]
    rw [h1, ← List.append_assoc, ← List.append_assoc] at e
    exact List.append_cancel_right e
  have hu : UrlText w := sem_urlBody.1 hw.sem
  refine ⟨q, w, q', htxt, optQuote_sem.1 hq.sem, optQuote_sem.1 hq'.sem, hu, ?_⟩
  rw [hg]
  rcases trimUrl_full (full := w) with h | h | h
  · exact .inl h
  · exact absurd (by rw [h]; simp) (url_last hu)
  · exact .inr h

theorem match_html [UnicodeDB] {adv : Bool} {pre post : Str} {m : Match} (h : matchHere Rx.re_html_tagged_url adv pre post = some m) :
    Anchor m.txt (m.tgroup G.url) (m.tgroup G.desc) := by
  obtain ⟨t, ht, h1, -, -, h3⟩ := matchHere_cap h
  rw [re_html_eq] at ht
  obtain ⟨u1, t1, p1, ht⟩ := run_seq_step ht
  obtain ⟨u2, s1, p2, ht⟩ := run_seq_step ht
  obtain ⟨u3, t2, p3, ht⟩ := run_seq_step ht
  obtain ⟨u4, s2, p4, ht⟩ := run_seq_step ht
  obtain ⟨u5, e5, p5, ht⟩ := run_seq_step ht
  obtain ⟨u6, s3, p6, ht⟩ := run_seq_step ht
  obtain ⟨u7, e7, p7, ht⟩ := run_seq_step ht
  obtain ⟨u8, u, p8, c8, ht⟩ := run_group_step ht
  obtain ⟨u9, e9, p9, ht⟩ := run_seq_step ht
  obtain ⟨u10, s4, p10, ht⟩ := run_seq_step ht
  obtain ⟨u11, e11, p11, ht⟩ := run_seq_step ht
  obtain ⟨u12, d, p12, c12, ht⟩ := run_group_step ht
  obtain ⟨t3, p13⟩ := run_step ht
  have hu : m.tgroup G.url = u := by
    rw [Match.tgroup, h3, p13.cap _ (by decide), p12.cap _ (by decide), p11.cap _ (by decide), p10.cap _ (by decide), p9.cap _ (by decide), c8]; rfl
  have hd : m.tgroup G.desc = d := by
    rw [Match.tgroup, h3, p13.cap _ (by decide), c12]; rfl
  have e : post = t1 ++ (s1 ++ (t2 ++ (s2 ++ (e5 ++ (s3 ++ (e7 ++ (u ++ (e9 ++ (s4 ++ (e11 ++ (d ++ (t3 ++ t.post)))))))))))) := by
    rw [← p13.post, ← p12.post, ← p11.post, ← p10.post, ← p9.post, ← p8.post, ← p7.post, ← p6.post, ← p5.post, ← p4.post, ← p3.post, ← p2.post, ← p1.post]
  have q5 := sem_ch.1 p5.sem
  have q11 := sem_ch.1 p11.sem
  obtain ⟨q, q7, hq⟩ := quote_sem.1 p7.sem
  obtain ⟨q', q9, hq'⟩ := quote_sem.1 p9.sem
  obtain ⟨h14, h15⟩ := sem_plus_set.1 p12.sem
  have htxt : m.txt = t1 ++ s1 ++ t2 ++ s2 ++ ['='] ++ s3 ++ [q] ++ u ++ [q'] ++ s4 ++ ['>'] ++ d ++ t3 := by
    rw [h1] at e
    simp only [← List.append_assoc] at e
    rw [List.append_cancel_right e, q5, q11, q7, q9]
  rw [hu, hd]
  exact ⟨t1, s1, t2, s2, s3, q, q', s4, t3, htxt, sem_strI.1 p1.sem, (plusSpace_sem.1 p2.sem).1, (plusSpace_sem.1 p2.sem).2, sem_strI.1 p3.sem,
    sem_spaces.1 p4.sem, sem_spaces.1 p6.sem, hq, sem_urlBody.1 p8.sem, hq', sem_spaces.1 p10.sem, h14, not_lt_iff.1 h15, sem_strI.1 p13.sem⟩

theorem adj_append {R : Char → Char → Prop} {a b : Str} (ha : Adj R a) (hb : Adj R b)
    (h : ∀ x y, a.getLast? = some x → b.head? = some y → R x y) : Adj R (a ++ b) := by
  induction a with
  | nil => exact hb
  | cons c a ih =>
    rw [adj_cons] at ha
    rw [List.cons_append, adj_cons]
    cases a with
    | nil => exact ⟨fun d hd => h c d rfl hd, hb⟩
    | cons d a =>
      refine ⟨fun e he => ha.1 e he, ih ha.2 fun x y hx hy => h x y ?_ hy⟩
      rw [List.getLast?_cons_cons]
      exact hx

theorem adj_of_all {R : Char → Char → Prop} {P : Char → Prop} (hP : ∀ x y, P x → R x y) {a : Str} (ha : ∀ c ∈ a, P c) : Adj R a := by
  induction a with
  | nil => trivial
  | cons c a ih => exact adj_cons.2 ⟨fun d _ => hP c d (ha c (by simp)), ih fun c hc => ha c (by simp [hc])⟩

theorem adj_of_all' {R : Char → Char → Prop} {P : Char → Prop} (hP : ∀ x y, P y → R x y) {a : Str} (ha : ∀ c ∈ a, P c) : Adj R a := by
  induction a with
  | nil => trivial
  | cons c a ih =>
    refine adj_cons.2 ⟨fun d hd => hP c d (ha d ?_), ih fun c hc => ha c (by simp [hc])⟩
    exact List.mem_cons_of_mem _ (List.mem_of_head? hd)

theorem under_not_folds [UnicodeDB] {x y : Str} (h : FoldsTo x y) (hy : '_' ∉ y) : '_' ∉ x := by
  induction h with
  | nil => simp
  | @cons a b as bs h _ ih =>
    simp only [List.mem_cons, not_or] at hy ⊢
    refine ⟨?_, ih hy.2⟩
    rintro rfl
    have h' : b = '_' ∨ b = swapCase '_' := by simpa [caseVariants, isAscii] using h
    rcases h' with rfl | rfl
    · exact hy.1 rfl
    · exact hy.1 (by decide)

theorem scheme_text [UnicodeDB] {sch : Str} (h : ∃ y ∈ [py! "http://", py! "https://", py! "ftp://", py! "sftp://"], FoldsTo sch y) :
    '_' ∉ sch ∧ ∃ a, sch = a ++ py! "://" := by
  obtain ⟨y, hy, hf⟩ := h
  simp only [List.mem_cons, List.not_mem_nil, or_false] at hy
  have key : ∀ v, '_' ∉ v → FoldsTo sch (v ++ py! "://") → '_' ∉ sch ∧ ∃ a, sch = a ++ py! "://" := by
    intro v hv hf
    refine ⟨under_not_folds hf (by simpa using hv), ?_⟩
    obtain ⟨a, b, rfl, -, hb⟩ := foldsTo_split hf
    exact ⟨a, by rw [foldsTo_plain (by decide) hb]⟩
  rcases hy with rfl | rfl | rfl | rfl
  · exact key (py! "http") (by decide) hf
  · exact key (py! "https") (by decide) hf
  · exact key (py! "ftp") (by decide) hf
  · exact key (py! "sftp") (by decide) hf

/-- In a URL an underscore is preceded by a character of the URL. -/
theorem raw_under [UnicodeDB] {w u x y : Str} (h : RawUrl w u) (e : w = x ++ '_' :: y) :
    ∃ x' c, x = x' ++ [c] ∧ (PathChar c ∨ c = '/') := by
  obtain ⟨q, full, q', rfl, hq, hq', ⟨sch, host, port, segs, sl, rfl, hs, h1, h2, h3, h4, h5⟩, -⟩ := h
  obtain ⟨hs1, a, rfl⟩ := scheme_text hs
  have hadj : Adj (fun x y => y = '_' → (PathChar x ∨ x = '/')) (q ++ (a ++ py! "://" ++ host ++ port ++ segs.flatMap ('/' :: ·) ++ sl) ++ q') := by
    have hok : ∀ c ∈ segs.flatMap ('/' :: ·) ++ sl, PathChar c ∨ c = '/' := by
      intro c hc
      rcases List.mem_append.1 hc with hc | hc
      · obtain ⟨p, hp, hc⟩ := List.mem_flatMap.1 hc
        rcases List.mem_cons.1 hc with rfl | hc
        · exact .inr rfl
        · exact .inl ((h4 p hp).2 c hc)
      · rcases h5 with rfl | rfl
        · cases hc
        · exact .inr (List.mem_singleton.1 hc)
    have hhost : ∀ c ∈ host, PathChar c ∨ c = '/' := by
      intro c hc
      rcases h2 c hc with h | h
      · exact .inl (.inl h)
      · simp only [List.mem_cons, List.not_mem_nil, or_false] at h
        rcases h with rfl | rfl | rfl <;> exact .inl (.inr (by simp))
    have hrest : Adj (fun x y => y = '_' → (PathChar x ∨ x = '/')) (port ++ (segs.flatMap ('/' :: ·) ++ sl)) ∧
        (port ++ (segs.flatMap ('/' :: ·) ++ sl)).head? ≠ some '_' ∨ port = [] := by
      rcases h3 with rfl | ⟨ds, rfl, h6, h7, h8⟩
      · exact .inr rfl
      · refine .inl ⟨?_, by simp⟩
        rw [List.cons_append, adj_cons]
        refine ⟨?_, adj_of_all (P := fun c => PathChar c ∨ c = '/') (R := fun x y => y = '_' → (PathChar x ∨ x = '/')) (fun _ _ h _ => h) ?_⟩
        · intro d hd hu
          subst hu
          cases ds with
          | nil => simp at h6
          | cons d ds =>
            simp only [List.cons_append, List.head?_cons, Option.some.injEq] at hd
            subst hd
            have := h8 '_' (by simp)
            have h' : isDec '_' = false := rfl
            rw [h'] at this
            cases this
        · intro c hc
          rcases List.mem_append.1 hc with hc | hc
          · exact .inl (.inl (isDec_isWord (h8 c hc)))
          · exact hok c hc
    have hbody : Adj (fun x y => y = '_' → (PathChar x ∨ x = '/')) (host ++ (port ++ (segs.flatMap ('/' :: ·) ++ sl))) := by
      rcases hrest with hrest | rfl
      · refine adj_append (adj_of_all (P := fun c => PathChar c ∨ c = '/') (R := fun x y => y = '_' → (PathChar x ∨ x = '/')) (fun _ _ h _ => h) hhost) hrest.1 ?_
        rintro x _ hx hy rfl
        exact absurd hy hrest.2
      · refine adj_of_all (P := fun c => PathChar c ∨ c = '/') (R := fun x y => y = '_' → (PathChar x ∨ x = '/')) (fun _ _ h _ => h) ?_
        intro c hc
        rcases List.mem_append.1 hc with hc | hc
        · exact hhost c hc
        · exact hok c hc
    have hqu : ∀ {q : Str}, (q = [] ∨ q = ['\''] ∨ q = ['"']) → '_' ∉ q := by
      rintro q (rfl | rfl | rfl) <;> decide
    have hlead : ∀ c ∈ q ++ (a ++ py! "://"), c ≠ '_' := by
      rintro c hc rfl
      rcases List.mem_append.1 hc with hc | hc
      · exact hqu hq hc
      · exact hs1 hc
    have e1 : q ++ (a ++ py! "://" ++ host ++ port ++ segs.flatMap ('/' :: ·) ++ sl) ++ q' =
        (q ++ (a ++ py! "://")) ++ ((host ++ (port ++ (segs.flatMap ('/' :: ·) ++ sl))) ++ q') := by simp
    rw [e1]
    refine adj_append (adj_of_all' (P := fun c => c ≠ '_') (fun _ _ h h' => absurd h' h) hlead) (adj_append hbody
      (adj_of_all' (P := fun c => c ≠ '_') (fun _ _ h h' => absurd h' h) fun c hc e => hqu hq' (e ▸ hc)) ?_) ?_
    · rintro x _ _ hy rfl
      exact absurd (List.mem_of_head? hy) (hqu hq')
    · intro x y hx _ _
      rw [← List.append_assoc, getLast?_right _ (by simp)] at hx
      cases hx
      exact .inr rfl
  rw [e] at hadj
  rcases List.eq_nil_or_concat x with rfl | ⟨x', c, rfl⟩
  · exfalso
    have hne : q ++ (a ++ py! "://") ≠ [] := by simp
    have e2 : (q ++ (a ++ py! "://")) ++ ((host ++ (port ++ (segs.flatMap ('/' :: ·) ++ sl))) ++ q') = '_' :: y := by
      rw [← List.nil_append ('_' :: y), ← e]; simp
    have hmem : '_' ∈ q ++ (a ++ py! "://") := by
      cases hz : q ++ (a ++ py! "://") with
      | nil => exact absurd hz hne
      | cons z zs =>
        rw [hz] at e2
        simp only [List.cons_append, List.cons.injEq] at e2
        rw [e2.1]; simp
    rcases List.mem_append.1 hmem with h | h
    · rcases hq with rfl | rfl | rfl <;> exact absurd h (by decide)
    · exact hs1 h
  · refine ⟨x', c, List.concat_eq_append, ?_⟩
    rw [adj_iff] at hadj
    exact hadj x' c '_' y (by simp) rfl

end Py
