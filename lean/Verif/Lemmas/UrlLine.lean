import Verif.Lemmas.Forward
import Verif.Lemmas.Doi3
import Verif.Lemmas.Url2
import Verif.Lemmas.Automaton
import Verif.Lemmas.Hdl
import Verif.Spec.UrlLine

/-!
# Helper lemmas: the one URL of a line
-/

namespace Py
open Spec
open scoped List

variable [UnicodeDB]

theorem folds_self : ∀ w : Str, FoldsTo w w
  | [] => .nil
  | c :: w => .cons (by unfold caseVariants; split <;> simp) (folds_self w)

theorem host_path {c : Char} (h : HostChar c) : PathChar c := by
  rcases h with h | h
  · exact .inl h
  · simp only [List.mem_cons, List.not_mem_nil, or_false] at h
    right
    rcases h with rfl | rfl | rfl <;> decide

theorem slash_path : ¬ PathChar '/' := by
  rintro (h | h)
  · have : isWord '/' = false := rfl
    rw [this] at h; cases h
  · exact absurd h (by decide)

theorem colon_path : ¬ PathChar ':' := by
  rintro (h | h)
  · have : isWord ':' = false := rfl
    rw [this] at h; cases h
  · exact absurd h (by decide)

theorem blank_path : ¬ PathChar ' ' := by
  rintro (h | h)
  · have : isWord ' ' = false := rfl
    rw [this] at h; cases h
  · exact absurd h (by decide)

/-- The path is taken to its end. -/
theorem first_path {rest : Str} (hr : ∀ c, rest.head? = some c → ¬ PathChar c ∧ c ≠ '/') {sl : Str} (hsl : sl = [] ∨ sl = ['/']) (caps : List Cap) :
    ∀ (segs : List Str), (∀ q ∈ segs, q ≠ [] ∧ ∀ c ∈ q, PathChar c) → ∀ p : Str,
      First ((.star true ((Re.ch '/') ⬝ (Re.plus (.set ⟨false, false, [.word, .digit, .ch '_', .ch '.', .ch '?', .ch '=', .ch '&', .ch '%', .ch '~', .ch '∼', .ch '-']⟩)))) ⬝ (Re.opt (Re.ch '/')))
        ⟨p, segs.flatMap ('/' :: ·) ++ sl ++ rest, caps⟩ ⟨(segs.flatMap ('/' :: ·) ++ sl).reverse ++ p, rest, caps⟩ := by
  have hslash : (⟨false, false, [.ch '/']⟩ : CSet).mem '/' = true := rfl
  have noslash : ∀ {c : Char}, c ≠ '/' → (⟨false, false, [.ch '/']⟩ : CSet).mem c = false := by
    intro c h
    simp [CSet.mem, CItem.mem, h]
  have key : ∀ (segs : List Str), (∀ q ∈ segs, q ≠ [] ∧ ∀ c ∈ q, PathChar c) → ∀ p : Str,
      First (.star true ((Re.ch '/') ⬝ (Re.plus (.set ⟨false, false, [.word, .digit, .ch '_', .ch '.', .ch '?', .ch '=', .ch '&', .ch '%', .ch '~', .ch '∼', .ch '-']⟩))))
        ⟨p, segs.flatMap ('/' :: ·) ++ (sl ++ rest), caps⟩ ⟨(segs.flatMap ('/' :: ·)).reverse ++ p, sl ++ rest, caps⟩ := by
    intro segs
    induction segs with
    | nil =>
      intro _ p
      refine go_star_nil ?_
      rcases hsl with rfl | rfl
      · refine run_seq_nil (run_set_nil ?_)
        intro c hc
        exact noslash (hr c hc).2
      · have e : run (Re.ch '/') (⟨p, '/' :: rest, caps⟩ : St) = [⟨'/' :: p, rest, caps⟩] := by simp [Re.ch, run, hslash]
        show run (_ ⬝ _) (⟨p, '/' :: rest, caps⟩ : St) = []
        simp only [run, e, List.flatMap_cons, List.flatMap_nil, List.append_nil]
        refine run_seq_nil (run_set_nil ?_)
        intro c hc
        cases hm : CSet.mem _ c with
        | false => rfl
        | true => exact absurd ((path_mem c).1 hm) (hr c hc).1
    | cons q segs ih =>
      intro hq p
      have h1 : First (Re.ch '/') ⟨p, '/' :: (q ++ (segs.flatMap ('/' :: ·) ++ (sl ++ rest))), caps⟩
          ⟨'/' :: p, q ++ (segs.flatMap ('/' :: ·) ++ (sl ++ rest)), caps⟩ := go_set hslash _ _ _
      have h2 := go_plus_set (k := ⟨false, false, [.word, .digit, .ch '_', .ch '.', .ch '?', .ch '=', .ch '&', .ch '%', .ch '~', .ch '∼', .ch '-']⟩)
        (rest := segs.flatMap ('/' :: ·) ++ (sl ++ rest)) (by
          intro c hc
          cases hm : CSet.mem _ c with
          | false => rfl
          | true =>
            exfalso
            have hp := (path_mem c).1 hm
            cases segs with
            | cons x segs =>
              simp only [List.flatMap_cons, List.cons_append, List.head?_cons, Option.some.injEq] at hc
              subst hc
              exact slash_path hp
            | nil =>
              rcases hsl with rfl | rfl
              · exact (hr c hc).1 hp
              · simp only [List.flatMap_nil, List.nil_append, List.cons_append, List.head?_cons, Option.some.injEq] at hc
                subst hc
                exact slash_path hp) caps (hq q (by simp)).1 (fun c hc => (path_mem c).2 ((hq q (by simp)).2 c hc)) ('/' :: p)
      have h3 := ih (fun x hx => hq x (by simp [hx])) (q.reverse ++ '/' :: p)
      have := go_star_cons (go_seq h1 h2) (by simp; omega) h3
      simpa using this
  intro segs hs p
  have h1 := key segs hs p
  have h2 : First (Re.opt (Re.ch '/')) ⟨(segs.flatMap ('/' :: ·)).reverse ++ p, sl ++ rest, caps⟩ ⟨(segs.flatMap ('/' :: ·) ++ sl).reverse ++ p, rest, caps⟩ := by
    rcases hsl with rfl | rfl
    · rw [List.append_nil, List.nil_append]
      exact go_opt_none (run_set_nil fun c hc => noslash (hr c hc).2)
    · have := go_opt (go_set hslash ((segs.flatMap ('/' :: ·)).reverse ++ p) rest caps)
      simpa [Re.ch] using this
  rw [List.append_assoc]
  exact go_seq h1 h2

theorem first_url {w rest : Str} (hw : SecureUrl w) (hr : ∀ c, rest.head? = some c → ¬ PathChar c ∧ c ≠ '/' ∧ c ≠ ':') (caps : List Cap) (p : Str) :
    First urlBody ⟨p, w ++ rest, caps⟩ ⟨w.reverse ++ p, rest, caps⟩ := by
  obtain ⟨host, segs, sl, rfl, h1, h2, h3, h4⟩ := hw
  have hr' : ∀ c, rest.head? = some c → ¬ PathChar c ∧ c ≠ '/' := fun c hc => ⟨(hr c hc).1, (hr c hc).2.1⟩
  have next : ∀ c, (segs.flatMap ('/' :: ·) ++ sl ++ rest).head? = some c → ¬ HostChar c ∧ c ≠ ':' := by
    intro c hc
    have hs : ¬ HostChar '/' ∧ '/' ≠ ':' := ⟨fun h => slash_path (host_path h), by decide⟩
    cases segs with
    | cons x segs =>
      simp only [List.flatMap_cons, List.cons_append, List.head?_cons, Option.some.injEq] at hc
      subst hc
      exact hs
    | nil =>
      rcases h4 with rfl | rfl
      · exact ⟨fun h => (hr c hc).1 (host_path h), (hr c hc).2.2⟩
      · simp only [List.flatMap_nil, List.nil_append, List.cons_append, List.head?_cons, Option.some.injEq] at hc
        subst hc
        exact hs
  have a1 := go_strI (folds_self (py! "http")) p (py! "s://" ++ (host ++ (segs.flatMap ('/' :: ·) ++ sl ++ rest))) caps
  have a2 : First (Re.opt (Re.chI 's')) ⟨(py! "http").reverse ++ p, py! "s://" ++ (host ++ (segs.flatMap ('/' :: ·) ++ sl ++ rest)), caps⟩
      ⟨'s' :: ((py! "http").reverse ++ p), py! "://" ++ (host ++ (segs.flatMap ('/' :: ·) ++ sl ++ rest)), caps⟩ :=
    go_opt (go_strI (folds_self ['s']) _ _ _)
  have a3 := go_strI (folds_self (py! "://")) ('s' :: ((py! "http").reverse ++ p)) (host ++ (segs.flatMap ('/' :: ·) ++ sl ++ rest)) caps
  have a4 := go_plus_set (k := ⟨false, false, [.word, .digit, .ch '_', .ch '.', .ch '-']⟩) (rest := segs.flatMap ('/' :: ·) ++ sl ++ rest) (by
    intro c hc
    cases hm : CSet.mem _ c with
    | false => rfl
    | true => exact absurd ((host_mem c).1 hm) (next c hc).1) caps h1 (fun c hc => (host_mem c).2 (h2 c hc)) ((py! "://").reverse ++ ('s' :: ((py! "http").reverse ++ p)))
  have a5 : First (Re.opt ((Re.ch ':') ⬝ (Re.rep 1 5 (Re.digit))))
      ⟨host.reverse ++ ((py! "://").reverse ++ ('s' :: ((py! "http").reverse ++ p))), segs.flatMap ('/' :: ·) ++ sl ++ rest, caps⟩
      ⟨host.reverse ++ ((py! "://").reverse ++ ('s' :: ((py! "http").reverse ++ p))), segs.flatMap ('/' :: ·) ++ sl ++ rest, caps⟩ :=
    go_opt_none (run_seq_nil (run_set_nil fun c hc => by simp [CSet.mem, CItem.mem, (next c hc).2]))
  have a6 := first_path hr' h4 caps segs h3 (host.reverse ++ ((py! "://").reverse ++ ('s' :: ((py! "http").reverse ++ p))))
  have := go_seq (go_alt (b := (Re.opt (Re.chI 's')) ⬝ (Re.strI (py! "ftp"))) (go_seq a1 a2)) (go_seq a3 (go_seq a4 (go_seq a5 a6)))
  have e1 : (py! "https://" ++ host ++ segs.flatMap ('/' :: ·) ++ sl) ++ rest = py! "http" ++ (py! "s://" ++ (host ++ (segs.flatMap ('/' :: ·) ++ sl ++ rest))) := by simp
  have e2 : (py! "https://" ++ host ++ segs.flatMap ('/' :: ·) ++ sl).reverse ++ p = (segs.flatMap ('/' :: ·) ++ sl).reverse ++ (host.reverse ++ ((py! "://").reverse ++ ('s' :: ((py! "http").reverse ++ p)))) := by
    simp
  rw [e1, e2]
  exact this

/-- The match at the place of the URL. -/
theorem match_secure {w rest : Str} (hw : SecureUrl w) (hr : ∀ c, rest.head? = some c → ¬ PathChar c ∧ c ≠ '/' ∧ c ≠ ':' ∧ c ≠ '\'' ∧ c ≠ '"') (p : Str) :
    matchHere Rx.re_raw_url false p (w ++ rest) = some ⟨p.length, w, [⟨G.url, p.length, w⟩]⟩ := by
  apply match_of_first
  rw [re_raw_url_eq]
  have noq : ∀ {c : Char}, c ≠ '\'' → c ≠ '"' → (⟨false, false, [.ch '\'', .ch '"']⟩ : CSet).mem c = false := by
    intro c h1 h2
    simp [CSet.mem, CItem.mem, h1, h2]
  have b1 : First (Re.opt quoteRe) ⟨p, w ++ rest, []⟩ ⟨p, w ++ rest, []⟩ := by
    refine go_opt_none (run_set_nil ?_)
    intro c hc
    obtain ⟨host, segs, sl, rfl, -⟩ := hw
    simp only [List.cons_append, List.head?_cons, Option.some.injEq] at hc
    subst hc
    exact noq (by decide) (by decide)
  have b2 := go_group (g := G.url) (first_url hw (fun c hc => ⟨(hr c hc).1, (hr c hc).2.1, (hr c hc).2.2.1⟩) [] p)
  have b3 : First (Re.opt quoteRe) ⟨w.reverse ++ p, rest, [⟨G.url, p.length, w⟩]⟩ ⟨w.reverse ++ p, rest, [⟨G.url, p.length, w⟩]⟩ :=
    go_opt_none (run_set_nil fun c hc => noq (hr c hc).2.2.2.1 (hr c hc).2.2.2.2)
  exact go_seq b1 (go_seq b2 b3)

/-- The scheme of a URL, up to the slashes. -/
theorem scheme_slash {x : Str} (h : ∃ y ∈ [py! "http://", py! "https://", py! "ftp://", py! "sftp://"], FoldsTo x y) : ∃ a b, x = a ++ '/' :: b ∧ a.length ≤ 6 := by
  have key : ∀ (a b : Str), FoldsTo x (a ++ '/' :: b) → a.length ≤ 6 → ∃ a b, x = a ++ '/' :: b ∧ a.length ≤ 6 := by
    intro a b hf hl
    obtain ⟨y, z, rfl, h1, h2⟩ := foldsTo_split hf
    cases h2 with
    | @cons c d z w hc h2 =>
      have : c = '/' := caseVariants_plain (by decide) (by decide) hc
      subst this
      refine ⟨y, z, rfl, ?_⟩
      rw [foldsTo_length h1]
      exact hl
  obtain ⟨y, hy, hf⟩ := h
  simp only [List.mem_cons, List.not_mem_nil, or_false] at hy
  rcases hy with rfl | rfl | rfl | rfl
  · exact key (py! "http:") ['/'] hf (by decide)
  · exact key (py! "https:") ['/'] hf (by decide)
  · exact key (py! "ftp:") ['/'] hf (by decide)
  · exact key (py! "sftp:") ['/'] hf (by decide)

/-- A URL in a text has a slash among its first characters. -/
theorem raw_slash {p x r : Str} (h : Sem Rx.re_raw_url p x r) : ∃ a b, x = a ++ '/' :: b ∧ (a.length ≤ 6 ∨ ∃ q a', a = q :: a' ∧ (q = '\'' ∨ q = '"')) := by
  rw [re_raw_url_eq] at h
  obtain ⟨q, y, rfl, h1, z, q', rfl, h2, -⟩ := h
  have h2 : UrlText z := sem_urlBody.1 h2
  obtain ⟨sch, host, port, segs, sl, rfl, hs, -⟩ := h2
  obtain ⟨a, b, rfl, hl⟩ := scheme_slash hs
  rcases optQuote_sem.1 h1 with rfl | rfl | rfl
  · exact ⟨a, _, by simp [List.append_assoc]; rfl, .inl hl⟩
  · exact ⟨'\'' :: a, _, by simp [List.append_assoc]; rfl, .inr ⟨_, _, rfl, .inl rfl⟩⟩
  · exact ⟨'"' :: a, _, by simp [List.append_assoc]; rfl, .inr ⟨_, _, rfl, .inr rfl⟩⟩

/-- No URL begins in front of the one in the line. -/
theorem noUrl_before {b w rest p : Str} (hb : b ≠ []) (hc : ∀ c ∈ b, c ∈ calmChars) (hw : SecureUrl w) : matchHere Rx.re_raw_url false p (b ++ (w ++ rest)) = none := by
  rw [matchHere_none]
  rintro ⟨x, r, e, hs⟩
  obtain ⟨a, y, rfl, h⟩ := raw_slash hs
  obtain ⟨host, segs, sl, rfl, -⟩ := hw
  have e' : (b ++ py! "https:") ++ '/' :: ('/' :: (host ++ (segs.flatMap ('/' :: ·) ++ (sl ++ rest)))) = a ++ '/' :: (y ++ r) := by simpa using e
  have hno : '/' ∉ b ++ py! "https:" := by
    rw [List.mem_append, not_or]
    exact ⟨fun h => absurd (hc _ h) (by decide), by decide⟩
  rcases h with h | ⟨q, a', rfl, hq⟩
  · have hlen : a.length < (b ++ py! "https:").length := by
      have : 0 < b.length := List.length_pos_iff.2 hb
      simp only [List.length_append]
      have : (py! "https:").length = 6 := rfl
      omega
    rcases List.append_eq_append_iff.1 e' with ⟨c, h1, -⟩ | ⟨c, h1, h2⟩
    · rw [h1] at hlen; simp only [List.length_append] at hlen; omega
    · cases c with
      | nil => rw [List.append_nil] at h1; rw [h1] at hlen; omega
      | cons d c =>
        rw [List.cons_append, List.cons.injEq] at h2
        exact hno (by rw [h1, ← h2.1]; simp)
  · cases b with
    | nil => exact hb rfl
    | cons c b =>
      simp only [List.cons_append, List.cons.injEq] at e'
      have := hc c (by simp)
      rw [e'.1] at this
      rcases hq with rfl | rfl <;> exact absurd this (by decide)

theorem scan_plain {t p : Str} {ps : List Piece} (hc : '/' ∉ t) (h : Scanned Rx.re_raw_url p t ps) : ps = t.map .ch := by
  induction h with
  | nil => rfl
  | @ch pre c t ps _ _ ih => rw [ih (fun h => hc (by simp [h]))]; rfl
  | @hit pre t ps m hm _ _ _ =>
    obtain ⟨r, -, hs⟩ := matchHere_sem hm
    obtain ⟨a, y, e, -⟩ := raw_slash hs
    exact absurd (by rw [e]; simp) hc

/-- The pieces of the line. -/
theorem scan_secure {w tail : Str} (hw : SecureUrl w) (ht : ∀ c ∈ tail, c ∈ calmChars) (hl : ∀ c, tail.head? = some c → ¬ PathChar c ∧ c ≠ ':') :
    ∀ {b p : Str} {ps : List Piece}, (∀ c ∈ b, c ∈ calmChars) → Scanned Rx.re_raw_url p (b ++ (w ++ tail)) ps →
      ps = b.map .ch ++ (.hit ⟨b.length + p.length, w, [⟨G.url, b.length + p.length, w⟩]⟩ :: tail.map .ch)
  | [], p, ps, _, hs => by
    have hm := match_secure hw (rest := tail) (fun c hc => by
      have h2 := ht c (List.mem_of_head? hc)
      refine ⟨(hl c hc).1, ?_, (hl c hc).2, ?_, ?_⟩
      · rintro rfl; exact absurd h2 (by decide)
      · rintro rfl; exact absurd h2 (by decide)
      · rintro rfl; exact absurd h2 (by decide)) p
    have hne : w ≠ [] := by
      obtain ⟨host, segs, sl, rfl, -⟩ := hw
      simp
    rw [List.nil_append] at hs
    generalize hX : w ++ tail = X at hs hm
    cases hs with
    | nil => cases hm
    | @ch _ c t ps hn _ => rw [hn] at hm; cases hm
    | @hit _ t ps m hm' hmn hs =>
      rw [hm'] at hm
      cases hm
      have et : t = tail := (List.append_cancel_left hX).symm
      subst et
      rw [scan_plain (fun h => absurd (ht _ h) (by decide)) hs]
      simp
  | c :: b, p, ps, hb, hs => by
    have hm := noUrl_before (b := c :: b) (rest := tail) (p := p) (by simp) hb hw
    generalize hX : (c :: b) ++ (w ++ tail) = X at hs hm
    cases hs with
    | nil => simp at hX
    | @ch _ c' t ps hn hs =>
      simp only [List.cons_append, List.cons.injEq] at hX
      obtain ⟨rfl, rfl⟩ := hX
      rw [scan_secure hw ht hl (fun d hd => hb d (by simp [hd])) hs]
      simp
      omega
    | @hit _ t ps m hm' hmn hs => rw [hm'] at hm; cases hm

theorem secure_chars {w : Str} (hw : SecureUrl w) : ∀ c ∈ w, PathChar c ∨ c ∈ py! "/:" := by
  obtain ⟨host, segs, sl, rfl, -, h2, h3, h4⟩ := hw
  intro c hc
  simp only [List.mem_append] at hc
  rcases hc with ((hc | hc) | hc) | hc
  · simp only [List.mem_cons, List.not_mem_nil, or_false] at hc
    rcases hc with rfl | rfl | rfl | rfl | rfl | rfl | rfl | rfl <;> first | exact .inr (by decide) | exact .inl (.inl rfl)
  · exact .inl (host_path (h2 c hc))
  · obtain ⟨q, hq, hc⟩ := List.mem_flatMap.1 hc
    rcases List.mem_cons.1 hc with rfl | hc
    · exact .inr (by decide)
    · exact .inl ((h3 q hq).2 c hc)
  · rcases h4 with rfl | rfl
    · cases hc
    · rw [List.mem_singleton.1 hc]; exact .inr (by decide)

theorem secure_not {w : Str} {c : Char} (h1 : c ∉ py! "/:") (h2 : ¬ PathChar c) (hw : SecureUrl w) : c ∉ w := by
  intro hc
  rcases secure_chars hw c hc with h | h
  · exact h2 h
  · exact h1 h

theorem comma_path : ¬ PathChar ',' := by
  rintro (h | h)
  · have : isWord ',' = false := rfl
    rw [this] at h; cases h
  · exact absurd h (by decide)

theorem trim_stop {w u : Str} (h : w = u ++ ['.'] ∨ (w = u ∧ w.getLast? ≠ some '.')) (hc : ',' ∉ w) : trimUrl w = u := by
  unfold trimUrl
  rcases h with rfl | ⟨rfl, h⟩
  · simp
  · cases hl : w.getLast? with
    | none => rfl
    | some c =>
      have h1 : c ≠ '.' := by rintro rfl; exact h hl
      have h2 : c ≠ ',' := by rintro rfl; exact hc (List.mem_of_getLast? hl)
      simp [h1, h2]

/-- The URL is taken out of the line. -/
theorem urls_secure {pre w tail u : Str} (hp : ∀ c ∈ pre, c ∈ calmChars) (hw : SecureUrl w) (ht : ∀ c ∈ tail, c ∈ calmChars)
    (hl : ∀ c, tail.head? = some c → ¬ PathChar c ∧ c ≠ ':') (hs : w = u ++ ['.'] ∨ (w = u ∧ w.getLast? ≠ some '.')) (hA : ∀ c ∈ w, c ∈ calmChars ++ py! "/_?=&%~") :
    tagUrls (pre ++ w ++ tail) = (pre ++ urlMark ++ tail, [(u, u)]) := by
  have h0 : finditer Rx.re_html_tagged_url (pre ++ w ++ tail) = [] := by
    have hin : ∀ c ∈ pre ++ w ++ tail, c ∈ calmChars ++ py! "/_?=&%~" := by
      intro c hc
      rw [List.mem_append, List.mem_append] at hc
      rcases hc with (hc | hc) | hc
      · exact List.mem_append_left _ (hp c hc)
      · exact hA c hc
      · exact List.mem_append_left _ (ht c hc)
    refine few_finditer (A := calmChars ++ py! "/_?=&%~") (c := '<') (by decide) hin ?_
    rw [List.count_eq_zero.2 fun hm => absurd (hin _ hm) (by decide)]
    decide +kernel
  have hc : ',' ∉ w := fun h => secure_not (by decide) comma_path hw h
  have h1 := scan_secure hw ht hl hp (scan_scanned' raw_minLen (pre ++ (w ++ tail)))
  have e2 : ∀ s : Str, (s.map Piece.ch).filterMap Piece.match? = [] := by
    intro s
    induction s with
    | nil => rfl
    | cons c s ih => rw [List.map_cons, List.filterMap_cons]; exact ih
  have h2 : finditer Rx.re_raw_url (pre ++ w ++ tail) = [⟨pre.length, w, [⟨G.url, pre.length, w⟩]⟩] := by
    rw [finditer, List.append_assoc, h1, List.filterMap_append, e2, List.filterMap_cons]
    simp only [Piece.match?, e2]
    rfl
  unfold tagUrls
  rw [h0]
  dsimp only [List.foldl_nil]
  rw [h2]
  have hg : (⟨pre.length, w, [⟨G.url, pre.length, w⟩]⟩ : Match).tgroup G.url = w := rfl
  have e3 := splice_here pre w tail (underscores w.length)
  have e4 := splice_here pre (underscores w.length) tail urlMark
  have hu : (underscores w.length).length = w.length := by simp [underscores]
  rw [hu] at e4
  simp only [List.foldl_cons, List.foldl_nil, rawUrlStep, hg, trim_stop hs hc, Match.stop]
  rw [List.append_assoc, e3]
  have e5 : dset ([] : Urls) pre.length (w.length, u, u) = [(pre.length, w.length, u, u)] := rfl
  have e6 : sortBy (fun a b : Nat × Nat × Str × Str => decide (a.1 ≤ b.1)) [(pre.length, w.length, u, u)] = [(pre.length, w.length, u, u)] := rfl
  simp only [e5, e6, List.reverse_cons, List.reverse_nil, List.nil_append, List.foldl_cons, List.foldl_nil, List.map_cons, List.map_nil]
  rw [e4]
  simp

/-! ### Repairing -/

omit [UnicodeDB] in
/-- A character that is only in the middle. -/
theorem place_in {a u b v q : Str} {y : Char} (e1 : v ++ y :: q = a ++ (u ++ b)) (ha : y ∉ a) (hb : y ∉ b) : ∃ d, v = a ++ d ∧ d <+: u := by
  rcases List.append_eq_append_iff.1 e1 with ⟨c, h1, h2⟩ | ⟨c, h1, h2⟩
  · cases c with
    | nil => exact ⟨[], by rw [h1]; simp, List.nil_prefix⟩
    | cons z c =>
      rw [List.cons_append, List.cons.injEq] at h2
      exact absurd (by rw [h1, h2.1]; simp) ha
  · rcases List.append_eq_append_iff.1 h2 with ⟨d, h3, h4⟩ | ⟨d, h3, h4⟩
    · exact absurd (by rw [h4]; simp) hb
    · exact ⟨c, h1, d, h3.symm⟩

/-- A line with a secure URL is not repaired. -/
theorem secure_line {a w b : Str} (ha : ∀ c ∈ a, c ∈ calmChars) (hw : SecureUrl w) (hb : ∀ c ∈ b, c ∈ calmChars) (hA : ∀ c ∈ w, c ∈ calmChars ++ py! "/_?=&%~") :
    repairUrls (a ++ w ++ b) = a ++ w ++ b := by
  have hin : ∀ c ∈ a ++ w ++ b, c ∈ calmChars ++ py! "/_?=&%~" := by
    intro c hc
    rw [List.mem_append, List.mem_append] at hc
    rcases hc with (hc | hc) | hc
    · exact List.mem_append_left _ (ha c hc)
    · exact hA c hc
    · exact List.mem_append_left _ (hb c hc)
  obtain ⟨u, rfl, hu⟩ : ∃ u, w = py! "https:" ++ u ∧ ∀ c ∈ u, c ≠ ':' ∧ c ≠ ' ' := by
    obtain ⟨host, segs, sl, rfl, -, h2, h3, h4⟩ := hw
    refine ⟨'/' :: '/' :: (host ++ segs.flatMap ('/' :: ·) ++ sl), by simp, ?_⟩
    have hp : ∀ {c : Char}, PathChar c → c ≠ ':' ∧ c ≠ ' ' := fun h => ⟨fun e => colon_path (e ▸ h), fun e => blank_path (e ▸ h)⟩
    intro c hc
    simp only [List.mem_cons, List.mem_append] at hc
    rcases hc with rfl | rfl | (hc | hc) | hc
    · decide
    · decide
    · exact hp (host_path (h2 c hc))
    · obtain ⟨q, hq, hc⟩ := List.mem_flatMap.1 hc
      rcases List.mem_cons.1 hc with rfl | hc
      · decide
      · exact hp ((h3 q hq).2 c hc)
    · rcases h4 with rfl | rfl
      · cases hc
      · rw [List.mem_singleton.1 hc]; decide
  have n1 : '/' ∉ a ++ py! "https:" := by
    intro h
    rcases List.mem_append.1 h with h | h
    · exact absurd (ha _ h) (by decide)
    · exact absurd h (by decide)
  have n2 : '/' ∉ b := fun h => absurd (hb _ h) (by decide)
  refine secure_repair (A := calmChars ++ py! "/_?=&%~") (by decide) hin ?_ ?_ (by decide +kernel)
  · rintro ⟨p, q, e⟩
    obtain ⟨d, h1, h2⟩ := place_in (a := a ++ py! "https:") (u := u) (b := b) (v := p ++ [' ']) (q := q) (y := '/') (by simpa using e) n1 n2
    rcases List.eq_nil_or_concat d with rfl | ⟨d', c, rfl⟩
    · have := congrArg List.getLast? h1
      simp at this
    · rw [List.concat_eq_append] at h1 h2
      rw [← List.append_assoc] at h1
      have := List.append_inj_right' h1 rfl
      exact (hu c (h2.subset (by simp))).2 (List.cons.inj this).1.symm
  · rintro c ⟨p, q, e⟩
    obtain ⟨d, h1, h2⟩ := place_in (a := a ++ py! "https:") (u := u) (b := b) (v := p ++ [c, ':']) (q := q) (y := '/') (by simpa using e) n1 n2
    rcases List.eq_nil_or_concat d with rfl | ⟨d', x, rfl⟩
    · have : p ++ [c, ':'] = (a ++ py! "http") ++ ['s', ':'] := by simpa using h1
      have := List.append_inj_right' this rfl
      exact (List.cons.inj this).1
    · rw [List.concat_eq_append] at h1 h2
      have h1 : (p ++ [c]) ++ [':'] = (a ++ py! "https:" ++ d') ++ [x] := by simpa using h1
      have := List.append_inj_right' h1 rfl
      exact absurd (List.cons.inj this).1.symm (hu x (h2.subset (by simp))).1

end Py
