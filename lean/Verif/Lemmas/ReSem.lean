import Verif.Lemmas.ReSyn

/-!
# A declarative semantics of the regular-expression engine

`Sem r pre w post` says that `r` can match `w` between the (reversed) text `pre` and the
text `post`. `sem_iff` shows that the engine finds exactly these matches.
-/

namespace Py

/-- Consecutive non-empty pieces, each in the relation. -/
def Chain (P : Str → Str → Str → Prop) : Str → List Str → Str → Prop
  | _, [], _ => True
  | pre, x :: xs, post => x ≠ [] ∧ P pre x (xs.flatten ++ post) ∧ Chain P (x.reverse ++ pre) xs post

/-- The expression can match `w` between `pre` (reversed) and `post`. -/
def Sem [UnicodeDB] : Re → Str → Str → Str → Prop
  | .eps, _, w, _ => w = []
  | .fail, _, _, _ => False
  | .set k, _, w, _ => ∃ c, w = [c] ∧ k.mem c = true
  | .str v, _, w, _ => w = v
  | .seq a b, pre, w, post => ∃ u v, w = u ++ v ∧ Sem a pre u (v ++ post) ∧ Sem b (u.reverse ++ pre) v post
  | .alt a b, pre, w, post => Sem a pre w post ∨ Sem b pre w post
  | .star _ a, pre, w, post => ∃ ws : List Str, w = ws.flatten ∧ Chain (Sem a) pre ws post
  | .group _ a, pre, w, post => Sem a pre w post
  | .look neg a, pre, w, post => w = [] ∧ (neg = false ↔ ∃ u v, post = u ++ v ∧ Sem a pre u v)
  | .behind neg cs, pre, w, _ => w = [] ∧ (neg = false ↔ behindOk cs.reverse pre = true)
  | .bos, pre, w, _ => w = [] ∧ pre = []
  | .eos, _, w, post => w = [] ∧ (post = [] ∨ post = ['\n'])
  | .wordb, pre, w, post => w = [] ∧ headWord pre ≠ headWord post

theorem iter_sem [UnicodeDB] {g : Bool} {a : Re}
    (ih : ∀ pre post caps t, t ∈ run a ⟨pre, post, caps⟩ → ∃ w, post = w ++ t.post ∧ t.pre = w.reverse ++ pre ∧
      Sem a pre w t.post) :
    ∀ n pre post caps t, t ∈ iter g (run a) n ⟨pre, post, caps⟩ →
      ∃ ws : List Str, post = ws.flatten ++ t.post ∧ t.pre = ws.flatten.reverse ++ pre ∧ Chain (Sem a) pre ws t.post
  | 0, pre, post, caps, t, h => by
    simp [iter] at h; subst h; exact ⟨[], rfl, rfl, trivial⟩
  | n + 1, pre, post, caps, t, h => by
    have hsplit : t = ⟨pre, post, caps⟩ ∨ ∃ u ∈ run a ⟨pre, post, caps⟩, u.post.length < post.length ∧
        t ∈ iter g (run a) n u := by
      simp only [iter] at h
      cases g with
      | true =>
        simp only [if_true, List.mem_append, List.mem_flatMap, List.mem_filter, decide_eq_true_eq, List.mem_singleton] at h
        rcases h with ⟨u, ⟨hu, hl⟩, ht⟩ | h
        · exact .inr ⟨u, hu, hl, ht⟩
        · exact .inl h
      | false =>
        simp only [Bool.false_eq_true, if_false, List.mem_cons, List.mem_flatMap, List.mem_filter, decide_eq_true_eq] at h
        rcases h with h | ⟨u, ⟨hu, hl⟩, ht⟩
        · exact .inl h
        · exact .inr ⟨u, hu, hl, ht⟩
    rcases hsplit with rfl | ⟨⟨upre, upost, ucaps⟩, hu, hl, ht⟩
    · exact ⟨[], rfl, rfl, trivial⟩
    · obtain ⟨w, h1, h2, h3⟩ := ih _ _ _ _ hu
      obtain ⟨ws, h4, h5, h6⟩ := iter_sem ih n _ _ _ _ ht
      simp only at h1 h2 h3 hl
      subst h1 h2
      refine ⟨w :: ws, ?_, ?_, ?_, ?_, ?_⟩
      · rw [h4]; simp
      · rw [h5]; simp
      · rintro rfl; simp at hl
      · rw [← h4]; exact h3
      · exact h6

theorem sem_iter [UnicodeDB] {g : Bool} {a : Re}
    (ih : ∀ pre w post caps, Sem a pre w post → ∃ caps', ⟨w.reverse ++ pre, post, caps'⟩ ∈ run a ⟨pre, w ++ post, caps⟩) :
    ∀ (ws : List Str) n pre post caps, ws.length ≤ n → Chain (Sem a) pre ws post →
      ∃ caps', ⟨ws.flatten.reverse ++ pre, post, caps'⟩ ∈ iter g (run a) n ⟨pre, ws.flatten ++ post, caps⟩
  | [], n, pre, post, caps, _, _ => by
    refine ⟨caps, ?_⟩
    cases n with
    | zero => simp [iter]
    | succ n => cases g <;> simp [iter]
  | x :: xs, 0, pre, post, caps, hn, _ => by simp at hn
  | x :: xs, n + 1, pre, post, caps, hn, h => by
    obtain ⟨hx, h1, h2⟩ := h
    obtain ⟨c1, hc1⟩ := ih _ _ _ caps h1
    obtain ⟨c2, hc2⟩ := sem_iter ih xs n _ _ c1 (by simpa using hn) h2
    refine ⟨c2, ?_⟩
    have hlen : (xs.flatten ++ post).length < ((x :: xs).flatten ++ post).length := by
      have := List.length_pos_iff.2 hx
      simp; omega
    have hmem : (⟨(x :: xs).flatten.reverse ++ pre, post, c2⟩ : St) ∈
        ((run a ⟨pre, (x :: xs).flatten ++ post, caps⟩).filter fun t =>
          t.post.length < ((x :: xs).flatten ++ post).length).flatMap (iter g (run a) n) := by
      rw [List.mem_flatMap]
      refine ⟨⟨x.reverse ++ pre, xs.flatten ++ post, c1⟩, ?_, ?_⟩
      · rw [List.mem_filter]
        refine ⟨by simpa using hc1, by simpa using hlen⟩
      · simpa using hc2
    simp only [iter]
    cases g
    · rw [if_neg (by simp)]; exact List.mem_cons_of_mem _ hmem
    · rw [if_pos rfl]; exact List.mem_append_left _ hmem

theorem chain_len {P : Str → Str → Str → Prop} : ∀ (ws : List Str) pre post, Chain P pre ws post →
    ws.length ≤ ws.flatten.length
  | [], _, _, _ => by simp
  | x :: xs, pre, post, h => by
    have := chain_len xs _ _ h.2.2
    have := List.length_pos_iff.2 h.1
    rw [List.flatten_cons, List.length_append, List.length_cons]; omega

theorem sem_both [UnicodeDB] (r : Re) :
    (∀ pre post caps t, t ∈ run r ⟨pre, post, caps⟩ → ∃ w, post = w ++ t.post ∧ t.pre = w.reverse ++ pre ∧
      Sem r pre w t.post) ∧
    (∀ pre w post caps, Sem r pre w post → ∃ caps', ⟨w.reverse ++ pre, post, caps'⟩ ∈ run r ⟨pre, w ++ post, caps⟩) := by
  induction r with
  | eps =>
    refine ⟨fun pre post caps t h => ?_, fun pre w post caps h => ?_⟩
    · simp [run] at h; subst h; exact ⟨[], rfl, rfl, rfl⟩
    · cases h; exact ⟨caps, by simp [run]⟩
  | fail => exact ⟨fun pre post caps t h => by simp [run] at h, fun pre w post caps h => h.elim⟩
  | set k =>
    refine ⟨fun pre post caps t h => ?_, fun pre w post caps h => ?_⟩
    · simp only [run] at h
      cases post with
      | nil => simp at h
      | cons c post =>
        simp only at h
        split at h
        · simp at h; subst h; rename_i hk; exact ⟨[c], rfl, rfl, c, rfl, hk⟩
        · simp at h
    · obtain ⟨c, rfl, hk⟩ := h
      exact ⟨caps, by simp [run, hk]⟩
  | str v =>
    refine ⟨fun pre post caps t h => ?_, fun pre w post caps h => ?_⟩
    · simp only [run] at h
      split at h
      · rename_i hp
        simp at h; subst h
        obtain ⟨q, rfl⟩ := List.isPrefixOf_iff_prefix.1 hp
        exact ⟨v, by simp, rfl, rfl⟩
      · simp at h
    · cases h
      exact ⟨caps, by simp [run]⟩
  | seq a b iha ihb =>
    refine ⟨fun pre post caps t h => ?_, fun pre w post caps h => ?_⟩
    · simp only [run, List.mem_flatMap] at h
      obtain ⟨⟨upre, upost, ucaps⟩, hu, ht⟩ := h
      obtain ⟨x, h1, h2, h3⟩ := iha.1 _ _ _ _ hu
      obtain ⟨y, h4, h5, h6⟩ := ihb.1 _ _ _ _ ht
      simp only at h1 h2 h3
      subst h1 h2
      refine ⟨x ++ y, by rw [h4]; simp, by rw [h5]; simp, x, y, rfl, ?_, ?_⟩
      · rw [← h4]; exact h3
      · exact h6
    · obtain ⟨u, v, rfl, hu, hv⟩ := h
      obtain ⟨c1, h1⟩ := iha.2 _ _ _ caps hu
      obtain ⟨c2, h2⟩ := ihb.2 _ _ _ c1 hv
      refine ⟨c2, ?_⟩
      simp only [run, List.mem_flatMap]
      exact ⟨_, by simpa using h1, by simpa using h2⟩
  | alt a b iha ihb =>
    refine ⟨fun pre post caps t h => ?_, fun pre w post caps h => ?_⟩
    · simp only [run, List.mem_append] at h
      rcases h with h | h
      · obtain ⟨w, h1, h2, h3⟩ := iha.1 _ _ _ _ h; exact ⟨w, h1, h2, .inl h3⟩
      · obtain ⟨w, h1, h2, h3⟩ := ihb.1 _ _ _ _ h; exact ⟨w, h1, h2, .inr h3⟩
    · simp only [run, List.mem_append]
      rcases h with h | h
      · obtain ⟨c, hc⟩ := iha.2 _ _ _ caps h; exact ⟨c, .inl hc⟩
      · obtain ⟨c, hc⟩ := ihb.2 _ _ _ caps h; exact ⟨c, .inr hc⟩
  | star g a ih =>
    refine ⟨fun pre post caps t h => ?_, fun pre w post caps h => ?_⟩
    · obtain ⟨ws, h1, h2, h3⟩ := iter_sem ih.1 _ _ _ _ _ h
      exact ⟨ws.flatten, h1, h2, ws, rfl, h3⟩
    · obtain ⟨ws, rfl, h⟩ := h
      exact sem_iter ih.2 ws _ pre post caps (by have := chain_len _ _ _ h; simp only [List.length_append]; omega) h
  | group g a ih =>
    refine ⟨fun pre post caps t h => ?_, fun pre w post caps h => ?_⟩
    · simp only [run, List.mem_map] at h
      obtain ⟨u, hu, rfl⟩ := h
      exact ih.1 pre post caps u hu
    · obtain ⟨c, hc⟩ := ih.2 _ _ _ caps h
      simp only [run, List.mem_map]
      exact ⟨_, _, hc, rfl⟩
  | look neg a ih =>
    have key : ∀ pre post caps, (∃ u v, post = u ++ v ∧ Sem a pre u v) ↔ run a ⟨pre, post, caps⟩ ≠ [] := by
      intro pre post caps
      constructor
      · rintro ⟨u, v, rfl, h⟩
        obtain ⟨c, hc⟩ := ih.2 _ _ _ caps h
        exact List.ne_nil_of_mem hc
      · intro h
        obtain ⟨t, ht⟩ := List.exists_mem_of_ne_nil _ h
        obtain ⟨w, h1, -, h3⟩ := ih.1 _ _ _ _ ht
        exact ⟨w, t.post, h1, h3⟩
    refine ⟨fun pre post caps t h => ?_, fun pre w post caps h => ?_⟩
    · simp only [run] at h
      split at h
      · rename_i h0
        cases neg with
        | false => simp at h
        | true =>
          simp at h; subst h
          refine ⟨[], rfl, rfl, rfl, ?_⟩
          simp only [Bool.true_eq_false, false_iff]
          rw [key pre post caps]; simpa using h0
      · rename_i u l h0
        cases neg with
        | true => simp at h
        | false =>
          simp at h; subst h
          refine ⟨[], rfl, rfl, rfl, ?_⟩
          simp only [true_iff]
          rw [key pre post caps, h0]; simp
    · obtain ⟨rfl, h⟩ := h
      rw [key pre post caps] at h
      simp only [run, List.nil_append]
      cases neg with
      | false =>
        have := h.1 rfl
        split
        · contradiction
        · exact ⟨_, by simp; rfl⟩
      | true =>
        have : run a ⟨pre, post, caps⟩ = [] := by
          cases hh : run a ⟨pre, post, caps⟩ with
          | nil => rfl
          | cons x l => exact absurd (h.2 (by rw [hh]; simp)) (by simp)
        rw [this]
        exact ⟨caps, by simp⟩
  | behind neg cs =>
    refine ⟨fun pre post caps t h => ?_, fun pre w post caps h => ?_⟩
    · simp only [run] at h
      split at h
      · simp at h
      · rename_i hn
        simp at h; subst h
        refine ⟨[], rfl, rfl, rfl, ?_⟩
        cases neg <;> simpa using hn
    · obtain ⟨rfl, h⟩ := h
      refine ⟨caps, ?_⟩
      cases neg <;> simp_all [run]
  | bos =>
    refine ⟨fun pre post caps t h => ?_, fun pre w post caps h => ?_⟩
    · simp only [run] at h
      split at h
      · simp at h; subst h; rename_i hp; exact ⟨[], rfl, rfl, rfl, by simpa using hp⟩
      · simp at h
    · obtain ⟨rfl, rfl⟩ := h; exact ⟨caps, by simp [run]⟩
  | eos =>
    refine ⟨fun pre post caps t h => ?_, fun pre w post caps h => ?_⟩
    · simp only [run] at h
      split at h
      · simp at h; subst h; rename_i hp; exact ⟨[], rfl, rfl, rfl, by simpa using hp⟩
      · simp at h
    · obtain ⟨rfl, rfl | rfl⟩ := h <;> exact ⟨caps, by simp [run]⟩
  | wordb =>
    refine ⟨fun pre post caps t h => ?_, fun pre w post caps h => ?_⟩
    · simp only [run] at h
      split at h
      · simp at h
      · simp at h; subst h; rename_i hp; exact ⟨[], rfl, rfl, rfl, by simpa using hp⟩
    · obtain ⟨rfl, h⟩ := h
      exact ⟨caps, by simp [run, h]⟩

/-- There is a match here exactly if the declarative semantics allows one. -/
theorem matchHere_isSome [UnicodeDB] (r : Re) (pre post : Str) :
    (∃ m, matchHere r false pre post = some m) ↔ ∃ w rest, post = w ++ rest ∧ Sem r pre w rest := by
  constructor
  · rintro ⟨m, h⟩
    obtain ⟨t, ht, -⟩ := matchHere_state h
    obtain ⟨w, h1, -, h3⟩ := (sem_both r).1 _ _ _ _ ht
    exact ⟨w, t.post, h1, h3⟩
  · rintro ⟨w, rest, rfl, h⟩
    obtain ⟨c, hc⟩ := (sem_both r).2 _ _ _ [] h
    cases hm : matchHere r false pre (w ++ rest) with
    | some m => exact ⟨m, rfl⟩
    | none =>
      simp only [matchHere, runK_eq, List.findSome?_eq_none_iff] at hm
      have := hm _ hc
      simp at this

theorem matchHere_none [UnicodeDB] (r : Re) (pre post : Str) :
    matchHere r false pre post = none ↔ ¬ ∃ w rest, post = w ++ rest ∧ Sem r pre w rest := by
  rw [← matchHere_isSome]
  cases matchHere r false pre post <;> simp

/-- A match is allowed by the declarative semantics. -/
theorem matchHere_sem [UnicodeDB] {r : Re} {adv : Bool} {pre post : Str} {m : Match}
    (h : matchHere r adv pre post = some m) : ∃ rest, post = m.txt ++ rest ∧ Sem r pre m.txt rest := by
  obtain ⟨t, ht, rfl, -⟩ := matchHere_state h
  obtain ⟨w, h1, h2, h3⟩ := (sem_both r).1 _ _ _ _ ht
  have : (mkMatch pre t).txt = w := by simp [mkMatch, h2]
  exact ⟨t.post, by rw [this]; exact h1, by rw [this]; exact h3⟩

theorem sem_lang [UnicodeDB] (r : Re) (pre w post : Str) (h : Sem r pre w post) : Lang r w := by
  obtain ⟨c, hc⟩ := (sem_both r).2 pre w post [] h
  obtain ⟨w', ha, hl, -⟩ := run_sound _ _ _ hc
  have : w' = w := List.append_cancel_right (ha.1).symm
  rwa [this] at hl

/-! ### Searching -/

theorem search_scanned [UnicodeDB] {r : Re} {pre s : Str} {ps : List Piece} (h : Scanned r pre s ps) :
    ((ps.filterMap Piece.match?).head? = none ∧
      ∀ a b, s = a ++ b → b ≠ [] → matchHere r false (a.reverse ++ pre) b = none) ∨
    ∃ m a b, (ps.filterMap Piece.match?).head? = some m ∧ s = a ++ m.txt ++ b ∧
      matchHere r false (a.reverse ++ pre) (m.txt ++ b) = some m ∧
      ∀ a1 a2, a = a1 ++ a2 → a2 ≠ [] → matchHere r false (a1.reverse ++ pre) (a2 ++ m.txt ++ b) = none := by
  induction h with
  | nil pre =>
    left
    refine ⟨rfl, ?_⟩
    intro a b h hb
    have := List.append_eq_nil_iff.1 h.symm
    exact absurd this.2 hb
  | @ch pre c t ps h0 hs ih =>
    rcases ih with ⟨h1, h2⟩ | ⟨m, a, b, h1, h2, h3, h4⟩
    · left
      refine ⟨by simpa [Piece.match?] using h1, ?_⟩
      intro a b h hb
      cases a with
      | nil => simp at h; subst h; simpa using h0
      | cons d a =>
        simp at h
        have := h2 a b h.2 hb
        rw [← h.1]; simpa using this
    · right
      refine ⟨m, c :: a, b, h1, by simp [h2], by simpa using h3, ?_⟩
      intro a1 a2 h ha
      cases a1 with
      | nil =>
        simp at h; subst h
        simp only [List.reverse_nil, List.nil_append]
        rw [show c :: a ++ m.txt ++ b = c :: t by rw [h2]; simp]
        exact h0
      | cons d a1 =>
        simp at h
        have := h4 a1 a2 h.2 ha
        rw [← h.1]; simpa using this
  | @hit pre t ps m h0 hne hs ih =>
    right
    refine ⟨m, [], t, by simp [Piece.match?], by simp, by simpa using h0, ?_⟩
    intro a1 a2 h ha
    have := List.append_eq_nil_iff.1 h.symm
    exact absurd this.2 ha

/-- `search` returns the leftmost match. -/
theorem search_some [UnicodeDB] {r : Re} (hr : 0 < r.minLen) {s : Str} {m : Match} (h : search r s = some m) :
    ∃ a b, s = a ++ m.txt ++ b ∧ matchHere r false a.reverse (m.txt ++ b) = some m ∧
      ∀ a1 a2, a = a1 ++ a2 → a2 ≠ [] → matchHere r false a1.reverse (a2 ++ m.txt ++ b) = none := by
  rcases search_scanned (scan_scanned' hr s) with ⟨h1, -⟩ | ⟨m', a, b, h1, h2, h3, h4⟩
  · unfold search finditer at h; rw [h1] at h; cases h
  · unfold search finditer at h; rw [h1] at h; cases h
    exact ⟨a, b, h2, by simpa using h3, by simpa using h4⟩

theorem search_none [UnicodeDB] {r : Re} (hr : 0 < r.minLen) {s : Str} (h : search r s = none) :
    ∀ a b, s = a ++ b → matchHere r false a.reverse b = none := by
  intro a b hs
  by_cases hb : b = []
  · subst hb
    rw [matchHere_none]
    rintro ⟨w, rest, hw, hsem⟩
    have := lang_minLen _ _ (sem_lang _ _ _ _ hsem)
    have h0 := List.append_eq_nil_iff.1 hw.symm
    rw [h0.1] at this
    simp at this; omega
  · rcases search_scanned (scan_scanned' hr s) with ⟨-, h2⟩ | ⟨m', a, b, h1, -⟩
    · simpa using h2 a b hs hb
    · unfold search finditer at h; rw [h1] at h; cases h

end Py
