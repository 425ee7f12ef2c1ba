import Verif.Lemmas.Tag

/-!
# Blanking tags
-/

open Spec

namespace Py

theorem cap_mem [UnicodeDB] (c : Char) : CSet.mem ⟨false, false, [.range 'A' 'Z']⟩ c = isAsciiUpper c := by
  simp [CSet.mem, CItem.mem, isAsciiUpper]

theorem sem_name [UnicodeDB] {pre w post : Str} : Sem (Re.plus (.set ⟨false, false, [.range 'A' 'Z']⟩)) pre w post ↔ TagName w := by
  rw [sem_plus_set]; simp only [cap_mem]; rfl

theorem sem_tag [UnicodeDB] {pre w post : Str} : Sem Rx.re_tag pre w post ↔ ClosedTag w := by
  have hb : ∀ c, CSet.mem ⟨true, false, [.ch '<']⟩ c = true ↔ c ≠ '<' := by
    intro c; simp [CSet.mem, CItem.mem]
  have hall : ∀ b : Str, (∀ c ∈ b, CSet.mem ⟨true, false, [.ch '<']⟩ c = true) ↔ '<' ∉ b := by
    intro b
    simp only [hb]
    exact ⟨fun h hm => h _ hm rfl, fun h c hc e => h (e ▸ hc)⟩
  simp only [Rx.re_tag, Re.alts]
  constructor
  · rintro ⟨_, w, rfl, h0, h | h⟩
    · obtain ⟨n, w, rfl, h1, _, w, rfl, h2, b, w, rfl, h3, _, w, rfl, h4, n', _, rfl, h5, h6⟩ := h
      rw [sem_ch] at h2 h6
      simp only [Sem] at h0 h4
      subst h0 h2 h4 h6
      exact .inl ⟨n, b, n', by simp, sem_name.1 h1, (hall b).1 (sem_star_set.1 h3), sem_name.1 h5⟩
    · obtain ⟨n, _, rfl, h1, h2⟩ := h
      simp only [Sem] at h0 h2
      subst h0 h2
      exact .inr ⟨n, by simp, sem_name.1 h1⟩
  · rintro (⟨n, b, n', rfl, h1, h2, h3⟩ | ⟨n, rfl, h1⟩)
    · simp only [List.append_assoc]
      exact ⟨py! "<cds.", _, rfl, rfl, .inl ⟨n, _, rfl, sem_name.2 h1, ['>'], _, rfl, sem_ch.2 rfl, b, _, rfl, sem_star_set.2 ((hall b).2 h2),
        py! "</cds.", _, rfl, rfl, n', _, rfl, sem_name.2 h3, sem_ch.2 rfl⟩⟩
    · simp only [List.append_assoc]
      exact ⟨py! "<cds.", _, rfl, rfl, .inr ⟨n, _, rfl, sem_name.2 h1, rfl⟩⟩

theorem tag_minLen : 0 < Rx.re_tag.minLen := by decide

/-- The longest prefix with a property is unique. -/
theorem split_unique {P : Char → Prop} : ∀ {a x a' x' : Str}, a ++ x = a' ++ x' → (∀ c ∈ a, P c) → (∀ c ∈ a', P c) →
    (∀ c, x.head? = some c → ¬ P c) → (∀ c, x'.head? = some c → ¬ P c) → a = a' ∧ x = x'
  | [], x, [], x', h, _, _, _, _ => ⟨rfl, h⟩
  | [], x, c :: a', x', h, _, h2, h3, _ => by
    simp only [List.nil_append, List.cons_append] at h
    exact absurd (h2 c (by simp)) (h3 c (by rw [h]; rfl))
  | c :: a, x, [], x', h, h1, _, _, h4 => by
    simp only [List.nil_append, List.cons_append] at h
    exact absurd (h1 c (by simp)) (h4 c (by rw [← h]; rfl))
  | c :: a, x, d :: a', x', h, h1, h2, h3, h4 => by
    simp only [List.cons_append, List.cons.injEq] at h
    obtain ⟨rfl, h⟩ := h
    obtain ⟨rfl, hx⟩ := split_unique h (fun d hd => h1 d (by simp [hd])) (fun d hd => h2 d (by simp [hd])) h3 h4
    exact ⟨rfl, hx⟩

theorem closedTag_unique {w r w' r' : Str} (h : ClosedTag w) (h' : ClosedTag w') (e : w ++ r = w' ++ r') : w = w' := by
  rcases h with ⟨n, b, m, rfl, hn, hb, hm⟩ | ⟨n, rfl, hn⟩ <;> rcases h' with ⟨n', b', m', rfl, hn', hb', hm'⟩ | ⟨n', rfl, hn'⟩
  · simp only [List.append_assoc] at e
    replace e := List.append_cancel_left (as := py! "<cds.") e
    obtain ⟨e1, e2⟩ := split_unique e hn.2 hn'.2 (by simp; decide) (by simp; decide)
    replace e2 := List.append_cancel_left (as := ['>']) e2
    obtain ⟨e3, e4⟩ := split_unique (P := fun c => c ≠ '<') e2 (fun c hc he => hb (he ▸ hc)) (fun c hc he => hb' (he ▸ hc)) (by simp) (by simp)
    replace e4 := List.append_cancel_left (as := py! "</cds.") e4
    obtain ⟨e5, -⟩ := split_unique e4 hm.2 hm'.2 (by simp; decide) (by simp; decide)
    rw [e1, e3, e5]
  · simp only [List.append_assoc] at e
    replace e := List.append_cancel_left (as := py! "<cds.") e
    obtain ⟨-, e2⟩ := split_unique e hn.2 hn'.2 (by simp; decide) (by simp; decide)
    exact absurd e2 (by simp)
  · simp only [List.append_assoc] at e
    replace e := List.append_cancel_left (as := py! "<cds.") e
    obtain ⟨-, e2⟩ := split_unique e hn.2 hn'.2 (by simp; decide) (by simp; decide)
    exact absurd e2 (by simp)
  · simp only [List.append_assoc] at e
    replace e := List.append_cancel_left (as := py! "<cds.") e
    obtain ⟨e1, -⟩ := split_unique e hn.2 hn'.2 (by simp; decide) (by simp; decide)
    rw [e1]

/-- `x` is `y` with some characters replaced by underscores. -/
def Under (x y : Str) : Prop := All2 (fun c d => c = d ∨ c = '_') x y

theorem Under.length {x y : Str} (h : Under x y) : x.length = y.length := by
  induction h with
  | nil => rfl
  | cons _ _ ih => simp [ih]

theorem Under.append {x y u v : Str} (h : Under x y) (h' : Under u v) : Under (x ++ u) (y ++ v) := by
  induction h with
  | nil => exact h'
  | cons h _ ih => exact .cons h ih

theorem under_refl (x : Str) : Under x x := by
  induction x with
  | nil => exact .nil
  | cons c x ih => exact .cons (.inl rfl) ih

theorem under_blank (x : Str) : Under (underscores x.length) x := by
  induction x with
  | nil => exact .nil
  | cons c x ih => exact .cons (.inr rfl) ih

theorem Under.drop {x y : Str} (h : Under x y) (k : Nat) : Under (x.drop k) (y.drop k) := by
  induction h generalizing k with
  | nil => simp; exact .nil
  | cons h t ih => cases k with
    | zero => exact .cons h t
    | succ k => simpa using ih k

/-- A prefix without underscores is shared. -/
theorem Under.prefix {w r y : Str} (h : Under (w ++ r) y) (hw : '_' ∉ w) : ∃ r', y = w ++ r' := by
  induction w generalizing y with
  | nil => exact ⟨y, rfl⟩
  | cons c w ih =>
    cases h with
    | cons h t =>
      obtain ⟨r', rfl⟩ := ih t (fun hm => hw (by simp [hm]))
      rcases h with rfl | rfl
      · exact ⟨r', rfl⟩
      · exact absurd (by simp) hw

theorem name_under {n : Str} (h : TagName n) : '_' ∉ n := fun hm => absurd (h.2 _ hm) (by decide)

/-- Is there a closed tag at a position of the line? -/
def TagAt (line : Str) (k : Nat) : Prop := ∃ w r, line.drop k = w ++ r ∧ ClosedTag w

theorem tagAt_under {cur line : Str} (hn : NoNesting line) (hu : Under cur line) {k : Nat} (h : TagAt cur k) : TagAt line k := by
  obtain ⟨w, r, hw, hc⟩ := h
  have hd := hu.drop k
  rw [hw] at hd
  rcases hc with ⟨n, b, m, rfl, h1, h2, h3⟩ | ⟨n, rfl, h1⟩
  · simp only [List.append_assoc] at hd
    rw [← List.append_assoc, ← List.append_assoc] at hd
    obtain ⟨r', hr'⟩ := Under.prefix hd (by
      simp only [List.mem_append, not_or]
      exact ⟨⟨by decide, name_under h1⟩, by decide⟩)
    obtain ⟨x, n', c, rfl, h4, h5⟩ := hn (line.take k) n r' (by rw [List.append_assoc, ← hr', List.take_append_drop]) h1
    exact ⟨_, c, by rw [hr', ← List.append_assoc, ← List.append_assoc, ← List.append_assoc, ← List.append_assoc], .inl ⟨n, x, n', rfl, h1, h4, h5⟩⟩
  · obtain ⟨r', hr'⟩ := Under.prefix hd (by
      simp only [List.mem_append, not_or]
      exact ⟨⟨by decide, name_under h1⟩, by decide⟩)
    exact ⟨_, r', hr', .inr ⟨n, rfl, h1⟩⟩

/-- The scan of a text passes over a part in which no match starts. -/
theorem scanGo_chs [UnicodeDB] {r : Re} : ∀ (p pre s : Str),
    (∀ p1 c p2, p = p1 ++ c :: p2 → matchHere r false (p1.reverse ++ pre) (c :: p2 ++ s) = none) →
    scanGo r 0 pre (p ++ s) = p.map Piece.ch ++ scanGo r 0 (p.reverse ++ pre) s
  | [], pre, s, _ => rfl
  | c :: p, pre, s, h => by
    have h0 := h [] c p rfl
    simp only [List.reverse_nil, List.nil_append, List.cons_append] at h0
    rw [List.cons_append, scanGo, h0]
    simp only
    rw [scanGo_chs p (c :: pre) s (fun p1 d p2 e => by
      have := h (c :: p1) d p2 (by rw [e]; rfl)
      simpa using this)]
    simp

theorem subFirst_chs (f : Match → Str) : ∀ (p : Str) (ps : List Piece), subFirst f (p.map Piece.ch ++ ps) = p ++ subFirst f ps
  | [], _ => rfl
  | c :: p, ps => by simp [subFirst, subFirst_chs f p ps]

/-- One replacement: the first tag is replaced. -/
theorem sub1_tag [UnicodeDB] {p w s : Str} (hw : ClosedTag w) (f : Match → Str) (x : Str) (hf : ∀ m, f m = x)
    (hp : ∀ k < p.length, ¬ TagAt (p ++ (w ++ s)) k) : sub1 Rx.re_tag f (p ++ (w ++ s)) = p ++ (x ++ s) := by
  have hchs := scanGo_chs (r := Rx.re_tag) p [] (w ++ s) (by
    rintro p1 c p2 rfl
    rw [matchHere_none]
    rintro ⟨v, r, hv, hm⟩
    refine hp p1.length (by simp) ⟨v, r, ?_, sem_tag.1 hm⟩
    rw [List.append_assoc, List.drop_left, ← hv])
  rw [sub1, scan, hchs, subFirst_chs, List.append_cancel_left_eq]
  have hs := scan_scanned tag_minLen (p.reverse ++ []) (w ++ s)
  generalize scanGo Rx.re_tag 0 (p.reverse ++ []) (w ++ s) = ps at hs
  generalize e : w ++ s = z at hs
  cases hs with
  | nil => 
    simp at e
    obtain ⟨rfl, rfl⟩ := e
    rcases hw with ⟨n, b, m, h, -⟩ | ⟨n, h, -⟩ <;> simp at h
  | @ch pre c t ps hn _ =>
    rw [matchHere_none] at hn
    exact absurd ⟨w, s, e.symm, sem_tag.2 hw⟩ hn
  | @hit pre t ps m hm hne hrest =>
    obtain ⟨rest, h1, h2⟩ := matchHere_sem hm
    have : w = m.txt := closedTag_unique hw (sem_tag.1 h2) e
    subst this
    obtain rfl := List.append_cancel_left e
    rw [subFirst, hf]
    congr 1
    have : ∀ {pre s ps}, Scanned Rx.re_tag pre s ps → ps.flatMap Piece.orig = s := by
      intro pre s ps h
      induction h with
      | nil => rfl
      | ch _ _ ih => simp [Piece.orig, ih]
      | hit _ _ _ ih => simp [Piece.orig, ih]
    exact this hrest

theorem strip_fold [UnicodeDB] {line : Str} (hn : NoNesting line) {pre s : Str} {ps : List Piece} (h : Scanned Rx.re_tag pre s ps)
    (p : Str) (hline : line = pre.reverse ++ s) (hu : Under p pre.reverse)
    (hI : ∀ p1 c p2, p = p1 ++ c :: p2 → c = '_' ∨ ¬ TagAt line p1.length) :
    (ps.filterMap Piece.match?).foldl (fun l m => sub1 Rx.re_tag (fun _ => underscores (m.stop - m.start)) l) (p ++ s) =
      p ++ ps.flatMap (Piece.out fun m => underscores m.txt.length) := by
  induction h generalizing p with
  | nil => simp
  | @ch pre c t ps hm _ ih =>
    have hlen : p.length = pre.length := by simpa using hu.length
    have := ih (p ++ [c]) (by simp [hline]) (by simpa using hu.append (under_refl [c])) (by
      intro p1 d p2 e
      rcases List.eq_nil_or_concat p2 with rfl | ⟨p2', d', rfl⟩
      · obtain ⟨rfl, h2⟩ := List.append_inj' e rfl
        cases h2
        refine .inr ?_
        rintro ⟨w, r, hw, hc⟩
        rw [matchHere_none] at hm
        refine hm ⟨w, r, ?_, sem_tag.2 hc⟩
        rw [← hw, hline, hlen, ← List.length_reverse, List.drop_left]
      · rw [List.concat_eq_append, ← List.cons_append, ← List.append_assoc] at e
        obtain ⟨rfl, h2⟩ := List.append_inj' e rfl
        exact hI p1 d p2' rfl)
    rw [List.filterMap_cons]
    simpa [Piece.match?, Piece.out] using this
  | @hit pre t ps m hm hne _ ih =>
    have hlen : p.length = pre.length := by simpa using hu.length
    have hst : m.start = pre.length := (matchHere_ok hm).1.start
    obtain ⟨rest, _, h2⟩ := matchHere_sem hm
    have hcl := sem_tag.1 h2
    have hstep : sub1 Rx.re_tag (fun _ => underscores (m.stop - m.start)) (p ++ (m.txt ++ t)) = p ++ (underscores m.txt.length ++ t) := by
      refine sub1_tag hcl _ _ (fun _ => by simp [Match.stop]) ?_
      intro k hk htag
      have hu' : Under (p ++ (m.txt ++ t)) line := by rw [hline]; exact hu.append (under_refl _)
      have hline' := tagAt_under hn hu' htag
      have hsplit : p = p.take k ++ p[k] :: p.drop (k + 1) := by simp
      rcases hI _ _ _ hsplit with h | h
      · obtain ⟨w, r, hw, hc⟩ := htag
        have : (p ++ (m.txt ++ t)).drop k = '_' :: (p.drop (k + 1) ++ (m.txt ++ t)) := by
          rw [List.drop_append_of_le_length (by omega), List.drop_eq_getElem_cons hk, h]; rfl
        rw [this] at hw
        rcases hc with ⟨n, b, m', rfl, -⟩ | ⟨n, rfl, -⟩
        · simp at hw
        · simp at hw
      · exact h (by rwa [List.length_take, Nat.min_eq_left (by omega)])
    have := ih (p ++ underscores m.txt.length) (by simp [hline]) (by simpa using hu.append (under_blank m.txt)) (by
      intro p1 d p2 e
      by_cases hlt : p1.length < p.length
      · have : ∃ p2', p = p1 ++ d :: p2' := by
          refine ⟨(p.drop (p1.length + 1)), ?_⟩
          have e1 : p.take p1.length = p1 := by
            have := congrArg (List.take p1.length) e
            rwa [List.take_append_of_le_length (by omega), List.take_left] at this
          have e2 : p[p1.length] = d := by
            have := congrArg (fun l => l[p1.length]?) e
            simpa [List.getElem?_append_left, hlt] using this
          rw [← e2]
          have e3 := List.take_append_drop p1.length p
          rw [e1, List.drop_eq_getElem_cons hlt] at e3
          exact e3.symm
        obtain ⟨p2', h⟩ := this
        exact hI p1 d p2' h
      · left
        have := congrArg (fun l => l[p1.length]?) e
        rw [List.getElem?_append_right (by omega)] at this
        simp only [List.getElem?_append_right (Nat.le_refl _), Nat.sub_self, List.getElem?_cons_zero] at this
        have := List.mem_of_getElem? this
        exact (List.mem_replicate.1 this).2)
    rw [List.filterMap_cons]
    simp only [Piece.match?, List.foldl_cons, hstep]
    rw [← List.append_assoc, this]
    simp [Piece.out]

theorem blanked_pieces [UnicodeDB] {pre s : Str} {ps : List Piece} (h : Scanned Rx.re_tag pre s ps) :
    Blanked s (ps.flatMap (Piece.out fun m => underscores m.txt.length)) := by
  induction h with
  | nil => exact .nil
  | @ch pre c t ps hn _ ih =>
    refine .ch ?_ ih
    rintro ⟨w, r, hw, hc⟩
    exact (matchHere_none _ _ _).1 hn ⟨w, r, hw, sem_tag.2 hc⟩
  | @hit pre t ps m hm _ _ ih =>
    obtain ⟨rest, _, h2⟩ := matchHere_sem hm
    exact .tag (sem_tag.1 h2) ih

theorem stripTags_eq [UnicodeDB] {line : Str} (hn : NoNesting line) :
    stripTags line = sub Rx.re_tag (fun m => underscores m.txt.length) line := by
  have := strip_fold hn (scan_scanned' tag_minLen line) [] rfl .nil (by simp)
  simpa [stripTags, finditer, sub] using this

end Py
