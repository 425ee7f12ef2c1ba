import Verif.Py.Re

/-!
# General lemmas about the regular-expression engine
-/

namespace Py

theorem findSome?_flatMap' {α β γ : Type} (f : α → List β) (k : β → Option γ) (l : List α) :
    (l.flatMap f).findSome? k = l.findSome? fun a => (f a).findSome? k := by
  induction l with
  | nil => simp
  | cons a l ih =>
    simp only [List.flatMap_cons, List.findSome?_append, List.findSome?_cons, ih]
    cases List.findSome? k (f a) <;> simp

theorem iterK_eq (greedy : Bool) (f : St → {β : Type} → (St → Option β) → Option β)
    (g : St → List St) (hfg : ∀ s {β : Type} (k : St → Option β), f s k = (g s).findSome? k)
    (n : Nat) (s : St) {β : Type} (k : St → Option β) :
    iterK greedy f n s k = (iter greedy g n s).findSome? k := by
  induction n generalizing s with
  | zero => simp [iterK, iter]
  | succ n ih =>
    have key : (f s fun t => if t.post.length < s.post.length then iterK greedy f n t k else none)
        = ((List.filter (fun t => decide (t.post.length < s.post.length)) (g s)).flatMap
            (iter greedy g n)).findSome? k := by
      rw [hfg, findSome?_flatMap']
      induction g s with
      | nil => simp
      | cons t l ihl =>
        by_cases h : t.post.length < s.post.length
        · simp only [List.findSome?_cons, List.filter_cons, h, decide_true, if_true, ihl]
          rw [ih]
        · simp [h, ihl]
    cases greedy with
    | true =>
      simp only [iterK, iter, if_true]
      rw [key, List.findSome?_append]
      simp only [List.findSome?_cons, List.findSome?_nil]
      cases h : List.findSome? k _ <;> simp
      cases k s <;> rfl
    | false =>
      simp only [iterK, iter, Bool.false_eq_true, if_false]
      rw [key, List.findSome?_cons]
      cases k s <;> rfl

theorem runK_eq [UnicodeDB] (r : Re) (s : St) {β : Type} (k : St → Option β) :
    runK r s k = (run r s).findSome? k := by
  induction r generalizing s β with
  | eps => simp [runK, run]
  | fail => simp [runK, run]
  | set c =>
    simp only [runK, run]
    cases s.post with
    | nil => simp
    | cons x t => simp only; split <;> simp
  | str w => simp only [runK, run]; split <;> simp
  | seq a b iha ihb =>
    simp only [runK, run, findSome?_flatMap', iha]
    congr 1; funext t; exact ihb t k
  | alt a b iha ihb =>
    simp only [runK, run, List.findSome?_append, iha, ihb]
    cases List.findSome? k (run a s) <;> rfl
  | star greedy a ih => simp only [runK, run]; exact iterK_eq _ _ _ (fun s _ k => ih s k) _ _ _
  | group g a ih =>
    simp only [runK, run, ih, List.findSome?_map]; rfl
  | look neg a ih =>
    simp only [runK, run, ih]
    cases run a s with
    | nil => cases neg <;> simp
    | cons t l => cases neg <;> simp
  | behind neg cs => simp only [runK, run]; split <;> simp
  | bos => simp only [runK, run]; split <;> simp
  | eos => simp only [runK, run]; split <;> simp
  | wordb => simp only [runK, run]; split <;> simp

/-- The language of an expression with lookarounds and anchors ignored: every text
consumed by a match belongs to it. -/
def Lang [UnicodeDB] : Re → Str → Prop
  | .eps, w => w = []
  | .fail, _ => False
  | .set k, w => ∃ c, w = [c] ∧ k.mem c = true
  | .str v, w => w = v
  | .seq a b, w => ∃ u v, w = u ++ v ∧ Lang a u ∧ Lang b v
  | .alt a b, w => Lang a w ∨ Lang b w
  | .star _ a, w => ∃ ws : List Str, w = ws.flatten ∧ ∀ x ∈ ws, x ≠ [] ∧ Lang a x
  | .group _ a, w => Lang a w
  | .look _ _, w => w = []
  | .behind _ _, w => w = []
  | .bos, w => w = []
  | .eos, w => w = []
  | .wordb, w => w = []

/-- The groups of an expression with their bodies. -/
def Re.groups : Re → List (Nat × Re)
  | .seq a b => a.groups ++ b.groups
  | .alt a b => a.groups ++ b.groups
  | .star _ a => a.groups
  | .group g a => (g, a) :: a.groups
  | .look _ a => a.groups
  | _ => []

/-- The state `t` is reached from `s` by consuming `w`. -/
def Adv (s t : St) (w : Str) : Prop := s.post = w ++ t.post ∧ t.pre = w.reverse ++ s.pre

/-- A capture is located in the text and its content is in the language of its group. -/
def CapOk [UnicodeDB] (r : Re) (text : Str) (c : Cap) : Prop :=
  (∃ body, (c.g, body) ∈ r.groups ∧ Lang body c.txt) ∧
    ∃ p q, text = p ++ c.txt ++ q ∧ p.length = c.start

/-- The whole text of a state. -/
def St.text (s : St) : Str := s.pre.reverse ++ s.post

theorem Adv.text {s t : St} {w : Str} (h : Adv s t w) : t.text = s.text := by
  obtain ⟨h1, h2⟩ := h
  simp [St.text, h1, h2]

theorem Adv.trans {s t u : St} {w v : Str} (h : Adv s t w) (h' : Adv t u v) :
    Adv s u (w ++ v) := by
  obtain ⟨h1, h2⟩ := h
  obtain ⟨h3, h4⟩ := h'
  simp [Adv, h1, h2, h3, h4]

theorem Adv.refl (s : St) : Adv s s [] := by simp [Adv]

theorem CapOk.mono [UnicodeDB] {r r' : Re} {text : Str} {c : Cap}
    (hg : ∀ x ∈ r.groups, x ∈ r'.groups) (h : CapOk r text c) : CapOk r' text c := by
  obtain ⟨⟨b, hb, hl⟩, h2⟩ := h
  exact ⟨⟨b, hg _ hb, hl⟩, h2⟩

theorem iter_sound [UnicodeDB] (greedy : Bool) (a : Re) (r : Re)
    (hr : ∀ x ∈ a.groups, x ∈ r.groups)
    (ih : ∀ s t, t ∈ run a s → ∃ w, Adv s t w ∧ Lang a w ∧
      ∃ new, t.caps = new ++ s.caps ∧ ∀ c ∈ new, CapOk a s.text c)
    (n : Nat) (s t : St) (h : t ∈ iter greedy (run a) n s) :
    ∃ ws : List Str, Adv s t ws.flatten ∧ (∀ x ∈ ws, x ≠ [] ∧ Lang a x) ∧
      ∃ new, t.caps = new ++ s.caps ∧ ∀ c ∈ new, CapOk r s.text c := by
  induction n generalizing s with
  | zero =>
    simp [iter] at h; subst h
    exact ⟨[], by simp [Adv], by simp, [], by simp, by simp⟩
  | succ n ihn =>
    have h' : t = s ∨ ∃ u ∈ run a s, u.post.length < s.post.length ∧
        t ∈ iter greedy (run a) n u := by
      cases greedy <;> simp [iter] at h
      · rcases h with h | ⟨u, ⟨h1, h2⟩, h3⟩
        · exact .inl h
        · exact .inr ⟨u, h1, h2, h3⟩
      · rcases h with ⟨u, ⟨h1, h2⟩, h3⟩ | h
        · exact .inr ⟨u, h1, h2, h3⟩
        · exact .inl h
    rcases h' with rfl | ⟨u, hu, hlt, ht⟩
    · exact ⟨[], by simp [Adv], by simp, [], by simp, by simp⟩
    · obtain ⟨w, hw, hl, new, hn, hc⟩ := ih _ _ hu
      obtain ⟨ws, hws, hls, new', hn', hc'⟩ := ihn _ ht
      refine ⟨w :: ws, by simpa using hw.trans hws, ?_, new' ++ new, by simp [hn, hn'], ?_⟩
      · intro x hx
        rcases List.mem_cons.1 hx with rfl | hx
        · refine ⟨?_, hl⟩
          rintro rfl
          have := hw.1; simp at this; rw [this] at hlt; omega
        · exact hls x hx
      · intro c hcm
        rcases List.mem_append.1 hcm with h | h
        · have := hc' c h; rwa [hw.text] at this
        · exact (hc c h).mono hr

theorem run_sound [UnicodeDB] (r : Re) (s t : St) (h : t ∈ run r s) :
    ∃ w, Adv s t w ∧ Lang r w ∧
      ∃ new, t.caps = new ++ s.caps ∧ ∀ c ∈ new, CapOk r s.text c := by
  induction r generalizing s t with
  | eps => simp [run] at h; subst h; exact ⟨[], Adv.refl _, rfl, [], rfl, by simp⟩
  | fail => simp [run] at h
  | set k =>
    simp only [run] at h
    split at h
    · simp at h
    · next c l hp =>
      split at h
      · next hk =>
        simp at h; subst h
        exact ⟨[c], by simp [Adv, hp], ⟨c, rfl, hk⟩, [], rfl, by simp⟩
      · simp at h
  | str w =>
    simp only [run] at h
    split at h
    · next hp =>
      simp at h; subst h
      obtain ⟨l, hl⟩ := List.isPrefixOf_iff_prefix.1 hp
      exact ⟨w, by simp [Adv, ← hl], rfl, [], rfl, by simp⟩
    · simp at h
  | seq a b iha ihb =>
    simp only [run, List.mem_flatMap] at h
    obtain ⟨u, hu, ht⟩ := h
    obtain ⟨w, hw, hl, new, hn, hc⟩ := iha _ _ hu
    obtain ⟨v, hv, hlv, new', hn', hc'⟩ := ihb _ _ ht
    refine ⟨w ++ v, hw.trans hv, ⟨w, v, rfl, hl, hlv⟩, new' ++ new, by simp [hn, hn'], ?_⟩
    intro c hcm
    rcases List.mem_append.1 hcm with h | h
    · have := hc' c h
      rw [hw.text] at this
      exact this.mono (by simp +contextual [Re.groups])
    · exact (hc c h).mono (by simp +contextual [Re.groups])
  | alt a b iha ihb =>
    simp only [run, List.mem_append] at h
    rcases h with h | h
    · obtain ⟨w, hw, hl, new, hn, hc⟩ := iha _ _ h
      exact ⟨w, hw, .inl hl, new, hn, fun c h => (hc c h).mono (by simp +contextual [Re.groups])⟩
    · obtain ⟨w, hw, hl, new, hn, hc⟩ := ihb _ _ h
      exact ⟨w, hw, .inr hl, new, hn, fun c h => (hc c h).mono (by simp +contextual [Re.groups])⟩
  | star greedy a ih =>
    simp only [run] at h
    obtain ⟨ws, hws, hls, new, hn, hc⟩ :=
      iter_sound greedy a (.star greedy a) (by simp [Re.groups]) (fun s t h => ih s t h) _ _ _ h
    exact ⟨_, hws, ⟨ws, rfl, hls⟩, new, hn, hc⟩
  | group g a ih =>
    simp only [run, List.mem_map] at h
    obtain ⟨u, hu, rfl⟩ := h
    obtain ⟨w, hw, hl, new, hn, hc⟩ := ih _ _ hu
    have hcap : (u.pre.take (u.pre.length - s.pre.length)).reverse = w := by
      rw [hw.2]; simp
    refine ⟨w, hw, hl, ⟨g, s.pre.length, w⟩ :: new, by simp [hn, hcap], ?_⟩
    intro c hcm
    rcases List.mem_cons.1 hcm with rfl | h
    · exact ⟨⟨a, by simp [Re.groups], hl⟩, s.pre.reverse, u.post, by simp [St.text, hw.1], by simp⟩
    · exact (hc c h).mono (by simp +contextual [Re.groups])
  | look neg a ih =>
    simp only [run] at h
    split at h
    · cases neg <;> simp at h
      subst h; exact ⟨[], Adv.refl _, rfl, [], rfl, by simp⟩
    · next u l hu =>
      cases neg <;> simp at h
      subst h
      obtain ⟨w, hw, hl, new, hn, hc⟩ := ih s u (by rw [hu]; simp)
      exact ⟨[], by simp [Adv], rfl, new, hn, fun c h => (hc c h).mono (by simp [Re.groups])⟩
  | behind neg cs =>
    simp only [run] at h
    split at h <;> simp at h
    subst h; exact ⟨[], Adv.refl _, rfl, [], rfl, by simp⟩
  | bos =>
    simp only [run] at h
    split at h <;> simp at h
    subst h; exact ⟨[], Adv.refl _, rfl, [], rfl, by simp⟩
  | eos =>
    simp only [run] at h
    split at h <;> simp at h
    subst h; exact ⟨[], Adv.refl _, rfl, [], rfl, by simp⟩
  | wordb =>
    simp only [run] at h
    split at h <;> simp at h
    subst h; exact ⟨[], Adv.refl _, rfl, [], rfl, by simp⟩

/-- What a match object says about the text it was found in. -/
structure MatchOk [UnicodeDB] (r : Re) (pre post : Str) (m : Match) : Prop where
  start : m.start = pre.length
  split : ∃ rest, post = m.txt ++ rest
  lang : Lang r m.txt
  caps : ∀ c ∈ m.caps, CapOk r (pre.reverse ++ post) c

theorem matchHere_state [UnicodeDB] {r : Re} {adv : Bool} {pre post : Str} {m : Match}
    (h : matchHere r adv pre post = some m) :
    ∃ t ∈ run r ⟨pre, post, []⟩, m = mkMatch pre t ∧
      (adv = true → t.post.length < post.length) := by
  simp only [matchHere, runK_eq] at h
  obtain ⟨t, ht, hk⟩ := List.exists_of_findSome?_eq_some h
  refine ⟨t, ht, ?_⟩
  split at hk
  · simp at hk
  · next hn =>
    simp at hk
    refine ⟨hk.symm, ?_⟩
    intro ha; simpa [ha] using hn

theorem mkMatch_of_adv {pre : Str} {t : St} {post : Str} {w : Str}
    (h : Adv ⟨pre, post, []⟩ t w) : mkMatch pre t = ⟨pre.length, w, t.caps⟩ := by
  simp [mkMatch, h.2]

theorem matchHere_ok [UnicodeDB] {r : Re} {adv : Bool} {pre post : Str} {m : Match}
    (h : matchHere r adv pre post = some m) :
    MatchOk r pre post m ∧ (adv = true → m.txt ≠ []) := by
  obtain ⟨t, ht, rfl, hadv⟩ := matchHere_state h
  obtain ⟨w, hw, hl, new, hn, hc⟩ := run_sound _ _ _ ht
  rw [mkMatch_of_adv hw]
  refine ⟨⟨rfl, ⟨t.post, hw.1⟩, hl, ?_⟩, ?_⟩
  · intro c hcm
    simp [hn] at hcm
    exact hc c hcm
  · intro ha
    have := hadv ha
    have h1 := hw.1
    simp at h1
    intro h0
    simp at h0
    subst h0
    simp [h1] at this

theorem Match.group_cap {m : Match} {g : Nat} {x : Str} (h : m.group g = some x) :
    ∃ c ∈ m.caps, c.g = g ∧ c.txt = x := by
  simp only [Match.group, Option.map_eq_some_iff] at h
  obtain ⟨c, hc, rfl⟩ := h
  exact ⟨c, List.mem_of_find?_eq_some hc, by simpa using List.find?_some hc, rfl⟩

/-- The content of a captured group belongs to the language of one of the group's bodies. -/
theorem MatchOk.group_lang [UnicodeDB] {r : Re} {pre post : Str} {m : Match}
    (hm : MatchOk r pre post m) {g : Nat} {x : Str} (h : m.group g = some x) :
    ∃ body, (g, body) ∈ r.groups ∧ Lang body x := by
  obtain ⟨c, hc, rfl, rfl⟩ := Match.group_cap h
  exact (hm.caps c hc).1

/-- A captured group is a piece of the text. -/
theorem MatchOk.group_infix [UnicodeDB] {r : Re} {pre post : Str} {m : Match}
    (hm : MatchOk r pre post m) {g : Nat} {x : Str} (h : m.group g = some x) :
    ∃ p q, pre.reverse ++ post = p ++ x ++ q := by
  obtain ⟨c, hc, rfl, rfl⟩ := Match.group_cap h
  obtain ⟨p, q, h, _⟩ := (hm.caps c hc).2
  exact ⟨p, q, h⟩

/-- Nothing is lost by scanning: the original texts of the pieces make up the string. -/
theorem scanGo_orig [UnicodeDB] (r : Re) (k : Nat) (pre post : Str) (hk : k ≤ post.length) :
    (scanGo r k pre post).flatMap Piece.orig = post.drop k := by
  induction post generalizing k pre with
  | nil =>
    simp at hk; subst hk
    simp only [scanGo]
    split
    · next m hm =>
      obtain ⟨rest, hr⟩ := (matchHere_ok hm).1.split
      have : m.txt = [] := by
        have := congrArg List.length hr; simp at this
        exact List.eq_nil_of_length_eq_zero (by omega)
      simp [Piece.orig, this]
    · simp
  | cons c t ih =>
    cases k with
    | succ k => simp only [scanGo]; rw [ih k _ (by simpa using hk)]; simp
    | zero =>
      have key : ∀ m : Match, (∃ rest, c :: t = m.txt ++ rest) → m.txt ≠ [] →
          m.txt ++ List.drop (m.txt.length - 1) t = c :: t ∧ m.txt.length - 1 ≤ t.length := by
        rintro ⟨st, txt, caps⟩ ⟨rest, hr⟩ hne
        simp only at hr hne ⊢
        match txt, hne with
        | x :: xs, _ =>
          simp at hr
          obtain ⟨rfl, rfl⟩ := hr
          simp
      simp only [scanGo]
      split
      · next m hm =>
        split
        · next he =>
          simp only [List.isEmpty_iff] at he
          split
          · next m2 hm2 =>
            obtain ⟨hok, hadv⟩ := matchHere_ok hm2
            obtain ⟨h1, h2⟩ := key m2 hok.split (hadv rfl)
            simp [Piece.orig, he, ih _ _ h2, h1]
          · simp [Piece.orig, he, ih]
        · next he =>
          simp only [List.isEmpty_iff] at he
          obtain ⟨hok, -⟩ := matchHere_ok hm
          obtain ⟨h1, h2⟩ := key m hok.split he
          simp [Piece.orig, ih _ _ h2, h1]
      · simp [Piece.orig, ih]

theorem scan_orig [UnicodeDB] (r : Re) (s : Str) : (scan r s).flatMap Piece.orig = s := by
  simpa [scan] using scanGo_orig r 0 [] s (by simp)

/-- Every match found by a scan sits exactly where the preceding pieces end. -/
theorem scanGo_hit [UnicodeDB] (r : Re) (k : Nat) (pre post : Str) (hk : k ≤ post.length)
    (ps : List Piece) (x : Match) (qs : List Piece)
    (h : scanGo r k pre post = ps ++ .hit x :: qs) :
    ∃ b, matchHere r b ((ps.flatMap Piece.orig).reverse ++ (post.take k).reverse ++ pre)
      (x.txt ++ qs.flatMap Piece.orig) = some x := by
  induction post generalizing k pre ps with
  | nil =>
    simp at hk; subst hk
    simp only [scanGo] at h
    split at h
    · next m hm =>
      cases ps with
      | nil =>
        simp at h; obtain ⟨rfl, rfl⟩ := h
        obtain ⟨rest, hr⟩ := (matchHere_ok hm).1.split
        have : m.txt = [] := by
          have := congrArg List.length hr; simp at this
          exact List.eq_nil_of_length_eq_zero (by omega)
        exact ⟨false, by simpa [this] using hm⟩
      | cons a b => simp at h
    · simp at h
  | cons c t ih =>
    cases k with
    | succ k =>
      simp only [scanGo] at h
      obtain ⟨b, hb⟩ := ih k (c :: pre) (by simpa using hk) ps h
      exact ⟨b, by simpa using hb⟩
    | zero =>
      have key : ∀ m : Match, (∃ rest, c :: t = m.txt ++ rest) → m.txt ≠ [] →
          (c :: t = m.txt ++ List.drop (m.txt.length - 1) t ∧ m.txt.length - 1 ≤ t.length) ∧
          (List.take (m.txt.length - 1) t).reverse ++ [c] = m.txt.reverse := by
        rintro ⟨st, txt, caps⟩ ⟨rest, hr⟩ hne
        simp only at hr hne ⊢
        match txt, hne with
        | x :: xs, _ =>
          simp at hr
          obtain ⟨rfl, rfl⟩ := hr
          simp
      have rest : ∀ m : Match, MatchOk r pre (c :: t) m → m.txt ≠ [] →
          ∀ ps', scanGo r (m.txt.length - 1) (c :: pre) t = ps' ++ .hit x :: qs →
          ∃ b, matchHere r b ((ps'.flatMap Piece.orig).reverse ++ m.txt.reverse ++ pre)
            (x.txt ++ qs.flatMap Piece.orig) = some x := by
        intro m hok hne ps' hps
        obtain ⟨⟨h1, h2⟩, h3⟩ := key m hok.split hne
        obtain ⟨b, hb⟩ := ih _ _ h2 ps' hps
        refine ⟨b, ?_⟩
        rw [← h3]
        simpa using hb
      have restc : ∀ ps', scanGo r 0 (c :: pre) t = ps' ++ .hit x :: qs →
          ∃ b, matchHere r b ((ps'.flatMap Piece.orig).reverse ++ [c] ++ pre)
            (x.txt ++ qs.flatMap Piece.orig) = some x := by
        intro ps' hps
        obtain ⟨b, hb⟩ := ih 0 _ (by simp) ps' hps
        exact ⟨b, by simpa using hb⟩
      simp only [scanGo] at h
      split at h
      · next m hm =>
        split at h
        · next he =>
          simp only [List.isEmpty_iff] at he
          cases ps with
          | nil =>
            simp at h; obtain ⟨rfl, hq⟩ := h
            refine ⟨false, ?_⟩
            have : qs.flatMap Piece.orig = c :: t := by
              have h0 := scanGo_orig r 0 pre (c :: t) (by simp)
              simp only [scanGo, hm, he, List.isEmpty_nil, if_true] at h0
              rw [hq] at h0
              simpa [Piece.orig, he] using h0
            simpa [he, this] using hm
          | cons p ps =>
            simp at h; obtain ⟨rfl, h⟩ := h
            split at h
            · next m2 hm2 =>
              obtain ⟨hok, hadv⟩ := matchHere_ok hm2
              cases ps with
              | nil =>
                simp at h; obtain ⟨rfl, hq⟩ := h
                obtain ⟨⟨h1, h2⟩, h3⟩ := key m2 hok.split (hadv rfl)
                refine ⟨true, ?_⟩
                rw [← hq, scanGo_orig _ _ _ _ h2, ← h1]
                simpa [Piece.orig, he] using hm2
              | cons p2 ps =>
                simp at h; obtain ⟨rfl, h⟩ := h
                obtain ⟨b, hb⟩ := rest m2 hok (hadv rfl) ps h
                exact ⟨b, by simpa [Piece.orig, he] using hb⟩
            · cases ps with
              | nil => simp at h
              | cons p2 ps =>
                simp at h; obtain ⟨rfl, h⟩ := h
                obtain ⟨b, hb⟩ := restc ps h
                exact ⟨b, by simpa [Piece.orig, he] using hb⟩
        · next he =>
          simp only [List.isEmpty_iff] at he
          obtain ⟨hok, -⟩ := matchHere_ok hm
          obtain ⟨⟨h1, h2⟩, h3⟩ := key m hok.split he
          cases ps with
          | nil =>
            simp at h; obtain ⟨rfl, hq⟩ := h
            refine ⟨false, ?_⟩
            rw [← hq, scanGo_orig _ _ _ _ h2, ← h1]
            simpa using hm
          | cons p ps =>
            simp at h; obtain ⟨rfl, h⟩ := h
            obtain ⟨b, hb⟩ := rest m hok he ps h
            exact ⟨b, by simpa [Piece.orig] using hb⟩
      · cases ps with
        | nil => simp at h
        | cons p ps =>
          simp at h; obtain ⟨rfl, h⟩ := h
          obtain ⟨b, hb⟩ := restc ps h
          exact ⟨b, by simpa [Piece.orig] using hb⟩

theorem scan_hit [UnicodeDB] {r : Re} {s : Str} {ps : List Piece} {x : Match}
    {qs : List Piece} (h : scan r s = ps ++ .hit x :: qs) :
    ∃ b, matchHere r b (ps.flatMap Piece.orig).reverse (x.txt ++ qs.flatMap Piece.orig) = some x := by
  simpa using scanGo_hit r 0 [] s (by simp) ps x qs h

theorem scan_hit_ok [UnicodeDB] {r : Re} {s : Str} {ps : List Piece} {x : Match}
    {qs : List Piece} (h : scan r s = ps ++ .hit x :: qs) :
    MatchOk r (ps.flatMap Piece.orig).reverse (x.txt ++ qs.flatMap Piece.orig) x := by
  obtain ⟨b, hb⟩ := scan_hit h
  exact (matchHere_ok hb).1

theorem mem_finditer [UnicodeDB] {r : Re} {s : Str} {m : Match} (h : m ∈ finditer r s) :
    ∃ ps qs, scan r s = ps ++ .hit m :: qs := by
  simp only [finditer, List.mem_filterMap] at h
  obtain ⟨p, hp, hm⟩ := h
  cases p with
  | ch c => simp [Piece.match?] at hm
  | hit x =>
    simp [Piece.match?] at hm; subst hm
    exact List.append_of_mem hp

/-- A match found anywhere is a piece of the text in the language of the pattern. -/
theorem finditer_ok [UnicodeDB] {r : Re} {s : Str} {m : Match} (h : m ∈ finditer r s) :
    ∃ p q, s = p ++ m.txt ++ q ∧ MatchOk r p.reverse (m.txt ++ q) m := by
  obtain ⟨ps, qs, hs⟩ := mem_finditer h
  refine ⟨ps.flatMap Piece.orig, qs.flatMap Piece.orig, ?_, scan_hit_ok hs⟩
  rw [← scan_orig r s, hs]; simp [Piece.orig]

theorem search_mem [UnicodeDB] {r : Re} {s : Str} {m : Match} (h : search r s = some m) :
    m ∈ finditer r s := List.mem_of_head? h

theorem reMatch_ok [UnicodeDB] {r : Re} {s : Str} {m : Match} (h : reMatch r s = some m) :
    MatchOk r [] s m := (matchHere_ok h).1

/-- Without a match, `sub` changes nothing. -/
theorem sub_of_no_match [UnicodeDB] {r : Re} {f : Match → Str} {s : Str}
    (h : finditer r s = []) : sub r f s = s := by
  have : ∀ ps : List Piece, ps.filterMap Piece.match? = [] →
      ps.flatMap (Piece.out f) = ps.flatMap Piece.orig := by
    intro ps hps
    induction ps with
    | nil => rfl
    | cons p ps ih =>
      cases p with
      | ch c =>
        have : ps.filterMap Piece.match? = [] := by
          rw [List.filterMap_cons_none (by rfl)] at hps; exact hps
        simp [Piece.out, Piece.orig, ih this]
      | hit x => rw [List.filterMap_cons_some (b := x) (by rfl)] at hps; simp at hps
  rw [sub, this _ h, scan_orig]

end Py
