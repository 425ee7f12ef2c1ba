import Verif.Spec.PdfKeys
import Verif.Lemmas.Re2
import Verif.Lemmas.Pipeline

/-! # Lemmas on TeX keys -/

open Spec

namespace Py

theorem any_mem [UnicodeDB] (c : Char) : (⟨true, false, [.ch '\n']⟩ : CSet).mem c = true ↔ c ≠ '\n' := by
  simp [CSet.mem, CItem.mem]

/-- The two ways to cut a line break off a text agree. -/
theorem nl_split {k k' : Str} {r r' : Str} (hk : '\n' ∉ k) (hk' : '\n' ∉ k') (hr : r = [] ∨ r = ['\n'])
    (hr' : r' = [] ∨ r' = ['\n']) (h : k ++ r = k' ++ r') : k = k' := by
  rcases hr with rfl | rfl <;> rcases hr' with rfl | rfl
  · simpa using h
  · exfalso
    apply hk
    rw [List.append_nil] at h
    rw [h]
    simp
  · exfalso
    apply hk'
    rw [List.append_nil] at h
    rw [← h]
    simp
  · simpa using h

theorem citeKey_iff [UnicodeDB] (s k : Str) : citeKey s = some k ↔ CiteName s k := by
  have hrun : ∀ s, reMatch Rx.re_reference_in_dest s = if (py! "cite.").isPrefixOf s then
      runK (.star true Re.any) ⟨(py! "cite.").reverse, s.drop 5, []⟩ (fun t =>
        runK .eos { t with caps := ⟨1, 5, (t.pre.take (t.pre.length - 5)).reverse⟩ :: t.caps } fun t => some (mkMatch [] t))
      else none := by
    intro s
    rw [reMatch_eq, Rx.re_reference_in_dest, runK_seq_eq]
    show runK (Re.seq _ _) _ _ = _
    rw [runK_seq_eq]
    rfl
  unfold citeKey
  rw [hrun]
  constructor
  · intro h
    split at h
    · rename_i hp
      rw [List.isPrefixOf_iff_prefix] at hp
      obtain ⟨t, rfl⟩ := hp
      rw [Option.bind_eq_some_iff] at h
      obtain ⟨m, hm, hg⟩ := h
      obtain ⟨w, rest, hw⟩ := runK_star_some hm
      obtain ⟨h1, h2⟩ := runK_eos_some hw.ok
      have hsp := hw.split
      simp only [Option.some.injEq] at h2
      subst h2
      have : k = w := by
        simp [mkMatch, Match.group] at hg
        exact hg.symm
      subst this
      have hk : '\n' ∉ k := fun hn => (any_mem '\n').1 (hw.mem _ hn) rfl
      refine ⟨hk, ?_⟩
      have hsp : t = k ++ rest := by simpa using hsp
      rcases h1 with h1 | h1
      · have h1 : rest = [] := h1
        left
        rw [hsp, h1, List.append_nil]
      · have h1 : rest = ['\n'] := h1
        right
        rw [hsp, h1, List.append_assoc]
    · cases h
  · rintro ⟨hk, h⟩
    have : ∃ r, (r = [] ∨ r = ['\n']) ∧ s = py! "cite." ++ (k ++ r) := by
      rcases h with h | h
      · exact ⟨[], .inl rfl, by rw [h, List.append_nil]⟩
      · exact ⟨['\n'], .inr rfl, by rw [h, List.append_assoc]⟩
    obtain ⟨r, hr, rfl⟩ := this
    rw [if_pos (by rw [List.isPrefixOf_iff_prefix]; exact ⟨_, rfl⟩)]
    cases hm : runK (.star true Re.any) ⟨(py! "cite.").reverse, (py! "cite." ++ (k ++ r)).drop 5, []⟩ (fun t =>
        runK .eos { t with caps := ⟨1, 5, (t.pre.take (t.pre.length - 5)).reverse⟩ :: t.caps }
          fun t => some (mkMatch [] t)) with
    | none =>
      have := runK_star_none hm k r (by simp) (fun c hc => (any_mem c).2 (fun e => hk (e ▸ hc)))
      exfalso
      rcases hr with rfl | rfl <;> simp [runK] at this
    | some m =>
      obtain ⟨w, rest, hw⟩ := runK_star_some hm
      obtain ⟨h1, h2⟩ := runK_eos_some hw.ok
      have hsp : k ++ r = w ++ rest := by simpa using hw.split
      have hw' : '\n' ∉ w := fun hn => (any_mem '\n').1 (hw.mem _ hn) rfl
      have := nl_split hk hw' hr h1 hsp
      subst this
      simp only [Option.some.injEq] at h2
      subst h2
      simp [mkMatch, Match.group]

theorem destPosition_iff (d : Dest) (p : Pos) : destPosition d = .ok p ↔ Placed d p := by
  obtain ⟨page, left, top⟩ := d
  unfold destPosition Placed
  rcases page with e | ⟨page, width⟩
  · simp [bind, Except.bind]
  rcases left with _ | left
  · simp [bind, Except.bind, coord]
  rcases top with _ | top
  · by_cases h : left = 0 <;> simp [bind, Except.bind, coord, h]
  by_cases hl : left = 0
  · simp [bind, Except.bind, coord, hl]
  by_cases ht : top = 0
  · simp [bind, Except.bind, coord, hl, ht]
  by_cases hw : width = 0
  · simp [bind, Except.bind, coord, hl, ht, columnOf, hw]
  · simp only [bind, Except.bind, coord, hl, ht, columnOf, hw, if_false, pure, Except.pure, Except.ok.injEq]
    constructor
    · rintro rfl
      exact ⟨page, width, left, top, rfl, rfl, rfl, hl, ht, hw, rfl⟩
    · rintro ⟨page', width', left', top', h1, h2, h3, -, -, -, rfl⟩
      cases h1
      cases h2
      cases h3
      rfl

theorem linkPosition_iff (l : Link) (p : Pos) : linkPosition l = .ok p ↔ LinkPlaced l p := by
  obtain ⟨uri, page, width, rect⟩ := l
  unfold linkPosition LinkPlaced
  rcases rect with e | ⟨left, top⟩
  · simp [bind, Except.bind]
  rcases width with e | width
  · simp [bind, Except.bind]
  by_cases hw : width = 0
  · simp [bind, Except.bind, columnOf, hw]
  · simp only [bind, Except.bind, columnOf, hw, if_false, pure, Except.pure, Except.ok.injEq]
    constructor
    · rintro rfl
      exact ⟨left, top, width, rfl, rfl, hw, rfl⟩
    · rintro ⟨left', top', width', h1, h2, -, rfl⟩
      cases h1
      cases h2
      rfl

/-! ### Sorting -/

theorem lexLe_total : ∀ a b : List Int, a.length = b.length → (lexLe a b || lexLe b a) = true
  | [], _, _ => by simp [lexLe]
  | _ :: _, [], h => by simp at h
  | a :: as, b :: bs, h => by
    have := lexLe_total as bs (by simpa using h)
    simp only [lexLe]
    by_cases h1 : a < b
    · simp [h1]
    · by_cases h2 : b < a
      · simp [h2]
      · simpa [h1, h2] using this

theorem lexLe_trans : ∀ a b c : List Int, lexLe a b = true → lexLe b c = true → lexLe a c = true
  | [], _, _ => by simp [lexLe]
  | _ :: _, [], _ => by simp [lexLe]
  | _ :: _, _ :: _, [] => by simp [lexLe]
  | a :: as, b :: bs, c :: cs => by
    have ih := lexLe_trans as bs cs
    simp only [lexLe]
    intro h1 h2
    split at h1
    · split at h2
      · rw [if_pos (by omega)]
      · split at h2
        · cases h2
        · rw [if_pos (by omega)]
    · split at h1
      · cases h1
      · split at h2
        · rw [if_pos (by omega)]
        · split at h2
          · cases h2
          · rw [if_neg (by omega), if_neg (by omega)]
            exact ih h1 h2

theorem readBefore_iff (two : Bool) (p q : Pos) : lexLe (sortKey two p) (sortKey two q) = true ↔ ReadBefore two p q := by
  have key : ∀ (a b : Int) (as bs : List Int), lexLe (a :: as) (b :: bs) = true ↔ a < b ∨ a = b ∧ lexLe as bs = true := by
    intro a b as bs
    simp only [lexLe]
    by_cases h1 : a < b
    · simp [h1]
    · by_cases h2 : b < a
      · have : a ≠ b := by omega
        simp [h1, h2, this]
      · have : a = b := by omega
        simp [this]
  have base : lexLe [] [] = true := rfl
  unfold sortKey ReadBefore
  cases two with
  | true =>
    simp only [if_true, key, base, and_true]
    have : p.x ≤ q.x ↔ p.x < q.x ∨ p.x = q.x := by omega
    rw [this, Int.ofNat_lt, Int.ofNat_inj]
  | false =>
    simp only [Bool.false_eq_true, if_false, key, base, and_true]
    have : p.x ≤ q.x ↔ p.x < q.x ∨ p.x = q.x := by omega
    rw [this, Int.ofNat_lt, Int.ofNat_inj]

theorem sortPos_perm {α : Type} (two : Bool) (l : List (α × Pos)) : (sortPos two l).Perm l :=
  sortBy_perm _

theorem sortPos_sorted {α : Type} (two : Bool) (l : List (α × Pos)) :
    (sortPos two l).Pairwise fun a b => ReadBefore two a.2 b.2 := by
  have := sortBy_sorted (le := fun a b : α × Pos => lexLe (sortKey two a.2) (sortKey two b.2))
    (fun a b => lexLe_total _ _ (by cases two <;> rfl)) (fun a b c h1 h2 => lexLe_trans _ _ _ h1 h2) l
  exact this.imp fun h => (readBefore_iff _ _ _).1 h

/-- Sorting a mapped list. -/
theorem sortPos_map {α β : Type} (two : Bool) (f : α → β) (l : List (α × Pos)) :
    sortPos two (l.map fun a => (f a.1, a.2)) = (sortPos two l).map fun a => (f a.1, a.2) := by
  exact sortBy_map (fun a : α × Pos => (f a.1, a.2)) (fun _ _ => rfl) l

theorem twoColumns_iff (ps : List Pos) : twoColumns [] ps = true ↔ TwoColumns ps := by
  have key : ∀ (ps : List Pos) (seen : List Int), (∀ x, seen.count x < 3) →
      (twoColumns seen ps = true ↔ ∃ x, 3 ≤ seen.count x + (ps.filter fun p => p.col = 1 ∧ p.x = x).length) := by
    intro ps
    induction ps with
    | nil =>
      intro seen h
      simp only [twoColumns, Bool.false_eq_true, List.filter_nil, List.length_nil, false_iff]
      rintro ⟨x, hx⟩
      have := h x
      omega
    | cons p ps ih =>
      intro seen h
      rw [twoColumns]
      split
      · rename_i hc
        split
        · rename_i h3
          simp only [true_iff]
          refine ⟨p.x, ?_⟩
          rw [List.filter_cons_of_pos (by simp [hc])]
          rw [List.count_cons_self] at h3
          simp only [List.length_cons]
          omega
        · rename_i h3
          rw [ih]
          · constructor
            · rintro ⟨x, hx⟩
              refine ⟨x, ?_⟩
              by_cases hp : p.x = x
              · rw [List.filter_cons_of_pos (by simp [hc, hp])]
                rw [hp, List.count_cons_self] at hx
                simp only [List.length_cons]
                omega
              · rw [List.filter_cons_of_neg (by simp [hp])]
                rwa [List.count_cons_of_ne hp] at hx
            · rintro ⟨x, hx⟩
              refine ⟨x, ?_⟩
              by_cases hp : p.x = x
              · rw [List.filter_cons_of_pos (by simp [hc, hp])] at hx
                rw [hp, List.count_cons_self]
                simp only [List.length_cons] at hx
                omega
              · rw [List.filter_cons_of_neg (by simp [hp])] at hx
                rwa [List.count_cons_of_ne hp]
          · intro x
            by_cases hp : p.x = x
            · subst hp
              omega
            · rw [List.count_cons_of_ne hp]
              exact h x
      · rename_i hc
        rw [ih seen h]
        constructor
        · rintro ⟨x, hx⟩
          exact ⟨x, by rwa [List.filter_cons_of_neg (by simp [hc])]⟩
        · rintro ⟨x, hx⟩
          exact ⟨x, by rwa [List.filter_cons_of_neg (by simp [hc])] at hx⟩
  rw [key ps [] (by simp)]
  simp [TwoColumns]

theorem assignLinks_length {α : Type} (two : Bool) : ∀ (refs : List Pos) (urls : List (α × Pos)),
    (assignLinks two urls refs).length = refs.length
  | [], _ => rfl
  | _ :: refs, _ => by
    rw [assignLinks]
    simp [assignLinks_length two refs]


theorem sortPos_stable {α : Type} {a b : α × Pos} (two : Bool) {l : List (α × Pos)} (h : [a, b].Sublist l)
    (hab : ReadBefore two a.2 b.2) : [a, b].Sublist (sortPos two l) :=
  sortBy_stable (le := fun a b : α × Pos => lexLe (sortKey two a.2) (sortKey two b.2))
    (fun _ _ _ h1 h2 => lexLe_trans _ _ _ h1 h2) ((readBefore_iff _ _ _).2 hab) h

/-! ### The whole function -/

theorem citeKey_none [UnicodeDB] (s : Str) : citeKey s = none ↔ ∀ k, ¬ CiteName s k := by
  constructor
  · intro h k hk
    rw [(citeKey_iff s k).2 hk] at h
    cases h
  · intro h
    cases hc : citeKey s with
    | none => rfl
    | some k => exact absurd ((citeKey_iff s k).1 hc) (h k)

theorem citeDests_error [UnicodeDB] {e : PyErr} : ∀ {dests : List (DestKey × Dest)}, citeDests dests = .error e →
    ∃ d, (DestKey.bytes none, d) ∈ dests
  | [], h => by cases h
  | (k, d) :: r, h => by
    have next : citeDests r = .error e → ∃ d', (DestKey.bytes none, d') ∈ (k, d) :: r := fun h => by
      obtain ⟨d', hd⟩ := citeDests_error h
      exact ⟨d', List.mem_cons_of_mem _ hd⟩
    unfold citeDests at h
    cases k with
    | text s =>
      cases hr : citeDests r with
      | ok l => simp [hr, destName, bind, Except.bind, pure, Except.pure] at h
      | error e' =>
        simp only [hr, destName, bind, Except.bind, Except.error.injEq] at h
        exact next (h ▸ hr)
    | bytes o =>
      cases o with
      | none => exact ⟨d, List.mem_cons_self⟩
      | some s =>
        cases hr : citeDests r with
        | ok l => simp [hr, destName, bind, Except.bind, pure, Except.pure] at h
        | error e' =>
          simp only [hr, destName, bind, Except.bind, Except.error.injEq] at h
          exact next (h ▸ hr)

/-- The steps of `texkeys` when all citation destinations are located. -/
theorem citeDests_ok [UnicodeDB] {dests : List (DestKey × Dest)} {cites : List (Str × Pos)} (h : Cites dests cites) :
    ∃ (refs : List (DestKey × Dest)) (ps : List (DestKey × Pos)), citeDests dests = .ok refs
      ∧ (refs.mapM fun r => do
          let p ← destPosition r.2
          pure (r.1, p)) = (Except.ok ps : Py _)
      ∧ ps.map (fun p => (keyText p.1, p.2)) = cites.map (fun c => (.ok c.1, c.2))
      ∧ ps.map (·.2) = cites.map (·.2) := by
  induction h with
  | nil => exact ⟨[], [], rfl, rfl, rfl, rfl⟩
  | @skip s d r l hs _ ih =>
    obtain ⟨refs, ps, h1, h2, h3, h4⟩ := ih
    refine ⟨refs, ps, ?_, h2, h3, h4⟩
    simp [citeDests, destName, bind, Except.bind, pure, Except.pure, h1, (citeKey_none s).2 hs]
  | @skipBytes s d r l hs _ ih =>
    obtain ⟨refs, ps, h1, h2, h3, h4⟩ := ih
    refine ⟨refs, ps, ?_, h2, h3, h4⟩
    simp [citeDests, destName, bind, Except.bind, pure, Except.pure, h1, (citeKey_none s).2 hs]
  | @take s k d p r l hs hp _ ih =>
    obtain ⟨refs, ps, h1, h2, h3, h4⟩ := ih
    refine ⟨(.text s, d) :: refs, (.text s, p) :: ps, ?_, ?_, ?_, ?_⟩
    · simp [citeDests, destName, bind, Except.bind, pure, Except.pure, h1, (citeKey_iff s k).2 hs]
    · rw [List.mapM_cons, h2, (destPosition_iff d p).2 hp]
      rfl
    · have hk : keyText (.text s) = .ok k := by simp [keyText, (citeKey_iff s k).2 hs]
      simp [h3, hk]
    · simp [h4]

theorem links_ok {links : List Link} (h : ∀ l ∈ links, ∃ p, LinkPlaced l p) :
    ∃ us : List (Str × Pos), (links.mapM fun l => do
      let p ← linkPosition l
      pure (l.uri, p)) = (Except.ok us : Py _) := by
  induction links with
  | nil => exact ⟨[], rfl⟩
  | cons l ls ih =>
    obtain ⟨us, hus⟩ := ih fun l hl => h l (List.mem_cons_of_mem _ hl)
    obtain ⟨p, hp⟩ := h l List.mem_cons_self
    refine ⟨(l.uri, p) :: us, ?_⟩
    rw [List.mapM_cons, hus, (linkPosition_iff l p).2 hp]
    rfl

theorem keyText_mapM [UnicodeDB] : ∀ {ps : List (DestKey × Pos)} {cites : List (Str × Pos)},
    ps.map (fun p => (keyText p.1, p.2)) = cites.map (fun c => (.ok c.1, c.2)) →
    ps.mapM (fun p => keyText p.1) = .ok (cites.map (·.1))
  | [], [], _ => rfl
  | [], _ :: _, h => by simp at h
  | _ :: _, [], h => by simp at h
  | p :: ps, c :: cs, h => by
    simp only [List.map_cons, List.cons.injEq, Prod.mk.injEq] at h
    rw [List.mapM_cons, h.1.1, keyText_mapM h.2]
    rfl

theorem bodyOf [UnicodeDB] {refs : List (DestKey × Dest)} {links : List Link} {ps : List (DestKey × Pos)}
    {us : List (Str × Pos)} {ks : List Str}
    (h2 : (refs.mapM fun r => do
          let p ← destPosition r.2
          pure (r.1, p)) = (Except.ok ps : Py _))
    (h3 : (links.mapM fun l => do
      let p ← linkPosition l
      pure (l.uri, p)) = (Except.ok us : Py _))
    (h4 : (sortPos (twoColumns [] (ps.map (·.2))) ps).mapM (fun p => keyText p.1) = .ok ks) :
    texkeysBody refs links = .ok (ks.zip
      ((assignLinks (twoColumns [] (ps.map (·.2))) (sortPos (twoColumns [] (ps.map (·.2))) us)
        ((sortPos (twoColumns [] (ps.map (·.2))) ps).map (·.2))).map linkSet)) := by
  have ob : ∀ {α β : Type} (a : α) (f : α → Py β), (Except.ok a >>= f) = f a := fun _ _ => rfl
  unfold texkeysBody
  rw [h2, ob]
  dsimp only
  rw [h3, ob, h4, ob]
  rfl

theorem texkeys_eq [UnicodeDB] {i : PdfInfo} {refs : List (DestKey × Dest)} {ps : List (DestKey × Pos)}
    {us cites : List (Str × Pos)} (h1 : citeDests i.dests = .ok refs)
    (h2 : (refs.mapM fun r => do
          let p ← destPosition r.2
          pure (r.1, p)) = (Except.ok ps : Py _))
    (h3 : (i.links.mapM fun l => do
      let p ← linkPosition l
      pure (l.uri, p)) = (Except.ok us : Py _))
    (h4 : ps.map (fun p => (keyText p.1, p.2)) = cites.map (fun c => (.ok c.1, c.2))) :
    texkeys (.ok i) = .ok (((sortPos (twoColumns [] (ps.map (·.2))) cites).map (·.1)).zip
      ((assignLinks (twoColumns [] (ps.map (·.2))) (sortPos (twoColumns [] (ps.map (·.2))) us)
        ((sortPos (twoColumns [] (ps.map (·.2))) ps).map (·.2))).map linkSet)) := by
  have h5 := congrArg (sortPos (twoColumns [] (ps.map (·.2)))) h4
  rw [sortPos_map (f := keyText), sortPos_map (f := Except.ok)] at h5
  have hb := bodyOf h2 h3 (keyText_mapM h5)
  unfold texkeys
  dsimp only
  rw [h1]
  dsimp only
  rw [hb]


theorem mapM_all {α β : Type} {f : α → Py β} : ∀ {l : List α} {r : List β}, l.mapM f = .ok r → ∀ a ∈ l, ∃ b, f a = .ok b
  | [], _, _, _, h => absurd h List.not_mem_nil
  | x :: xs, r, h, a, ha => by
    rw [List.mapM_cons] at h
    obtain ⟨b, hb, h⟩ := bind_ok h
    obtain ⟨bs, hbs, _⟩ := bind_ok h
    rcases List.mem_cons.1 ha with rfl | ha
    · exact ⟨b, hb⟩
    · exact mapM_all hbs a ha

theorem mapM_fst {refs : List (DestKey × Dest)} {ps : List (DestKey × Pos)}
    (h : (refs.mapM fun r => do
          let p ← destPosition r.2
          pure (r.1, p)) = (Except.ok ps : Py _)) {d : DestKey × Dest} (hd : d ∈ refs) : ∃ p, (d.1, p) ∈ ps := by
  induction refs generalizing ps with
  | nil => cases hd
  | cons x xs ih =>
    rw [List.mapM_cons] at h
    obtain ⟨b, hb, h1⟩ := bind_ok h
    obtain ⟨bs, hbs, h2⟩ := bind_ok h1
    obtain ⟨p, _, hp⟩ := bind_ok hb
    cases h2
    cases hp
    rcases List.mem_cons.1 hd with rfl | hd
    · exact ⟨p, List.mem_cons_self⟩
    · obtain ⟨q, hq⟩ := ih hbs hd
      exact ⟨q, List.mem_cons_of_mem _ hq⟩

/-- The second `try` body succeeds only if everything is located. -/
theorem texkeysBody_ok [UnicodeDB] {refs : List (DestKey × Dest)} {links : List Link} {r : List (Str × List Str)}
    (h : texkeysBody refs links = .ok r) :
    (∀ l ∈ links, ∃ p, LinkPlaced l p) ∧ ∀ d ∈ refs, (∃ p, Placed d.2 p) ∧ ∃ k, keyText d.1 = .ok k := by
  unfold texkeysBody at h
  obtain ⟨ps, hps, h⟩ := bind_ok h
  dsimp only at h
  obtain ⟨us, hus, h⟩ := bind_ok h
  obtain ⟨ks, hks, _⟩ := bind_ok h
  refine ⟨fun l hl => ?_, fun d hd => ⟨?_, ?_⟩⟩
  · obtain ⟨b, hb⟩ := mapM_all hus l hl
    obtain ⟨p, hp, _⟩ := bind_ok hb
    exact ⟨p, (linkPosition_iff l p).1 hp⟩
  · obtain ⟨b, hb⟩ := mapM_all hps d hd
    obtain ⟨p, hp, _⟩ := bind_ok hb
    exact ⟨p, (destPosition_iff d.2 p).1 hp⟩
  · obtain ⟨p, hp⟩ := mapM_fst hps hd
    exact mapM_all hks _ ((sortPos_perm _ _).mem_iff.2 hp)

/-- Located destinations with text names. -/
theorem cites_of [UnicodeDB] : ∀ {dests refs : List (DestKey × Dest)}, citeDests dests = .ok refs →
    (∀ d ∈ refs, (∃ p, Placed d.2 p) ∧ ∃ k, keyText d.1 = .ok k) → ∃ cites, Cites dests cites
  | [], _, _, _ => ⟨[], .nil⟩
  | (k, d) :: r, refs, h, hall => by
    unfold citeDests at h
    obtain ⟨s, hs, h⟩ := bind_ok h
    obtain ⟨rest, hrest, h⟩ := bind_ok h
    cases h
    have hsub : ∀ x ∈ rest, (∃ p, Placed x.2 p) ∧ ∃ k, keyText x.1 = .ok k := by
      intro x hx
      apply hall
      split
      · exact List.mem_cons_of_mem _ hx
      · exact hx
    obtain ⟨cites, hc⟩ := cites_of hrest hsub
    cases hk : citeKey s with
    | none =>
      have hn := (citeKey_none s).1 hk
      match k, hs with
      | .text _, hs => cases hs; exact ⟨cites, .skip hn hc⟩
      | .bytes (some _), hs => cases hs; exact ⟨cites, .skipBytes hn hc⟩
    | some key =>
      rw [hk] at hall
      obtain ⟨⟨p, hp⟩, key', hk'⟩ := hall (k, d) (by simp)
      match k, hs, hk' with
      | .text _, hs, _ => cases hs; exact ⟨_, .take ((citeKey_iff s key).1 hk) hp hc⟩


/-! ### Links -/

theorem linkAction_last {two : Bool} {r u : Pos} (h : linkAction two r none u = .take) : r.y ≤ u.y := by
  simp only [linkAction] at h
  split at h
  · rename_i hc
    simp only [Bool.and_eq_true, decide_eq_true_eq] at hc
    exact hc.2
  · cases h

theorem linkAction_next {two : Bool} {r n u : Pos} (hp : n.page = r.page) (hc : n.col = r.col)
    (h : linkAction two r (some n) u = .take) : r.y ≤ u.y ∧ u.y ≤ n.y := by
  simp only [linkAction] at h
  split at h
  · rename_i hb
    simp only [Bool.and_eq_true, decide_eq_true_eq] at hb
    exact hb.2
  · split at h
    · rename_i hb
      simp only [Bool.or_eq_true, Bool.and_eq_true, decide_eq_true_eq, hp, hc] at hb
      omega
    · split at h
      · cases h
      · split at h <;> cases h

theorem matchLoop_taken {α : Type} {two : Bool} {ref : Pos} {next : Option Pos} :
    ∀ {urls : List (α × Pos)}, ∀ u ∈ (matchLoop two ref next urls).1, u ∈ urls ∧ linkAction two ref next u.2 = .take
  | [], u, h => by cases h
  | v :: vs, u, h => by
    rw [matchLoop] at h
    cases ha : linkAction two ref next v.2 with
    | stop => rw [ha] at h; cases h
    | skip =>
      rw [ha] at h
      obtain ⟨h1, h2⟩ := matchLoop_taken u h
      exact ⟨List.mem_cons_of_mem _ h1, h2⟩
    | take =>
      rw [ha] at h
      rcases List.mem_cons.1 h with rfl | h
      · exact ⟨List.mem_cons_self, ha⟩
      · obtain ⟨h1, h2⟩ := matchLoop_taken u h
        exact ⟨List.mem_cons_of_mem _ h1, h2⟩

theorem matchLoop_rest {α : Type} {two : Bool} {ref : Pos} {next : Option Pos} :
    ∀ {urls rest : List (α × Pos)}, (matchLoop two ref next urls).2 = some rest → rest ⊆ urls
  | [], _, h => by cases h
  | v :: vs, rest, h => by
    rw [matchLoop] at h
    cases ha : linkAction two ref next v.2 with
    | stop => rw [ha] at h; cases h; exact List.Subset.refl _
    | skip => rw [ha] at h; exact (matchLoop_rest h).trans (List.subset_cons_self _ _)
    | take => rw [ha] at h; exact (matchLoop_rest (rest := rest) h).trans (List.subset_cons_self _ _)

theorem matchLinks_rest {α : Type} {two : Bool} {ref : Pos} {next : Option Pos} {urls : List (α × Pos)} :
    (matchLinks two ref next urls).2 ⊆ urls := by
  unfold matchLinks
  dsimp only
  split
  · exact List.nil_subset _
  · cases h : (matchLoop two ref next urls).2 with
    | none => exact List.Subset.refl _
    | some r => exact matchLoop_rest h

theorem assignLinks_sub {α : Type} {two : Bool} : ∀ {refs : List Pos} {urls : List (α × Pos)},
    ∀ t ∈ assignLinks two urls refs, t ⊆ urls
  | [], _, t, h => by cases h
  | r :: refs, urls, t, h => by
    rw [assignLinks] at h
    rcases List.mem_cons.1 h with rfl | h
    · exact fun u hu => (matchLoop_taken u hu).1
    · exact (assignLinks_sub t h).trans matchLinks_rest

/-- With all references on one page and in one column, later references take links below. -/
theorem assignLinks_below {α : Type} {two : Bool} {y : Int} : ∀ {refs : List Pos} {urls : List (α × Pos)},
    (∀ a ∈ refs, ∀ b ∈ refs, a.page = b.page ∧ a.col = b.col) → (∀ a ∈ refs, y ≤ a.y) →
    ∀ t ∈ assignLinks two urls refs, ∀ u ∈ t, y ≤ u.2.y
  | [], _, _, _, t, h => by cases h
  | r :: refs, urls, hs, hy, t, h => by
    rw [assignLinks] at h
    intro u hu
    rcases List.mem_cons.1 h with rfl | h
    · have ht := (matchLoop_taken u hu).2
      have hr := hy r List.mem_cons_self
      cases refs with
      | nil =>
        have := linkAction_last ht
        omega
      | cons n ns =>
        have hn := hs n (by simp) r (by simp)
        have := linkAction_next hn.1 hn.2 ht
        omega
    · exact assignLinks_below (fun a ha b hb => hs a (List.mem_cons_of_mem _ ha) b (List.mem_cons_of_mem _ hb))
        (fun a ha => hy a (List.mem_cons_of_mem _ ha)) t h u hu

theorem assignLinks_disjoint {α : Type} {two : Bool} : ∀ {refs : List Pos} {urls : List (α × Pos)},
    (∀ a ∈ refs, ∀ b ∈ refs, a.page = b.page ∧ a.col = b.col) → refs.Pairwise (fun a b => a.y ≤ b.y) →
    (∀ u ∈ urls, ∀ a ∈ refs, u.2.y ≠ a.y) →
    (assignLinks two urls refs).Pairwise fun s t => ∀ u ∈ s, u ∉ t
  | [], _, _, _, _ => .nil
  | [r], urls, _, _, _ => by simp [assignLinks]
  | r :: n :: refs, urls, hs, hy, hne => by
    rw [assignLinks]
    refine List.Pairwise.cons ?_ ?_
    · intro t ht u hu hut
      obtain ⟨hmem, ha⟩ := matchLoop_taken u hu
      have hn := hs n (by simp) r (by simp)
      have h1 := linkAction_next hn.1 hn.2 ha
      have h2 := hne u hmem n (by simp)
      have h3 := assignLinks_below (y := n.y) (fun a ha b hb => hs a (List.mem_cons_of_mem _ ha) b (List.mem_cons_of_mem _ hb))
        (fun a ha => by
          rcases List.mem_cons.1 ha with rfl | ha
          · exact Int.le_refl _
          · exact List.rel_of_pairwise_cons (List.Pairwise.of_cons hy) ha) t ht u hut
      omega
    · exact assignLinks_disjoint (fun a ha b hb => hs a (List.mem_cons_of_mem _ ha) b (List.mem_cons_of_mem _ hb))
        (List.Pairwise.of_cons hy) fun u hu a ha => hne u (matchLinks_rest (two := two) (ref := r) (next := some n) hu) a (List.mem_cons_of_mem _ ha)

theorem linkSet_mem {x : Str} : ∀ {l : List (Str × Pos)}, x ∈ linkSet l → ∃ p, (x, p) ∈ l
  | [], h => by cases h
  | u :: us, h => by
    rw [linkSet] at h
    rcases List.mem_cons.1 h with rfl | h
    · exact ⟨u.2, List.mem_cons_self⟩
    · obtain ⟨p, hp⟩ := linkSet_mem (List.mem_filter.1 h).1
      exact ⟨p, List.mem_cons_of_mem _ hp⟩

theorem pair_unique : ∀ {l : List (Str × Pos)}, (l.map (·.1)).Nodup → ∀ {x p q}, (x, p) ∈ l → (x, q) ∈ l → p = q
  | [], _, _, _, _, h, _ => by cases h
  | u :: us, hn, x, p, q, h1, h2 => by
    rw [List.map_cons, List.nodup_cons] at hn
    rcases List.mem_cons.1 h1 with h1 | h1 <;> rcases List.mem_cons.1 h2 with h2 | h2
    · rw [← h1] at h2
      cases h2
      rfl
    · exact absurd (List.mem_map.2 ⟨_, h2, by rw [← h1]⟩) hn.1
    · exact absurd (List.mem_map.2 ⟨_, h1, by rw [← h2]⟩) hn.1
    · exact pair_unique hn.2 h1 h2

theorem links_placed : ∀ {links : List Link} {us : List (Str × Pos)},
    (links.mapM fun l => do
      let p ← linkPosition l
      pure (l.uri, p)) = (Except.ok us : Py _) →
    us.map (·.1) = links.map (·.uri) ∧ ∀ u ∈ us, ∃ l ∈ links, LinkPlaced l u.2
  | [], us, h => by cases h; simp
  | l :: ls, us, h => by
    rw [List.mapM_cons] at h
    obtain ⟨b, hb, h1⟩ := bind_ok h
    obtain ⟨bs, hbs, h2⟩ := bind_ok h1
    obtain ⟨p, hlp, hp⟩ := bind_ok hb
    cases h2
    cases hp
    obtain ⟨h3, h4⟩ := links_placed hbs
    refine ⟨by simp [h3], fun u hu => ?_⟩
    rcases List.mem_cons.1 hu with rfl | hu
    · exact ⟨l, List.mem_cons_self, (linkPosition_iff _ _).1 hlp⟩
    · obtain ⟨l', hl', hp'⟩ := h4 u hu
      exact ⟨l', List.mem_cons_of_mem _ hl', hp'⟩

theorem pairwise_zip_snd {α β : Type} {R : β → β → Prop} : ∀ {a : List α} {b : List β}, b.Pairwise R →
    (a.zip b).Pairwise fun x y => R x.2 y.2
  | [], _, _ => by simp
  | _ :: _, [], _ => by simp
  | a :: as, b :: bs, h => by
    rw [List.zip_cons_cons]
    refine List.Pairwise.cons (fun p hp => ?_) (pairwise_zip_snd (List.Pairwise.of_cons h))
    exact List.rel_of_pairwise_cons h (List.of_mem_zip hp).2

end Py
