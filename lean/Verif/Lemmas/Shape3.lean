import Verif.Lemmas.Shape2
import Verif.Lemmas.Blank

/-!
# Matches and scans of all texts of a shape
-/

open Spec

namespace Py

variable {sh : Shp} {texts : Parts}

/-- The outcome of a match at a place. -/
def sym (sh : Shp) (r : Re) (p : APos) : Verdict := symK sh r ⟨p, []⟩ .ok

theorem sym_rel [UnicodeDB] (hs : Shaped sh texts) (r : Re) {p : APos} {pre post : Str} (ha : At texts p pre post) :
    (sym sh r p).Rel texts (runK r ⟨pre, post, []⟩ fun t => some t) :=
  symK_sound hs ⟨ha, .nil⟩ fun _ s' h' _ => ⟨s', rfl, h'⟩

/-- No match. -/
theorem sym_fail [UnicodeDB] (hs : Shaped sh texts) {r : Re} {p : APos} {pre post : Str} (ha : At texts p pre post) (h : sym sh r p = .fail) (adv : Bool) :
    matchHere r adv pre post = none := by
  have := sym_rel hs r ha
  rw [h] at this
  have hn : (run r ⟨pre, post, []⟩) = [] := by
    have h1 : runK r ⟨pre, post, []⟩ (fun t => some t) = none := this
    rw [runK_eq] at h1
    cases hr : run r ⟨pre, post, []⟩ with
    | nil => rfl
    | cons t ts => rw [hr] at h1; cases h1
  unfold matchHere
  rw [runK_eq, hn]
  rfl

/-- A match between two places. -/
structure MatchAt (texts : Parts) (p : APos) (a : ASt) (m : Match) : Prop where
  start : ∃ pre post, At texts p pre post ∧ m.start = pre.length
  txt : ∃ pre post post', At texts p pre post ∧ At texts a.pos (m.txt.reverse ++ pre) post'
  caps : All2 (CapAt texts) a.caps m.caps

/-- A match. -/
theorem sym_ok [UnicodeDB] (hs : Shaped sh texts) {r : Re} {p : APos} {a : ASt} {pre post : Str} (ha : At texts p pre post) (h : sym sh r p = .ok a) :
    ∃ m, matchHere r false pre post = some m ∧ MatchAt texts p a m := by
  have := sym_rel hs r ha
  rw [h] at this
  obtain ⟨t, e, ht⟩ := this
  rw [runK_eq] at e
  cases hr : run r ⟨pre, post, []⟩ with
  | nil => rw [hr] at e; cases e
  | cons u us =>
    rw [hr] at e
    cases e
    refine ⟨mkMatch pre t, ?_, ?_⟩
    · unfold matchHere
      rw [runK_eq, hr]
      rfl
    · obtain ⟨w, hw⟩ := run_step (r := r) (s := ⟨pre, post, []⟩) (t := t) (by rw [hr]; simp)
      refine ⟨⟨pre, post, ha, rfl⟩, ⟨pre, post, t.post, ha, ?_⟩, ht.2⟩
      have e : (mkMatch pre t).txt.reverse ++ pre = t.pre := by
        simp only [mkMatch, List.reverse_reverse]
        rw [hw.2]
        simp
      rw [e]
      exact ht.1

/-- The text between two places in front of stretches. -/
def between (texts : Parts) (i j : Nat) : Str := ((texts.parts.take j).drop i).flatten

theorem take_between {i j : Nat} (h : i ≤ j) : (texts.parts.take j).flatten = (texts.parts.take i).flatten ++ between texts i j := by
  unfold between
  rw [← List.flatten_append]
  congr 1
  have := List.take_append_drop i (texts.parts.take j)
  rw [List.take_take, Nat.min_eq_left h] at this
  exact this.symm

theorem at_front {i : Nat} {pre post : Str} (h : At texts ⟨i, false⟩ pre post) : pre = (texts.parts.take i).flatten.reverse ∧ post = (texts.parts.drop i).flatten ++ texts.tail :=
  ⟨h.2.1, h.2.2⟩

theorem at_between {i j : Nat} (hij : i ≤ j) {pre post post' w : Str} (h : At texts ⟨i, false⟩ pre post) (h' : At texts ⟨j, false⟩ (w.reverse ++ pre) post') :
    w = between texts i j := by
  have h1 := (at_front h).1
  have h2 := (at_front h').1
  rw [take_between hij, List.reverse_append, ← h1] at h2
  exact List.reverse_inj.1 (List.append_cancel_right h2)

/-- The text of a match. -/
theorem MatchAt.text {i j : Nat} {caps : List ACap} {m : Match} (h : MatchAt texts ⟨i, false⟩ ⟨⟨j, false⟩, caps⟩ m) (hij : i ≤ j) :
    m.txt = between texts i j := by
  obtain ⟨pre, post, post', h1, h2⟩ := h.txt
  exact at_between hij h1 h2

theorem MatchAt.startAt {i : Nat} {a : ASt} {m : Match} (h : MatchAt texts ⟨i, false⟩ a m) : m.start = (texts.parts.take i).flatten.length := by
  obtain ⟨pre, post, h1, h2⟩ := h.start
  rw [h2, (at_front h1).1, List.length_reverse]

theorem all2_find {as : List ACap} {cs : List Cap} (h : All2 (CapAt texts) as cs) (g : Nat) :
    match as.find? (·.g == g) with
    | none => cs.find? (·.g == g) = none
    | some a => ∃ c, cs.find? (·.g == g) = some c ∧ CapAt texts a c := by
  induction h with
  | nil => rfl
  | cons hc _ ih =>
    rename_i a c as cs _
    simp only [List.find?_cons, hc.1]
    cases a.g == g with
    | true => exact ⟨c, rfl, hc⟩
    | false => exact ih

/-- The text of a group. -/
theorem MatchAt.group {p : APos} {a : ASt} {m : Match} (h : MatchAt texts p a m) (g : Nat) {b : ACap} {i j : Nat}
    (hb : a.caps.find? (·.g == g) = some b) (hi : b.p = ⟨i, false⟩) (hj : b.q = ⟨j, false⟩) (hij : i ≤ j) : m.group g = some (between texts i j) := by
  have := all2_find h.caps g
  rw [hb] at this
  obtain ⟨c, e, -, pre, post, post', h1, h2, -⟩ := this
  rw [Match.group, e]
  rw [hi] at h1
  rw [hj] at h2
  exact congrArg some (at_between hij h1 h2)

theorem MatchAt.gstart {p : APos} {a : ASt} {m : Match} (h : MatchAt texts p a m) (g : Nat) {b : ACap} {i : Nat}
    (hb : a.caps.find? (·.g == g) = some b) (hi : b.p = ⟨i, false⟩) : m.gstart g = some (texts.parts.take i).flatten.length := by
  have := all2_find h.caps g
  rw [hb] at this
  obtain ⟨c, e, -, pre, post, post', h1, h2, h3⟩ := this
  rw [Match.gstart, e]
  rw [hi] at h1
  rw [Option.map_some, h3, (at_front h1).1, List.length_reverse]

theorem MatchAt.noGroup {p : APos} {a : ASt} {m : Match} (h : MatchAt texts p a m) (g : Nat) (hb : a.caps.find? (·.g == g) = none) :
    m.group g = none := by
  have := all2_find h.caps g
  rw [hb] at this
  rw [Match.group, this]
  rfl

/-- The text itself. -/
theorem at_start (texts : Parts) : At texts ⟨0, false⟩ [] texts.text := ⟨Nat.zero_le _, rfl, rfl⟩

theorem reMatch_fail [UnicodeDB] (hs : Shaped sh texts) {r : Re} (h : sym sh r ⟨0, false⟩ = .fail) : reMatch r texts.text = none :=
  sym_fail hs (at_start texts) h false

theorem reMatch_shape [UnicodeDB] (hs : Shaped sh texts) {r : Re} {a : ASt} (h : sym sh r ⟨0, false⟩ = .ok a) :
    ∃ m, reMatch r texts.text = some m ∧ MatchAt texts ⟨0, false⟩ a m :=
  sym_ok hs (at_start texts) h

/-! ### Scanning -/

/-- A part of a scanned text: a stretch without matches, or a match. -/
inductive APiece where
  | seg (i : Nat)
  | hit (i : Nat) (a : ASt)
deriving DecidableEq, Repr

/-- The scan of a shape. -/
def symScan (sh : Shp) (r : Re) : Nat → Nat → Option (List APiece)
  | 0, _ => none
  | n + 1, i =>
    match sym sh r ⟨i, false⟩ with
    | .ok a => if !a.pos.mid && decide (i < a.pos.i) then (symScan sh r n a.pos.i).map (.hit i a :: ·) else none
    | .fail =>
      match sh.segs[i]? with
      | none => if sh.opn then none else some []
      | some g => if g.many && sym sh r ⟨i, true⟩ != .fail then none else (symScan sh r n (i + 1)).map (.seg i :: ·)
    | _ => none

/-- The pieces of a scanned text. -/
def PieceAt (texts : Parts) : APiece → List Piece → Prop
  | .seg i, ps => ∃ t, texts.parts[i]? = some t ∧ ps = t.map .ch
  | .hit i a, ps => ∃ m, ps = [.hit m] ∧ MatchAt texts ⟨i, false⟩ a m

theorem symScan_sound [UnicodeDB] (hs : Shaped sh texts) {r : Re} : ∀ {n i : Nat} {aps : List APiece} {pre post : Str}, At texts ⟨i, false⟩ pre post →
    symScan sh r n i = some aps → ∃ pss, All2 (PieceAt texts) aps pss ∧ scanGo r 0 pre post = pss.flatten := by
  intro n
  induction n with
  | zero => intro i aps pre post _ h; cases h
  | succ n ih =>
    intro i aps pre post ha h
    unfold symScan at h
    cases hv : sym sh r ⟨i, false⟩ with
    | ok a =>
      rw [hv] at h
      dsimp only at h
      split at h
      · rename_i hc
        simp only [Bool.and_eq_true, Bool.not_eq_true', decide_eq_true_eq] at hc
        obtain ⟨m, hm, hma⟩ := sym_ok hs ha hv
        obtain ⟨⟨j, mid⟩, caps⟩ := a
        dsimp only at hc
        obtain ⟨rfl, hlt⟩ := hc
        obtain ⟨pre', post', post'', h1, h2⟩ := hma.txt
        have e : pre' = pre := (at_front h1).1.trans (at_front ha).1.symm
        subst e
        have hpost : post = m.txt ++ post'' := by
          have e1 := ha.text
          have e2 := h2.text
          rw [← e2] at e1
          simp only [List.reverse_append, List.reverse_reverse, List.append_assoc] at e1
          exact List.append_cancel_left e1
        have hne : m.txt ≠ [] := by
          intro e
          have := At.lt hs ha h2 (by simp [APos.lt, hlt])
          rw [e] at this
          simp at this
        cases hrec : symScan sh r n j with
        | none => dsimp only at h; rw [hrec] at h; cases h
        | some aps' =>
          dsimp only at h
          rw [hrec] at h
          cases h
          obtain ⟨pss, h3, h4⟩ := ih h2 hrec
          refine ⟨[.hit m] :: pss, .cons ⟨m, rfl, hma⟩ h3, ?_⟩
          rw [hpost] at hm ⊢
          rw [List.flatten_cons, ← h4]
          cases hx : m.txt with
          | nil => exact absurd hx hne
          | cons c w =>
            rw [hx] at hm
            rw [List.cons_append] at hm ⊢
            rw [scanGo, hm]
            simp only [hx, List.isEmpty_cons, Bool.false_eq_true, if_false, List.length_cons, Nat.add_sub_cancel]
            rw [scanGo_skip]
            simp
      · cases h
    | maybe a => rw [hv] at h; cases h
    | top => rw [hv] at h; cases h
    | fail =>
      rw [hv] at h
      dsimp only at h
      have hseg := At.segment hs ha
      dsimp only at hseg
      cases hg : sh.segs[i]? with
      | none =>
        rw [hg] at h hseg
        dsimp only at h
        split at h
        · cases h
        rename_i ho
        cases h
        refine ⟨[], .nil, ?_⟩
        obtain ⟨hpost, -⟩ := hseg
        rw [hs.closed (by simpa using ho)] at hpost
        subst hpost
        rw [scanGo, sym_fail hs ha hv]
        rfl
      | some g =>
        rw [hg] at h hseg
        dsimp only at h
        obtain ⟨w, rest, rfl, hne, hc, hone, hnext, hin⟩ := hseg
        split at h
        · cases h
        · rename_i hmany
          cases hrec : symScan sh r n (i + 1) with
          | none => rw [hrec] at h; cases h
          | some aps' =>
            rw [hrec] at h
            cases h
            obtain ⟨pss, h3, h4⟩ := ih hnext hrec
            have hw : texts.parts[i]? = some w := by
              have hti := shaped_get hs i
              rw [hg] at hti
              obtain ⟨t, ht, -⟩ := hti
              have h5 := (at_front ha).2
              have h6 := (at_front hnext).2
              rw [drop_get ht, List.append_assoc, ← h6] at h5
              rw [ht, List.append_cancel_right h5]
            refine ⟨w.map .ch :: pss, .cons ⟨w, hw, rfl⟩ h3, ?_⟩
            rw [List.flatten_cons, ← h4]
            refine scanGo_chs w pre rest ?_
            intro p1 c p2 e
            by_cases hp1 : p1 = []
            · subst hp1
              have := sym_fail hs ha hv false
              rw [e] at this
              simpa using this
            · have hat := hin p1 (c :: p2) e hp1 (by simp)
              have hm : g.many = true := by
                cases hm : g.many with
                | true => rfl
                | false =>
                  have h7 := hone hm
                  have h8 := len_pos hp1
                  rw [e] at h7
                  simp only [List.length_append, List.length_cons] at h7
                  omega
              rw [hm] at hmany
              refine sym_fail hs hat ?_ false
              simpa using hmany

/-- The scan of a text of a shape. -/
theorem scan_shape [UnicodeDB] (hs : Shaped sh texts) {r : Re} {n : Nat} {aps : List APiece} (h : symScan sh r n 0 = some aps) :
    ∃ pss, All2 (PieceAt texts) aps pss ∧ scan r texts.text = pss.flatten :=
  symScan_sound hs (at_start texts) h

/-- No place of a shape has a match. -/
def noHit (sh : Shp) (r : Re) : Bool :=
  match symScan sh r (sh.segs.length + 1) 0 with
  | some aps => aps.all fun a => match a with | .seg _ => true | .hit _ _ => false
  | none => false

theorem noHit_sound [UnicodeDB] (hs : Shaped sh texts) {r : Re} (h : noHit sh r = true) : finditer r texts.text = [] := by
  unfold noHit at h
  split at h
  · rename_i aps e
    obtain ⟨pss, h1, h2⟩ := scan_shape hs e
    rw [finditer, h2, List.filterMap_eq_nil_iff]
    intro p hp
    obtain ⟨ps, hps, hpm⟩ := List.mem_flatten.1 hp
    clear h2 e hp
    induction h1 with
    | nil => cases hps
    | cons hx _ ih =>
      rename_i a ps' as pss' _
      simp only [List.all_cons, Bool.and_eq_true] at h
      rcases List.mem_cons.1 hps with rfl | hps
      · cases a with
        | hit i a => exact absurd h.1 (by simp)
        | seg i =>
          obtain ⟨t, -, rfl⟩ := hx
          obtain ⟨c, -, rfl⟩ := List.mem_map.1 hpm
          rfl
      · exact ih h.2 hps
  · cases h

theorem noHit_sub [UnicodeDB] (hs : Shaped sh texts) {r : Re} (h : noHit sh r = true) (f : Match → Str) : sub r f texts.text = texts.text :=
  sub_of_no_match (noHit_sound hs h)

theorem noHit_search [UnicodeDB] (hs : Shaped sh texts) {r : Re} (h : noHit sh r = true) : search r texts.text = none := by
  rw [search, noHit_sound hs h]
  rfl

/-- The first match in a shape. -/
def firstHit : List APiece → Option (Nat × ASt)
  | [] => none
  | .seg _ :: ps => firstHit ps
  | .hit i a :: _ => some (i, a)

theorem search_shape [UnicodeDB] (hs : Shaped sh texts) {r : Re} {n i : Nat} {a : ASt} (h : (symScan sh r n 0).bind firstHit = some (i, a)) :
    ∃ m, search r texts.text = some m ∧ MatchAt texts ⟨i, false⟩ a m := by
  cases hx : symScan sh r n 0 with
  | none => rw [hx] at h; cases h
  | some aps =>
    rw [hx, Option.bind_some] at h
    obtain ⟨pss, h1, h2⟩ := scan_shape hs hx
    rw [search, finditer, h2]
    clear h2 hx
    induction h1 with
    | nil => cases h
    | cons hp _ ih =>
      rename_i ap ps aps pss _
      cases ap with
      | seg j =>
        obtain ⟨t, -, rfl⟩ := hp
        have e : List.filterMap Piece.match? (t.map Piece.ch) = [] := by
          rw [List.filterMap_eq_nil_iff]
          intro p hp
          obtain ⟨c, -, rfl⟩ := List.mem_map.1 hp
          rfl
        rw [List.flatten_cons, List.filterMap_append, e]
        exact ih h
      | hit j b =>
        cases h
        obtain ⟨m, rfl, hm⟩ := hp
        exact ⟨m, rfl, hm⟩

end Py
