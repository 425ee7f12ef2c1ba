import Verif.Lemmas.Shape

/-!
# The matcher on shapes
-/

open Spec

namespace Py

/-! ### Classes -/

/-- Is every character of a class in a set, or none? -/
def tri (k : CSet) (cls : List Char) : Option Bool :=
  if cls.all fun c => isAscii c && @CSet.mem asciiDB k c then some true
  else if cls.all fun c => isAscii c && !@CSet.mem asciiDB k c then some false else none

/-- Is every character of a class this one, or none? -/
def triCh (d : Char) (cls : List Char) : Option Bool :=
  if cls.all fun c => c == d then some true else if cls.all fun c => !(c == d) then some false else none

/-- An answer for the characters of a class. -/
def Says (P : Char → Bool) (t : List Char → Option Bool) : Prop := ∀ cls b, t cls = some b → ∀ c ∈ cls, P c = b

theorem tri_says [UnicodeDB] (k : CSet) : Says k.mem (tri k) := by
  intro cls b h c hc
  unfold tri at h
  split at h
  · rename_i h1
    cases h
    have := List.all_eq_true.1 h1 c hc
    simp only [Bool.and_eq_true] at this
    rw [mem_ascii this.1]
    exact this.2
  · split at h
    · rename_i h1
      cases h
      have := List.all_eq_true.1 h1 c hc
      simp only [Bool.and_eq_true, Bool.not_eq_true'] at this
      rw [mem_ascii this.1]
      exact this.2
    · cases h

theorem triCh_says (d : Char) : Says (· == d) (triCh d) := by
  intro cls b h c hc
  unfold triCh at h
  split at h
  · rename_i h1; cases h; exact List.all_eq_true.1 h1 c hc
  · split at h
    · rename_i h1; cases h; simpa using List.all_eq_true.1 h1 c hc
    · cases h

/-! ### Steps -/

/-- The place behind a stretch. -/
def ASt.next (a : ASt) : ASt := ⟨⟨a.pos.i + 1, false⟩, a.caps⟩

/-- A place within the run. -/
def ASt.inside (a : ASt) : ASt := ⟨⟨a.pos.i, true⟩, a.caps⟩

/-- One character. -/
def stepA (sh : Shp) (t : List Char → Option Bool) (a : ASt) (kA : ASt → Verdict) : Verdict :=
  match sh.segs[a.pos.i]? with
  | none => if sh.opn then .top else .fail
  | some g =>
    match t g.cls with
    | some false => .fail
    | some true => if g.many then (kA a.inside).join (kA a.next) else kA a.next
    | none => if g.many then ((kA a.inside).join (kA a.next)).weak else (kA a.next).weak

/-- Characters of a string, one by one. -/
def strA (sh : Shp) : Str → ASt → (ASt → Verdict) → Verdict
  | [], a, kA => kA a
  | c :: w, a, kA => stepA sh (triCh c) a fun b => strA sh w b kA

/-- Characters of a set, repeated. -/
def starSetA (sh : Shp) (greedy : Bool) (t : List Char → Option Bool) : Nat → ASt → (ASt → Verdict) → Verdict
  | 0, _, _ => .top
  | n + 1, a, kA =>
    match sh.segs[a.pos.i]? with
    | none => if sh.opn then .top else kA a
    | some g =>
      match t g.cls with
      | some false => kA a
      | some true =>
        let vn := starSetA sh greedy t n a.next kA
        if greedy then (if g.many then vn.or (kA a.inside).weak else vn).or (kA a)
        else (kA a).or (if g.many then (kA a.inside).weak.or vn else vn)
      | none =>
        let vn := (starSetA sh greedy t n a.next kA).weak
        if greedy then (if g.many then vn.or (kA a.inside).weak else vn).or (kA a)
        else (kA a).or (if g.many then (kA a.inside).weak.or vn else vn)

/-- A repetition goes on only when something was matched. -/
def goneA (p q : APos) (v : Verdict) : Verdict :=
  if p.lt q then v else if p = q && p.mid then v.weak else .fail

/-- A repetition. -/
def starA (greedy : Bool) (f : ASt → (ASt → Verdict) → Verdict) : Nat → ASt → (ASt → Verdict) → Verdict
  | 0, _, _ => .top
  | n + 1, a, kA =>
    let more := f a fun b => goneA a.pos b.pos (starA greedy f n b kA)
    if greedy then more.or (kA a) else (kA a).or more

/-- The set of a pattern that is one. -/
def asSet : Re → Option CSet
  | .set k => some k
  | _ => none

/-- A pattern without groups. -/
def noGroups : Re → Bool
  | .seq a b | .alt a b => noGroups a && noGroups b
  | .star _ a => noGroups a
  | .group _ _ => false
  | .look _ a => noGroups a
  | _ => true

/-- Does what lies before a place match? -/
def behindA (sh : Shp) : List CSet → APos → Option Bool
  | [], _ => some true
  | k :: ks, p =>
    let j := if p.mid then p.i else p.i - 1
    if !p.mid && p.i == 0 then some false else
    match sh.segs[j]? with
    | none => none
    | some g =>
      let more := if g.many then (if behindA sh ks ⟨j, false⟩ = behindA sh ks ⟨j, true⟩ then behindA sh ks ⟨j, false⟩ else none)
        else behindA sh ks ⟨j, false⟩
      match tri k g.cls with
      | some false => some false
      | some true => more
      | none => if more = some false then some false else none

/-- The word characters. -/
abbrev wordSet : CSet := ⟨false, false, [.word]⟩

/-- Is there a word character before this place? -/
def wordBefore (sh : Shp) (p : APos) : Option Bool := behindA sh [wordSet] p

/-- Is there a word character at this place? -/
def wordAfter (sh : Shp) (p : APos) : Option Bool :=
  match sh.segs[p.i]? with
  | none => if sh.opn then none else some false
  | some g => tri wordSet g.cls

/-- The matcher on a shape. -/
def symK (sh : Shp) : Re → ASt → (ASt → Verdict) → Verdict
  | .eps, a, kA => kA a
  | .fail, _, _ => .fail
  | .set k, a, kA => stepA sh (tri k) a kA
  | .str w, a, kA => strA sh w a kA
  | .seq x y, a, kA => symK sh x a fun b => symK sh y b kA
  | .alt x y, a, kA => (symK sh x a kA).or (symK sh y a kA)
  | .star greedy x, a, kA =>
    match asSet x with
    | some k => starSetA sh greedy (tri k) (sh.segs.length + 1) a kA
    | none => starA greedy (symK sh x) 12 a kA
  | .group g x, a, kA => symK sh x a fun b => kA ⟨b.pos, ⟨g, a.pos, b.pos⟩ :: b.caps⟩
  | .look neg x, a, kA =>
    if noGroups x then
      match symK sh x a fun _ => .ok a with
      | .fail => if neg then kA a else .fail
      | .ok _ => if neg then .fail else kA a
      | _ => (kA a).weak
    else .top
  | .behind neg cs, a, kA =>
    match behindA sh cs.reverse a.pos with
    | some b => if b == neg then .fail else kA a
    | none => (kA a).weak
  | .bos, a, kA => if a.pos.i == 0 && !a.pos.mid then kA a else .fail
  | .eos, a, kA =>
    match sh.segs[a.pos.i]? with
    | none => if sh.opn then (kA a).weak else kA a
    | some g => if g.cls.contains '\n' then (kA a).weak else .fail
  | .wordb, a, kA =>
    match wordBefore sh a.pos, wordAfter sh a.pos with
    | some x, some y => if x == y then .fail else kA a
    | _, _ => (kA a).weak

/-! ### Soundness -/

variable {sh : Shp} {texts : Parts}

theorem StAt.nextOne (hs : Shaped sh texts) {a : ASt} {s : St} {g : Seg} (ha : StAt texts a s) (hg : sh.segs[a.pos.i]? = some g) :
    ∃ c t, s.post = c :: t ∧ c ∈ g.cls ∧ (StAt texts a.next ⟨c :: s.pre, t, s.caps⟩ ∨ (g.many = true ∧ StAt texts a.inside ⟨c :: s.pre, t, s.caps⟩)) := by
  have h := At.segment hs ha.1
  rw [hg] at h
  obtain ⟨w, rest, e, hne, hc, hone, hnext, hin⟩ := h
  cases w with
  | nil => exact absurd rfl hne
  | cons c w =>
    refine ⟨c, w ++ rest, e, hc c (by simp), ?_⟩
    cases w with
    | nil => exact Or.inl ⟨hnext, ha.2⟩
    | cons d w =>
      refine Or.inr ⟨?_, hin [c] (d :: w) rfl (by simp) (by simp), ha.2⟩
      cases hm : g.many with
      | true => rfl
      | false => have := hone hm; simp at this

theorem stepA_sound (hs : Shaped sh texts) {P : Char → Bool} {t : List Char → Option Bool} (ht : Says P t) {a : ASt} {s : St}
    {kA : ASt → Verdict} {k : St → Option St} (ha : StAt texts a s)
    (hk : ∀ a' s', StAt texts a' s' → s.pre.length ≤ s'.pre.length → (kA a').Rel texts (k s')) :
    (stepA sh t a kA).Rel texts (match s.post with | [] => none | c :: r => if P c then k ⟨c :: s.pre, r, s.caps⟩ else none) := by
  unfold stepA
  cases hg : sh.segs[a.pos.i]? with
  | none =>
    have h := At.segment hs ha.1
    rw [hg] at h
    rw [h.1]
    dsimp only
    split
    · trivial
    · rename_i ho
      rw [hs.closed (by simpa using ho)]
      rfl
  | some g =>
    obtain ⟨c, r, e, hc, h⟩ := ha.nextOne hs hg
    rw [e]
    dsimp only
    have hadv : (if g.many then (kA a.inside).join (kA a.next) else kA a.next).Rel texts (k ⟨c :: s.pre, r, s.caps⟩) := by
      rcases h with h | ⟨hm, h⟩
      · have := hk _ _ h (by simp)
        split
        · exact Verdict.rel_join_right this
        · exact this
      · rw [if_pos hm]
        exact Verdict.rel_join_left (hk _ _ h (by simp))
    cases hb : t g.cls with
    | none =>
      dsimp only
      have : (if g.many then ((kA a.inside).join (kA a.next)).weak else (kA a.next).weak)
        = (if g.many then (kA a.inside).join (kA a.next) else kA a.next).weak := by split <;> rfl
      rw [this]
      by_cases hP : P c = true
      · rw [if_pos hP]; exact Verdict.rel_weak hadv
      · rw [if_neg hP]; exact Verdict.rel_weak_none _
    | some b =>
      rw [ht _ _ hb c hc]
      cases b with
      | true => exact hadv
      | false => rfl

theorem runK_str_cons [UnicodeDB] {β : Type} (c : Char) (w : Str) (s : St) (k : St → Option β) :
    runK (.str (c :: w)) s k = match s.post with
      | [] => none
      | d :: r => if d == c then runK (.str w) ⟨d :: s.pre, r, s.caps⟩ k else none := by
  simp only [runK]
  cases hp : s.post with
  | nil => rfl
  | cons d r =>
    simp only [List.isPrefixOf, Bool.and_eq_true, beq_iff_eq]
    by_cases hd : c = d
    · subst hd
      simp
    · have : ¬ d = c := fun h => hd h.symm
      simp [hd, this]

theorem strA_sound [UnicodeDB] (hs : Shaped sh texts) : ∀ {w : Str} {a : ASt} {s : St} {kA : ASt → Verdict} {k : St → Option St}, StAt texts a s →
    (∀ a' s', StAt texts a' s' → s.pre.length ≤ s'.pre.length → (kA a').Rel texts (k s')) → (strA sh w a kA).Rel texts (runK (.str w) s k) := by
  intro w
  induction w with
  | nil =>
    intro a s kA k ha hk
    have e : runK (.str []) s k = k s := by simp [runK, List.isPrefixOf]
    rw [e]
    exact hk _ _ ha (Nat.le_refl _)
  | cons c w ih =>
    intro a s kA k ha hk
    rw [runK_str_cons]
    exact stepA_sound hs (triCh_says c) ha fun a' s' h' hl => ih h' fun a'' s'' h'' hl' => hk _ _ h'' (Nat.le_trans hl hl')

/-! #### Repetition of a set -/

/-- The matcher on a repeated set. -/
def starK [UnicodeDB] (greedy : Bool) (c : CSet) (s : St) (k : St → Option St) : Option St := iterK greedy (runK (.set c)) s.post.length s k

theorem starK_nil [UnicodeDB] {greedy : Bool} {c : CSet} {s : St} {k : St → Option St} (h : s.post = []) : starK greedy c s k = k s := by
  unfold starK
  rw [h]
  rfl

theorem starK_not [UnicodeDB] {greedy : Bool} {c : CSet} {s : St} {k : St → Option St} {d : Char} {r : Str} (h : s.post = d :: r) (hd : c.mem d = false) :
    starK greedy c s k = k s := by
  unfold starK
  rw [h]
  simp only [List.length_cons, iterK, runK, h, hd]
  cases greedy <;> simp
  cases k s <;> rfl

theorem starK_mem [UnicodeDB] {greedy : Bool} {c : CSet} {s : St} {k : St → Option St} {d : Char} {r : Str} (h : s.post = d :: r) (hd : c.mem d = true) :
    starK greedy c s k = if greedy then (starK greedy c ⟨d :: s.pre, r, s.caps⟩ k).or (k s) else (k s).or (starK greedy c ⟨d :: s.pre, r, s.caps⟩ k) := by
  unfold starK
  rw [h]
  simp only [List.length_cons, iterK, runK, h, hd]
  cases greedy
  · simp
    cases k s <;> rfl
  · simp
    split
    · rename_i e; rw [e]; rfl
    · rename_i e; rw [e]; rfl

/-- The rest of a run, greedily: the verdict for what follows the run, or one within it. -/
theorem run_greedy [UnicodeDB] {c : CSet} {k : St → Option St} {caps : List Cap} {rest : Str} {vn vi : Verdict} : ∀ {w : Str} {pre : Str}, w ≠ [] →
    (vn.weak = vn ∨ ∀ d ∈ w, c.mem d = true) →
    vn.Rel texts (starK true c ⟨w.reverse ++ pre, rest, caps⟩ k) →
    (∀ x y, w = x ++ y → y ≠ [] → vi.Rel texts (k ⟨x.reverse ++ pre, y ++ rest, caps⟩)) →
    (vn.or vi.weak).Rel texts (starK true c ⟨pre, w ++ rest, caps⟩ k) := by
  intro w
  induction w with
  | nil => intro pre h; exact absurd rfl h
  | cons d w ih =>
    intro pre _ hall hn hi
    have hks := hi [] (d :: w) rfl (by simp)
    cases hd : c.mem d with
    | false =>
      have hw : vn.weak = vn := by
        rcases hall with h | h
        · exact h
        · rw [h d (by simp)] at hd; cases hd
      rw [starK_not (d := d) (r := w ++ rest) rfl hd, ← hw]
      exact Verdict.rel_or_weak_right (Verdict.rel_weak hks)
    | true =>
      rw [starK_mem (d := d) (r := w ++ rest) rfl hd, if_pos rfl]
      refine Verdict.rel_absorb ?_ (Verdict.rel_weak hks)
      cases w with
      | nil => exact Verdict.rel_or_left hn
      | cons e w =>
        refine ih (by simp) ?_ (by simpa using hn) ?_
        · rcases hall with h | h
          · exact Or.inl h
          · exact Or.inr fun x hx => h x (by simp [List.mem_cons.1 hx])
        · intro x y exy hy
          have := hi (d :: x) y (by rw [exy]; rfl) hy
          simpa using this

/-- The rest of a run, lazily. -/
theorem run_lazy [UnicodeDB] {c : CSet} {k : St → Option St} {caps : List Cap} {rest : Str} {vn vi : Verdict} : ∀ {w : Str} {pre : Str}, w ≠ [] →
    (vn.weak = vn ∨ ∀ d ∈ w, c.mem d = true) →
    vn.Rel texts (starK false c ⟨w.reverse ++ pre, rest, caps⟩ k) →
    (∀ x y, w = x ++ y → y ≠ [] → vi.Rel texts (k ⟨x.reverse ++ pre, y ++ rest, caps⟩)) →
    (vi.weak.or vn).Rel texts (starK false c ⟨pre, w ++ rest, caps⟩ k) := by
  intro w
  induction w with
  | nil => intro pre h; exact absurd rfl h
  | cons d w ih =>
    intro pre _ hall hn hi
    have hks := hi [] (d :: w) rfl (by simp)
    cases hd : c.mem d with
    | false =>
      have hw : vn.weak = vn := by
        rcases hall with h | h
        · exact h
        · rw [h d (by simp)] at hd; cases hd
      rw [starK_not (d := d) (r := w ++ rest) rfl hd, ← hw]
      exact Verdict.rel_or_left (Verdict.rel_weak hks)
    | true =>
      rw [starK_mem (d := d) (r := w ++ rest) rfl hd, if_neg (by simp)]
      refine Verdict.rel_absorb_lazy (Verdict.rel_weak hks) ?_
      cases w with
      | nil => exact Verdict.rel_or_weak_right hn
      | cons e w =>
        refine ih (by simp) ?_ (by simpa using hn) ?_
        · rcases hall with h | h
          · exact Or.inl h
          · exact Or.inr fun x hx => h x (by simp [List.mem_cons.1 hx])
        · intro x y exy hy
          have := hi (d :: x) y (by rw [exy]; rfl) hy
          simpa using this

theorem weak_weak (v : Verdict) : v.weak.weak = v.weak := by cases v <;> rfl

theorem starSetA_sound [UnicodeDB] (hs : Shaped sh texts) {greedy : Bool} {c : CSet} : ∀ {n : Nat} {a : ASt} {s : St} {kA : ASt → Verdict} {k : St → Option St},
    StAt texts a s → (∀ a' s', StAt texts a' s' → s.pre.length ≤ s'.pre.length → (kA a').Rel texts (k s')) →
    (starSetA sh greedy (tri c) n a kA).Rel texts (starK greedy c s k) := by
  intro n
  induction n with
  | zero => intros; trivial
  | succ n ih =>
    intro a s kA k ha hk
    unfold starSetA
    have hself := hk a s ha (Nat.le_refl _)
    have hseg := At.segment hs ha.1
    cases hg : sh.segs[a.pos.i]? with
    | none =>
      rw [hg] at hseg
      dsimp only
      split
      · trivial
      · rename_i ho
        rw [starK_nil (hseg.1.trans (hs.closed (by simpa using ho)))]
        exact hself
    | some g =>
      rw [hg] at hseg
      obtain ⟨w, rest, e, hne, hc, hone, hnext, hin⟩ := hseg
      obtain ⟨pre, post, caps⟩ := s
      dsimp only at e hnext hin hself hk
      subst e
      -- the general step
      have key : ∀ vn : Verdict, (vn.weak = vn ∨ ∀ d ∈ w, c.mem d = true) → vn.Rel texts (starK greedy c ⟨w.reverse ++ pre, rest, caps⟩ k) →
          (if greedy then (if g.many then vn.or (kA a.inside).weak else vn).or (kA a)
            else (kA a).or (if g.many then (kA a.inside).weak.or vn else vn)).Rel texts (starK greedy c ⟨pre, w ++ rest, caps⟩ k) := by
        intro vn hall hn
        cases w with
        | nil => exact absurd rfl hne
        | cons d w =>
        cases hd : c.mem d with
        | false =>
          have hw : vn.weak = vn := by
            rcases hall with h | h
            · exact h
            · rw [h d (by simp)] at hd; cases hd
          rw [starK_not (d := d) (r := w ++ rest) rfl hd]
          have hw2 : (if g.many then vn.or (kA a.inside).weak else vn).Rel texts none := by
            split
            · rw [← hw]; exact Verdict.rel_or_left (Verdict.rel_weak_none _)
            · rw [← hw]; exact Verdict.rel_weak_none _
          have hw3 : (if g.many then (kA a.inside).weak.or vn else vn).Rel texts none := by
            split
            · rw [← hw]; exact Verdict.rel_or_left (Verdict.rel_weak_none _)
            · rw [← hw]; exact Verdict.rel_weak_none _
          split
          · exact Verdict.rel_or hw2 hself
          · have := Verdict.rel_or hself hw3
            rwa [Option.or_none] at this
        | true =>
          rw [starK_mem (d := d) (r := w ++ rest) rfl hd]
          cases w with
          | nil =>
            have hn' : vn.Rel texts (starK greedy c ⟨d :: pre, [] ++ rest, caps⟩ k) := by simpa using hn
            split
            · refine Verdict.rel_or ?_ hself
              split
              · exact Verdict.rel_or_left hn'
              · exact hn'
            · refine Verdict.rel_or hself ?_
              split
              · exact Verdict.rel_or_weak_right hn'
              · exact hn'
          | cons e w =>
            have hm : g.many = true := by
              cases hm : g.many with
              | true => rfl
              | false => have := hone hm; simp at this
            have hall' : vn.weak = vn ∨ ∀ x ∈ e :: w, c.mem x = true := by
              rcases hall with h | h
              · exact Or.inl h
              · exact Or.inr fun x hx => h x (by simp [List.mem_cons.1 hx])
            have hi : ∀ x y, e :: w = x ++ y → y ≠ [] → (kA a.inside).Rel texts (k ⟨x.reverse ++ (d :: pre), y ++ rest, caps⟩) := by
              intro x y exy hy
              have h1 := hin (d :: x) y (by rw [exy]; rfl) (by simp) hy
              have h2 : At texts ⟨a.pos.i, true⟩ (x.reverse ++ (d :: pre)) (y ++ rest) := by simpa using h1
              refine hk _ ⟨x.reverse ++ (d :: pre), y ++ rest, caps⟩ ⟨h2, ha.2⟩ ?_
              simp only [List.length_append, List.length_cons]
              omega
            have hn' : vn.Rel texts (starK greedy c ⟨(e :: w).reverse ++ (d :: pre), rest, caps⟩ k) := by simpa using hn
            rw [if_pos hm, if_pos hm]
            cases greedy with
            | true => exact Verdict.rel_or (run_greedy (by simp) hall' hn' hi) hself
            | false => exact Verdict.rel_or hself (run_lazy (by simp) hall' hn' hi)
      have hn : (starSetA sh greedy (tri c) n a.next kA).Rel texts (starK greedy c ⟨w.reverse ++ pre, rest, caps⟩ k) := by
        refine ih (a := a.next) ⟨hnext, ha.2⟩ fun a' s' h' hl => hk _ _ h' ?_
        refine Nat.le_trans ?_ hl
        simp
      dsimp only
      cases hb : tri c g.cls with
      | none => exact key _ (Or.inl (weak_weak _)) (Verdict.rel_weak hn)
      | some b =>
        cases b with
        | true => exact key _ (Or.inr fun d hd => tri_says c _ _ hb d (hc d hd)) hn
        | false =>
          cases w with
          | nil => exact absurd rfl hne
          | cons d w =>
            rw [starK_not (d := d) (r := w ++ rest) rfl (tri_says c _ _ hb d (hc d (by simp)))]
            exact hself

/-! #### Other repetitions -/

theorem goneA_sound (hs : Shaped sh texts) {a b : ASt} {s t : St} {v : Verdict} {o : Option St} (ha : StAt texts a s) (hb : StAt texts b t)
    (h : v.Rel texts o) : (goneA a.pos b.pos v).Rel texts (if t.post.length < s.post.length then o else none) := by
  have e : s.pre.length + s.post.length = t.pre.length + t.post.length := by
    have h1 := congrArg List.length ha.1.text
    have h2 := congrArg List.length hb.1.text
    simp only [List.length_append, List.length_reverse] at h1 h2
    omega
  unfold goneA
  split
  · rename_i hl
    have := At.lt hs ha.1 hb.1 hl
    rw [if_pos (by omega)]
    exact h
  · rename_i hl
    split
    · split
      · exact Verdict.rel_weak h
      · exact Verdict.rel_weak_none _
    · rename_i hne
      have : t.pre.length ≤ s.pre.length := by
        by_cases hp : a.pos = b.pos
        · have hm : a.pos.mid = false := by
            cases hm : a.pos.mid with
            | false => rfl
            | true => simp [hp, ← hm] at hne
          have h1 := ha.1.pre_len.1 hm
          have h2 := hb.1.pre_len.1 (by rw [← hp]; exact hm)
          rw [hp] at h1
          omega
        · refine Nat.le_of_lt (At.lt hs hb.1 ha.1 ?_)
          revert hl hp
          generalize a.pos = p
          generalize b.pos = q
          obtain ⟨i, x⟩ := p
          obtain ⟨j, y⟩ := q
          simp only [APos.lt, APos.mk.injEq, not_and, Bool.or_eq_true, decide_eq_true_eq, Bool.and_eq_true, beq_iff_eq, Bool.not_eq_true', not_or]
          intro h1 h2
          rcases Nat.lt_trichotomy i j with h | h | h
          · exact absurd h h1.1
          · subst h
            right
            have h3 := h2 rfl
            cases x <;> cases y <;> simp_all
          · exact Or.inl h
      rw [if_neg (by omega)]
      rfl

theorem iterK_unfold [UnicodeDB] {greedy : Bool} {r : Re} {n : Nat} {s : St} (k : St → Option St) (h : s.post.length ≤ n) :
    ∃ m, (∀ t : St, t.post.length < s.post.length → t.post.length ≤ m) ∧
      iterK greedy (runK r) n s k =
        let more := runK r s fun t => if t.post.length < s.post.length then iterK greedy (runK r) m t k else none
        if greedy then more.or (k s) else (k s).or more := by
  cases n with
  | zero =>
    refine ⟨0, fun t ht => by omega, ?_⟩
    have h0 : s.post.length = 0 := by omega
    have : (runK r s fun t => if t.post.length < s.post.length then iterK greedy (runK r) 0 t k else none) = none := by
      rw [runK_eq, List.findSome?_eq_none_iff]
      intro t _
      rw [if_neg (by omega)]
    dsimp only
    rw [this, Option.none_or, Option.or_none, ite_self]
    rfl
  | succ n =>
    refine ⟨n, fun t ht => by omega, ?_⟩
    dsimp only [iterK]
    cases greedy with
    | true =>
      rw [if_pos rfl, if_pos rfl]
      split
      · rename_i x e; rw [e]; rfl
      · rename_i e; rw [e]; rfl
    | false =>
      rw [if_neg (by simp), if_neg (by simp)]
      split
      · rename_i x e; rw [e]; rfl
      · rename_i e; rw [e]; rfl

theorem starA_sound [UnicodeDB] (hs : Shaped sh texts) {greedy : Bool} {r : Re} {f : ASt → (ASt → Verdict) → Verdict}
    (hf : ∀ {a : ASt} {s : St} {kA : ASt → Verdict} {k : St → Option St}, StAt texts a s →
      (∀ a' s', StAt texts a' s' → s.pre.length ≤ s'.pre.length → (kA a').Rel texts (k s')) → (f a kA).Rel texts (runK r s k)) :
    ∀ {n : Nat} {a : ASt} {s : St} {kA : ASt → Verdict} {k : St → Option St} {m : Nat}, StAt texts a s → s.post.length ≤ m →
    (∀ a' s', StAt texts a' s' → s.pre.length ≤ s'.pre.length → (kA a').Rel texts (k s')) →
    (starA greedy f n a kA).Rel texts (iterK greedy (runK r) m s k) := by
  intro n
  induction n with
  | zero => intros; trivial
  | succ n ih =>
    intro a s kA k m ha hm hk
    obtain ⟨j, hj, e⟩ := iterK_unfold (greedy := greedy) (r := r) k hm
    rw [e]
    unfold starA
    have hself := hk a s ha (Nat.le_refl _)
    have hmore : (f a fun b => goneA a.pos b.pos (starA greedy f n b kA)).Rel texts
        (runK r s fun t => if t.post.length < s.post.length then iterK greedy (runK r) j t k else none) := by
      refine hf ha fun a' s' h' hl => ?_
      by_cases hlt : s'.post.length < s.post.length
      · have := goneA_sound hs ha h' (v := starA greedy f n a' kA) (o := iterK greedy (runK r) j s' k)
          (ih h' (hj _ hlt) fun a'' s'' h'' hl' => hk _ _ h'' (Nat.le_trans hl hl'))
        exact this
      · rw [if_neg hlt]
        have h1 : s.pre.length + s.post.length = s'.pre.length + s'.post.length := by
          have h1 := congrArg List.length ha.1.text
          have h2 := congrArg List.length h'.1.text
          simp only [List.length_append, List.length_reverse] at h1 h2
          omega
        unfold goneA
        split
        · rename_i h2
          have := At.lt hs ha.1 h'.1 h2
          omega
        · split
          · exact Verdict.rel_weak_none _
          · rfl
    dsimp only
    split
    · exact Verdict.rel_or hmore hself
    · exact Verdict.rel_or hself hmore

/-! #### Context -/

theorem At.back (hs : Shaped sh texts) {p : APos} {pre post : Str} (ha : At texts p pre post) : 
    if !p.mid && p.i == 0 then pre = [] else
      ∃ g c pre', sh.segs[if p.mid then p.i else p.i - 1]? = some g ∧ pre = c :: pre' ∧ c ∈ g.cls ∧
        (At texts ⟨if p.mid then p.i else p.i - 1, false⟩ pre' (c :: post) ∨
          (g.many = true ∧ At texts ⟨if p.mid then p.i else p.i - 1, true⟩ pre' (c :: post))) := by
  -- the last character of a non-empty part of a stretch
  have part : ∀ (j : Nat) (u v : Str), texts.parts[j]? = some (u ++ v) → u ≠ [] → pre = ((texts.parts.take j).flatten ++ u).reverse →
      post = v ++ ((texts.parts.drop (j + 1)).flatten ++ texts.tail) → ∃ g c pre', sh.segs[j]? = some g ∧ pre = c :: pre' ∧ c ∈ g.cls ∧
        (At texts ⟨j, false⟩ pre' (c :: post) ∨ (g.many = true ∧ At texts ⟨j, true⟩ pre' (c :: post))) := by
    intro j u v ht hu hpre hpost
    have hg := shaped_get hs j
    cases hsj : sh.segs[j]? with
    | none => rw [hsj] at hg; rw [ht] at hg; cases hg
    | some g =>
      rw [hsj] at hg
      obtain ⟨t, e, hf⟩ := hg
      rw [ht] at e
      cases e
      obtain ⟨u', c, rfl⟩ : ∃ u' c, u = u' ++ [c] := ⟨u.dropLast, u.getLast hu, (List.dropLast_concat_getLast hu).symm⟩
      refine ⟨g, c, ((texts.parts.take j).flatten ++ u').reverse, rfl, by rw [hpre]; simp, hf.2.2 c (by simp), ?_⟩
      by_cases hu' : u' = []
      · subst hu'
        left
        unfold At
        have hj := (List.getElem?_eq_some_iff.1 ht).1
        refine ⟨by dsimp only; omega, by simp, ?_⟩
        dsimp only
        rw [drop_get ht, hpost]
        simp
      · right
        refine ⟨?_, ?_⟩
        · cases hm : g.many with
          | true => rfl
          | false =>
            have h1 := hf.2.1 hm
            have h2 := len_pos hu'
            simp only [List.length_append, List.length_cons, List.length_nil] at h1
            omega
        · unfold At
          exact ⟨u', c :: v, by rw [ht]; simp, hu', by simp, rfl, by rw [hpost]; rfl⟩
  unfold At at ha
  obtain ⟨i, mid⟩ := p
  cases mid with
  | true =>
    obtain ⟨u, v, h1, hu, hv, h2, h3⟩ := ha
    exact part i u v h1 hu h2 h3
  | false =>
    obtain ⟨h1, h2, h3⟩ := ha
    cases i with
    | zero => exact h2
    | succ i =>
      have ht : texts.parts[i]? = some texts.parts[i] := List.getElem?_eq_getElem h1
      have hne : texts.parts[i] ≠ [] := by
        have hg := shaped_get hs i
        cases hsj : sh.segs[i]? with
        | none => rw [hsj] at hg; rw [ht] at hg; cases hg
        | some g =>
          rw [hsj] at hg
          obtain ⟨t, e, hf⟩ := hg
          rw [ht] at e
          cases e
          exact hf.1
      have := part i texts.parts[i] [] (by rw [ht]; simp) hne (by rw [h2]; dsimp only; rw [take_get ht]) (by rw [h3]; rfl)
      exact this

theorem behindA_sound [UnicodeDB] (hs : Shaped sh texts) : ∀ {ks : List CSet} {p : APos} {pre post : Str} {b : Bool}, At texts p pre post →
    behindA sh ks p = some b → behindOk ks pre = b := by
  intro ks
  induction ks with
  | nil => intro p pre post b _ h; cases h; rfl
  | cons k ks ih =>
    intro p pre post b ha h
    have hb := ha.back hs
    unfold behindA at h
    dsimp only at h
    by_cases h0 : (!p.mid && p.i == 0) = true
    · rw [if_pos h0] at h hb
      cases h
      rw [hb]
      rfl
    · rw [if_neg h0] at h hb
      obtain ⟨g, c, pre', hg, rfl, hc, hat⟩ := hb
      rw [hg] at h
      dsimp only at h
      generalize (if p.mid then p.i else p.i - 1) = j at h hg hat
      generalize hmore : (if g.many then (if behindA sh ks ⟨j, false⟩ = behindA sh ks ⟨j, true⟩ then
        behindA sh ks ⟨j, false⟩ else none) else behindA sh ks ⟨j, false⟩) = more at h
      have hm : ∀ b, more = some b → behindOk ks pre' = b := by
        intro b e
        rw [e] at hmore
        split at hmore
        · split at hmore
          · rename_i e2
            rcases hat with h | ⟨-, h⟩
            · exact ih h hmore
            · exact ih h (e2 ▸ hmore)
          · cases hmore
        · rename_i hmany
          rcases hat with h | ⟨hm, -⟩
          · exact ih h hmore
          · exact absurd hm hmany
      simp only [behindOk]
      cases ht : tri k g.cls with
      | none =>
        rw [ht] at h
        dsimp only at h
        split at h
        · rename_i e
          cases h
          rw [hm _ e, Bool.and_false]
        · cases h
      | some x =>
        rw [ht] at h
        rw [tri_says k _ _ ht c hc]
        cases x with
        | true => rw [Bool.true_and]; exact hm _ h
        | false => cases h; rfl

theorem wordBefore_sound [UnicodeDB] (hs : Shaped sh texts) {p : APos} {pre post : Str} {b : Bool} (ha : At texts p pre post)
    (h : wordBefore sh p = some b) : headWord pre = b := by
  have := behindA_sound hs ha h
  cases pre with
  | nil => exact this
  | cons c pre => simpa [behindOk, CSet.mem, CItem.mem, headWord] using this

theorem wordAfter_sound [UnicodeDB] (hs : Shaped sh texts) {p : APos} {pre post : Str} {b : Bool} (ha : At texts p pre post)
    (h : wordAfter sh p = some b) : headWord post = b := by
  unfold wordAfter at h
  have hseg := At.segment hs ha
  cases hg : sh.segs[p.i]? with
  | none =>
    rw [hg] at h hseg
    dsimp only at h
    split at h
    · cases h
    · rename_i ho
      cases h
      rw [hseg.1, hs.closed (by simpa using ho)]
      rfl
  | some g =>
    rw [hg] at h hseg
    obtain ⟨w, rest, rfl, hne, hc, -⟩ := hseg
    cases w with
    | nil => exact absurd rfl hne
    | cons c w =>
      have := tri_says wordSet _ _ h c (hc c (by simp))
      simpa [CSet.mem, CItem.mem, headWord] using this

theorem noGroups_caps [UnicodeDB] : ∀ {r : Re}, noGroups r = true → ∀ {s t : St}, t ∈ run r s → t.caps = s.caps := by
  intro r
  induction r with
  | eps => intro _ s t h; simp only [run, List.mem_singleton] at h; rw [h]
  | fail => intro _ s t h; simp [run] at h
  | set k =>
    intro _ s t h
    simp only [run] at h
    split at h
    · cases h
    · split at h
      · simp only [List.mem_singleton] at h; rw [h]
      · cases h
  | str w =>
    intro _ s t h
    simp only [run] at h
    split at h
    · simp only [List.mem_singleton] at h; rw [h]
    · cases h
  | seq x y ihx ihy =>
    intro hn s t h
    simp only [noGroups, Bool.and_eq_true] at hn
    simp only [run, List.mem_flatMap] at h
    obtain ⟨u, hu, ht⟩ := h
    rw [ihy hn.2 ht, ihx hn.1 hu]
  | alt x y ihx ihy =>
    intro hn s t h
    simp only [noGroups, Bool.and_eq_true] at hn
    simp only [run, List.mem_append] at h
    rcases h with h | h
    · exact ihx hn.1 h
    · exact ihy hn.2 h
  | star greedy x ih =>
    intro hn s t h
    simp only [noGroups] at hn
    simp only [run] at h
    generalize s.post.length = n at h
    induction n generalizing s with
    | zero => simp only [iter, List.mem_singleton] at h; rw [h]
    | succ n ihn =>
      have : t = s ∨ t ∈ ((run x s).filter fun u => u.post.length < s.post.length).flatMap (iter greedy (run x) n) := by
        simp only [iter] at h
        split at h
        · rcases List.mem_append.1 h with h | h
          · exact Or.inr h
          · exact Or.inl (by simpa using h)
        · rcases List.mem_cons.1 h with h | h
          · exact Or.inl h
          · exact Or.inr h
      rcases this with rfl | h
      · rfl
      · obtain ⟨u, hu, ht⟩ := List.mem_flatMap.1 h
        rw [ihn ht, ih hn (List.mem_filter.1 hu).1]
  | group g x ih => intro hn; cases hn
  | look neg x ih =>
    intro hn s t h
    simp only [noGroups] at hn
    simp only [run] at h
    split at h
    · split at h
      · simp only [List.mem_singleton] at h; rw [h]
      · cases h
    · rename_i u us e
      split at h
      · cases h
      · simp only [List.mem_singleton] at h
        rw [h]
        exact ih (t := u) hn (by rw [e]; simp)
  | behind neg cs =>
    intro _ s t h
    simp only [run] at h
    split at h
    · cases h
    · simp only [List.mem_singleton] at h; rw [h]
  | bos =>
    intro _ s t h
    simp only [run] at h
    split at h
    · simp only [List.mem_singleton] at h; rw [h]
    · cases h
  | eos =>
    intro _ s t h
    simp only [run] at h
    split at h
    · simp only [List.mem_singleton] at h; rw [h]
    · cases h
  | wordb =>
    intro _ s t h
    simp only [run] at h
    split at h
    · cases h
    · simp only [List.mem_singleton] at h; rw [h]

theorem symK_sound [UnicodeDB] (hs : Shaped sh texts) : ∀ {r : Re} {a : ASt} {s : St} {kA : ASt → Verdict} {k : St → Option St}, StAt texts a s →
    (∀ a' s', StAt texts a' s' → s.pre.length ≤ s'.pre.length → (kA a').Rel texts (k s')) → (symK sh r a kA).Rel texts (runK r s k) := by
  intro r
  induction r with
  | eps => intro a s kA k ha hk; exact hk _ _ ha (Nat.le_refl _)
  | fail => intro a s kA k ha hk; rfl
  | set c => intro a s kA k ha hk; exact stepA_sound hs (tri_says c) ha hk
  | str w => intro a s kA k ha hk; exact strA_sound hs ha hk
  | seq x y ihx ihy =>
    intro a s kA k ha hk
    exact ihx ha fun a' s' h' hl => ihy h' fun a'' s'' h'' hl' => hk _ _ h'' (Nat.le_trans hl hl')
  | alt x y ihx ihy =>
    intro a s kA k ha hk
    have h := Verdict.rel_or (ihx ha hk) (ihy ha hk)
    simp only [symK, runK]
    split
    · rename_i e; rw [e] at h; exact h
    · rename_i e; rw [e, Option.none_or] at h; exact h
  | star greedy x ih =>
    intro a s kA k ha hk
    simp only [symK]
    cases hx : asSet x with
    | some c =>
      cases x <;> cases hx
      exact starSetA_sound hs ha hk
    | none => exact starA_sound hs ih ha (Nat.le_refl _) hk
  | group g x ih =>
    intro a s kA k ha hk
    refine ih ha fun a' s' h' hl => hk _ _ ⟨h'.1, .cons ⟨rfl, s.pre, s.post, s'.post, ha.1, ?_, rfl⟩ h'.2⟩ hl
    have e : (s'.pre.take (s'.pre.length - s.pre.length)).reverse.reverse ++ s.pre = s'.pre := by
      have h1 := ha.1.text
      have h2 := h'.1.text
      have h3 : s.pre.reverse <+: s'.pre.reverse := by
        refine List.prefix_of_prefix_length_le ⟨s.post, h1⟩ ⟨s'.post, h2⟩ ?_
        simpa using hl
      have h4 : s.pre <:+ s'.pre := List.reverse_prefix.1 h3
      obtain ⟨u, hu⟩ := h4
      rw [List.reverse_reverse, ← hu]
      simp
    dsimp only
    rw [e]
    exact h'.1
  | look neg x ih =>
    intro a s kA k ha hk
    have hself := hk a s ha (Nat.le_refl _)
    simp only [symK]
    split
    · rename_i hn
      have hv := ih (kA := fun _ => Verdict.ok a) (k := fun _ => some s) ha (fun _ _ _ _ => ⟨s, rfl, ha⟩)
      have hrun : (runK x s (fun t => some t) = none ∧ runK x s (fun _ => some s) = none) ∨
          ∃ t, runK x s (fun t => some t) = some t ∧ t.caps = s.caps ∧ runK x s (fun _ => some s) = some s := by
        rw [runK_eq, runK_eq]
        cases hl : run x s with
        | nil => exact Or.inl ⟨rfl, rfl⟩
        | cons t ts => exact Or.inr ⟨t, rfl, noGroups_caps hn (by rw [hl]; simp), rfl⟩
      generalize symK sh x a (fun _ => Verdict.ok a) = v at hv ⊢
      have hok : (runK (.look neg x) s k) = if (runK x s (fun _ => some s)).isSome == neg then none else k s := by
        simp only [runK]
        rcases hrun with ⟨h1, h2⟩ | ⟨t, h1, h2, h3⟩
        · rw [h1, h2]; cases neg <;> rfl
        · rw [h1, h3]; dsimp only; rw [h2]; cases neg <;> rfl
      rw [hok]
      have hany : (kA a).weak.Rel texts (if (runK x s (fun _ => some s)).isSome == neg then none else k s) := by
        split
        · exact Verdict.rel_weak_none _
        · exact Verdict.rel_weak hself
      cases v with
      | fail =>
        have hv : runK x s (fun _ => some s) = none := hv
        rw [hv]
        cases neg with
        | true => exact hself
        | false => rfl
      | ok b =>
        obtain ⟨t, e, -⟩ := hv
        rw [e]
        cases neg with
        | true => rfl
        | false => exact hself
      | maybe b => exact hany
      | top => exact hany
    · trivial
  | behind neg cs =>
    intro a s kA k ha hk
    have hself := hk a s ha (Nat.le_refl _)
    simp only [symK, runK]
    cases hb : behindA sh cs.reverse a.pos with
    | some b =>
      rw [behindA_sound hs ha.1 hb]
      dsimp only
      split
      · rfl
      · exact hself
    | none =>
      dsimp only
      split
      · exact Verdict.rel_weak_none _
      · exact Verdict.rel_weak hself
  | bos =>
    intro a s kA k ha hk
    have hself := hk a s ha (Nat.le_refl _)
    have hb := ha.1.back hs
    simp only [symK, runK]
    by_cases h0 : (!a.pos.mid && a.pos.i == 0) = true
    · rw [if_pos h0] at hb
      rw [hb, if_pos (by rw [Bool.and_comm]; exact h0)]
      exact hself
    · rw [if_neg h0] at hb
      obtain ⟨g, c, pre', -, e, -⟩ := hb
      rw [e, if_neg (by rw [Bool.and_comm]; exact h0)]
      rfl
  | eos =>
    intro a s kA k ha hk
    have hself := hk a s ha (Nat.le_refl _)
    have hseg := At.segment hs ha.1
    simp only [symK, runK]
    cases hg : sh.segs[a.pos.i]? with
    | none =>
      rw [hg] at hseg
      rw [hseg.1]
      dsimp only
      by_cases ho : sh.opn = true
      · rw [if_pos ho]
        split
        · exact Verdict.rel_weak hself
        · exact Verdict.rel_weak_none _
      · rw [if_neg ho, hs.closed (by simpa using ho)]
        exact hself
    | some g =>
      rw [hg] at hseg
      obtain ⟨w, rest, e, hne, hc, -⟩ := hseg
      dsimp only
      split
      · split
        · exact Verdict.rel_weak hself
        · exact Verdict.rel_weak_none _
      · rename_i hnl
        cases w with
        | nil => exact absurd rfl hne
        | cons c w =>
          have hcn : c ≠ '\n' := by
            intro h
            subst h
            exact hnl (List.contains_iff_mem.2 (hc _ (by simp)))
          rw [e, if_neg (by simp [hcn])]
          rfl
  | wordb =>
    intro a s kA k ha hk
    have hself := hk a s ha (Nat.le_refl _)
    have hany : (kA a).weak.Rel texts (if headWord s.pre == headWord s.post then none else k s) := by
      split
      · exact Verdict.rel_weak_none _
      · exact Verdict.rel_weak hself
    simp only [symK, runK]
    cases h1 : wordBefore sh a.pos with
    | none => exact hany
    | some x =>
      cases h2 : wordAfter sh a.pos with
      | none => exact hany
      | some y =>
        rw [wordBefore_sound hs ha.1 h1, wordAfter_sound hs ha.1 h2]
        dsimp only
        split
        · rfl
        · exact hself

end Py
