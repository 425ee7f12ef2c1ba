import Verif.Lemmas.NoLt
import Verif.Lemmas.Rebuild
import Verif.Py.Sample

/-!
# A check that matched texts do not contain a given text, white space aside
-/

open Spec
open scoped List

namespace Py

/-! ### Reading a text with a given one in mind -/

/-- After `k` characters of `w` have been read, reading `c` leads to `k'`. -/
def Move (w : Str) (k : Nat) (c : Char) (k' : Nat) : Prop :=
  (w.length ≤ k ∧ k' = k) ∨ (k < w.length ∧ ((isSpace c = true ∧ k' = k) ∨ (w[k]? = some c ∧ k' = k + 1) ∨ k' = 0))

/-- Reading a whole text. -/
inductive Prog (w : Str) : Nat → Str → Nat → Prop
  | nil (k : Nat) : Prog w k [] k
  | step {k k' j : Nat} {c : Char} {x : Str} : Move w k c k' → Prog w k' x j → Prog w k (c :: x) j

theorem Prog.split {w x y : Str} {k j : Nat} (h : Prog w k (x ++ y) j) : ∃ i, Prog w k x i ∧ Prog w i y j := by
  induction x generalizing k with
  | nil => exact ⟨k, .nil k, h⟩
  | cons c x ih =>
    cases h with
    | step hm h =>
      obtain ⟨i, h1, h2⟩ := ih h
      exact ⟨i, .step hm h1, h2⟩

theorem prog_drop {w : Str} : ∀ {x : Str} {k : Nat}, k ≤ w.length → w.drop k <+: ink x → Prog w k x w.length := by
  intro x
  induction x with
  | nil =>
    intro k hk h
    have : w.drop k = [] := List.prefix_nil.1 h
    have := congrArg List.length this
    simp only [List.length_drop, List.length_nil] at this
    have : k = w.length := by omega
    subst this
    exact .nil _
  | cons c x ih =>
    intro k hk h
    by_cases he : k = w.length
    · subst he
      exact .step (.inl ⟨Nat.le_refl _, rfl⟩) (ih (Nat.le_refl _) (by simp))
    · have hlt : k < w.length := by omega
      by_cases hc : isSpace c = true
      · have e : ink (c :: x) = ink x := by simp [ink, hc]
        exact .step (.inr ⟨hlt, .inl ⟨hc, rfl⟩⟩) (ih hk (by rwa [e] at h))
      · have e : ink (c :: x) = c :: ink x := by simp [ink, hc]
        rw [e, List.drop_eq_getElem_cons hlt, List.cons_prefix_cons] at h
        exact .step (.inr ⟨hlt, .inr (.inl ⟨by rw [List.getElem?_eq_getElem hlt, h.1], rfl⟩)⟩) (ih (by omega) h.2)

theorem prog_infix {w : Str} : ∀ {x : Str}, w <:+: ink x → Prog w 0 x w.length := by
  intro x
  induction x with
  | nil =>
    intro h
    have : w = [] := List.infix_nil.1 h
    subst this
    exact .nil _
  | cons c x ih =>
    intro h
    by_cases hc : isSpace c = true
    · have e : ink (c :: x) = ink x := by simp [ink, hc]
      rw [e] at h
      by_cases hw : 0 < w.length
      · exact .step (.inr ⟨hw, .inr (.inr rfl)⟩) (ih h)
      · exact .step (.inl ⟨by omega, rfl⟩) (ih h)
    · have e : ink (c :: x) = c :: ink x := by simp [ink, hc]
      rw [e, List.infix_cons_iff] at h
      rcases h with h | h
      · exact prog_drop (Nat.zero_le _) (by rw [e]; simpa using h)
      · by_cases hw : 0 < w.length
        · exact .step (.inr ⟨hw, .inr (.inr rfl)⟩) (ih h)
        · exact .step (.inl ⟨by omega, rfl⟩) (ih h)

/-! ### The check -/

/-- The union of two sets of states. -/
def unite (a b : List Nat) : List Nat := b.foldl (fun s x => if s.contains x then s else s ++ [x]) a

theorem mem_unite {a b : List Nat} {x : Nat} (h : x ∈ a ∨ x ∈ b) : x ∈ unite a b := by
  unfold unite
  induction b generalizing a with
  | nil => simpa using h
  | cons y b ih =>
    rw [List.foldl_cons]
    refine ih ?_
    rcases h with h | h
    · left; split
      · exact h
      · simp [h]
    · rcases List.mem_cons.1 h with rfl | h
      · left; split
        · next h => exact List.contains_iff_mem.1 h
        · simp
      · exact .inr h

/-- Whether the class may contain white space. -/
def mayWs (k : CSet) : Bool :=
  k.ic || if k.neg then !k.items.contains .space else k.items.any fun
    | .ch d => isSpace d
    | .nspace => false
    | _ => true

theorem mayWs_sound [UnicodeDB] {k : CSet} {c : Char} (h : k.mem c = true) (hc : isSpace c = true) : mayWs k = true := by
  unfold mayWs
  cases hi : k.ic with
  | true => rfl
  | false =>
    simp only [CSet.mem, hi, Bool.false_eq_true, if_false] at h
    rw [Bool.false_or]
    cases hn : k.neg with
    | true =>
      rw [hn, if_pos rfl, Bool.not_eq_true'] at h
      rw [if_pos rfl, Bool.not_eq_true']
      refine Bool.eq_false_iff.2 fun h2 => ?_
      have := List.any_eq_false.1 h _ (List.contains_iff_mem.1 h2)
      exact this hc
    | false =>
      rw [hn] at h
      simp only [Bool.false_eq_true, if_false] at h ⊢
      obtain ⟨i, hi, hm⟩ := List.any_eq_true.1 h
      refine List.any_eq_true.2 ⟨i, hi, ?_⟩
      cases i with
      | ch d =>
        have : c = d := by simpa [CItem.mem] using hm
        subst this; exact hc
      | nspace => rw [CItem.mem, hc] at hm; cases hm
      | _ => rfl

theorem swapCase_isAscii {c : Char} (h : isAscii c = true) : isAscii (swapCase c) = true := by
  have : ∀ n, n < 128 → isAscii (swapCase (Char.ofNat n)) = true := by decide +kernel
  have h1 : c.toNat < 128 := by simpa [isAscii] using h
  have h2 := this c.toNat h1
  rwa [Char.ofNat_toNat] at h2

theorem mem_item_ascii [U : UnicodeDB] {c : Char} (h : isAscii c = true) (i : CItem) : CItem.mem c i = @CItem.mem asciiDB c i := by
  have hd : isDec c = @isDec asciiDB c := by simp [isDec, decVal, h]
  have hw : isWord c = @isWord asciiDB c := by simp [isWord, h]
  cases i with
  | digit => exact hd
  | ndigit => simp only [CItem.mem, hd]
  | word => exact hw
  | nword => simp only [CItem.mem, hw]
  | authUpper => simp only [CItem.mem, h, if_true]
  | _ => rfl

/-- Membership of ASCII characters does not depend on the tables of Unicode. -/
theorem mem_ascii [U : UnicodeDB] {c : Char} (h : isAscii c = true) (k : CSet) : k.mem c = @CSet.mem asciiDB k c := by
  have e1 : ∀ d, isAscii d = true → k.items.any (CItem.mem d) = k.items.any (@CItem.mem asciiDB d) := by
    intro d hd
    congr 1
    funext i
    exact mem_item_ascii hd i
  have e2 : caseVariants c = [c, swapCase c] := by simp [caseVariants, h]
  have e3 : @caseVariants asciiDB c = [c, swapCase c] := by simp [caseVariants, h]
  simp only [CSet.mem, e2, e3, List.any_cons, List.any_nil, e1 c h, e1 _ (swapCase_isAscii h)]

/-- The states after a character of a class. -/
def stepSet (w : Str) (k : CSet) (j : Nat) : List Nat :=
  if w.length ≤ j then [j] else
    0 :: ((if mayWs k then [j] else []) ++ match w[j]? with
      | some c => if @CSet.mem asciiDB k c then [j + 1] else []
      | none => [])

theorem stepSet_sound [UnicodeDB] {w : Str} (hw : w.all isAscii = true) {k : CSet} {j j' : Nat} {c : Char} (hc : k.mem c = true) (h : Move w j c j') :
    j' ∈ stepSet w k j := by
  unfold stepSet
  rcases h with ⟨h1, rfl⟩ | ⟨h1, h⟩
  · simp [h1]
  · rw [if_neg (by omega)]
    rcases h with ⟨h2, rfl⟩ | ⟨h2, rfl⟩ | rfl
    · simp [mayWs_sound hc h2]
    · have ha : isAscii c = true := List.all_eq_true.1 hw c (List.mem_of_getElem? h2)
      rw [mem_ascii ha] at hc
      simp [h2, hc]
    · simp

/-- The states after a given character. -/
def stepCh (w : Str) (c : Char) (j : Nat) : List Nat :=
  if w.length ≤ j then [j] else
    0 :: ((if isSpace c then [j] else []) ++ if w[j]? = some c then [j + 1] else [])

theorem stepCh_sound {w : Str} {j j' : Nat} {c : Char} (h : Move w j c j') : j' ∈ stepCh w c j := by
  unfold stepCh
  rcases h with ⟨h1, rfl⟩ | ⟨h1, h⟩
  · simp [h1]
  · rw [if_neg (by omega)]
    rcases h with ⟨h2, rfl⟩ | ⟨h2, rfl⟩ | rfl <;> simp_all

/-- A step from any of the states. -/
def spread (f : Nat → List Nat) : List Nat → List Nat
  | [] => []
  | j :: K => unite (f j) (spread f K)

theorem mem_spread {f : Nat → List Nat} {K : List Nat} {j j' : Nat} (hj : j ∈ K) (h : j' ∈ f j) : j' ∈ spread f K := by
  induction K with
  | nil => cases hj
  | cons i K ih =>
    rw [spread]
    rcases List.mem_cons.1 hj with rfl | hj
    · exact mem_unite (.inl h)
    · exact mem_unite (.inr (ih hj))

/-- The states reached by repetition, up to `n` rounds. -/
def rounds (f : List Nat → Option (List Nat)) : Nat → List Nat → Option (List Nat)
  | 0, _ => none
  | n + 1, K => match f K with
    | none => none
    | some L => if L.all K.contains then some K else rounds f n (unite K L)

/-- The states after a match; nothing if this cannot be told. -/
def reach (w : Str) : Re → List Nat → Option (List Nat)
  | .set k, K => some (spread (stepSet w k) K)
  | .str v, K => some (v.foldl (fun K c => spread (stepCh w c) K) K)
  | .seq a b, K => match reach w a K with
    | none => none
    | some L => reach w b L
  | .alt a b, K => match reach w a K, reach w b K with
    | some L, some M => some (unite L M)
    | _, _ => none
  | .star _ a, K => rounds (reach w a) 20 K
  | .group _ a, K => reach w a K
  | .fail, _ => some []
  | _, K => some K

theorem str_sound {w : Str} : ∀ {v : Str} {K : List Nat} {k j : Nat}, k ∈ K → Prog w k v j → j ∈ v.foldl (fun K c => spread (stepCh w c) K) K := by
  intro v
  induction v with
  | nil => intro K k j hk h; cases h; exact hk
  | cons c v ih =>
    intro K k j hk h
    cases h with
    | step hm h => exact ih (mem_spread hk (stepCh_sound hm)) h

theorem rounds_sound {f : List Nat → Option (List Nat)} : ∀ {n : Nat} {K L : List Nat}, rounds f n K = some L →
    (∀ k ∈ K, k ∈ L) ∧ ∃ M, f L = some M ∧ ∀ m ∈ M, m ∈ L := by
  intro n
  induction n with
  | zero => intro K L h; cases h
  | succ n ih =>
    intro K L h
    rw [rounds] at h
    cases hf : f K with
    | none => rw [hf] at h; cases h
    | some M =>
      rw [hf] at h
      dsimp only at h
      split at h
      · next ha =>
        cases h
        exact ⟨fun _ h => h, M, hf, fun m hm => List.contains_iff_mem.1 (List.all_eq_true.1 ha m hm)⟩
      · obtain ⟨h1, h2⟩ := ih h
        exact ⟨fun k hk => h1 k (mem_unite (.inl hk)), h2⟩

theorem reach_sound [UnicodeDB] {w : Str} (hw : w.all isAscii = true) : ∀ {r : Re} {K L : List Nat}, reach w r K = some L →
    ∀ {x : Str} {k j : Nat}, Lang r x → k ∈ K → Prog w k x j → j ∈ L := by
  intro r
  induction r with
  | set s =>
    intro K L h x k j hx hk hp
    cases h
    obtain ⟨c, rfl, hc⟩ := hx
    cases hp with
    | step hm hp => cases hp; exact mem_spread hk (stepSet_sound hw hc hm)
  | str v =>
    intro K L h x k j hx hk hp
    cases h
    cases hx
    exact str_sound hk hp
  | seq a b iha ihb =>
    intro K L h x k j hx hk hp
    obtain ⟨u, v, rfl, hu, hv⟩ := hx
    obtain ⟨i, h1, h2⟩ := hp.split
    rw [reach] at h
    cases ha : reach w a K with
    | none => rw [ha] at h; cases h
    | some M =>
      rw [ha] at h
      exact ihb h hv (iha ha hu hk h1) h2
  | alt a b iha ihb =>
    intro K L h x k j hx hk hp
    rw [reach] at h
    split at h
    · next M N h1 h2 =>
      cases h
      rcases hx with hx | hx
      · exact mem_unite (.inl (iha h1 hx hk hp))
      · exact mem_unite (.inr (ihb h2 hx hk hp))
    · cases h
  | star g a iha =>
    intro K L h x k j hx hk hp
    rw [reach] at h
    obtain ⟨h1, M, h2, h3⟩ := rounds_sound h
    obtain ⟨ws, rfl, hws⟩ := hx
    have key : ∀ (ws : List Str) (k : Nat), (∀ x ∈ ws, x ≠ [] ∧ Lang a x) → k ∈ L → Prog w k ws.flatten j → j ∈ L := by
      intro ws
      induction ws with
      | nil => intro k _ hk hp; cases hp; exact hk
      | cons y ws ih =>
        intro k hws hk hp
        rw [List.flatten_cons] at hp
        obtain ⟨i, p1, p2⟩ := hp.split
        exact ih i (fun x hx => hws x (by simp [hx])) (h3 i (iha h2 (hws y (by simp)).2 hk p1)) p2
    exact key ws k hws (h1 k hk) hp
  | group g a iha =>
    intro K L h x k j hx hk hp
    exact iha h hx hk hp
  | fail => intro K L h x k j hx; cases hx
  | _ =>
    intro K L h x k j hx hk hp
    cases h
    cases hx
    cases hp
    exact hk

/-- Whether the matches of the expression avoid the text. -/
def avoids (w : Str) (r : Re) : Bool := match reach w r [0] with
  | some L => !L.contains w.length
  | none => false

theorem avoids_sound [UnicodeDB] {w : Str} (hw : w.all isAscii = true) {r : Re} (h : avoids w r = true) {x : Str} (hx : Lang r x) : ¬ w <:+: ink x := by
  intro hi
  unfold avoids at h
  split at h
  · next L hL =>
    have := reach_sound hw hL hx (by simp) (prog_infix hi)
    rw [List.contains_iff_mem.2 this] at h
    cases h
  · cases h

/-- The groups `g` avoid the text. -/
def groupAvoids (w : Str) (g : Nat) (r : Re) : Bool := r.groups.all fun p => p.1 != g || avoids w p.2

theorem group_avoids [UnicodeDB] {w : Str} (hw : w.all isAscii = true) {g : Nat} {r : Re} (h : groupAvoids w g r = true) {pre post : Str} {m : Match}
    (hm : MatchOk r pre post m) {x : Str} (hx : m.group g = some x) : ¬ w <:+: ink x := by
  obtain ⟨body, hb, hl⟩ := hm.group_lang hx
  have h1 := List.all_eq_true.1 h _ hb
  simp only [bne_self_eq_false, Bool.false_or] at h1
  exact avoids_sound hw h1 hl

theorem names_avoid : ∀ w ∈ [py! "<cds.DOI", py! "<cds.URL"], groupAvoids w G.author_names Rx.RE_AUTH = true := by decide +kernel

end Py
