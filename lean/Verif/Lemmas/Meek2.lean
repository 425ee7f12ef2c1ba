import Verif.Lemmas.Meek
import Verif.Lemmas.Places

/-!
# Rebuilding the line, step by step
-/

open Py Spec
open scoped List

namespace Py

variable [UnicodeDB] {uni : Str → Str} {spell : Char → Str} {w : Str}

/-! ### True positions -/

/-- The true position of a place of the stripped line. -/
def trueIdx (sp : List (Nat × Nat)) (i : Nat) : Nat := sp.foldl (fun x s => if s.1 < x then x + s.2 else x) i

omit [UnicodeDB] in
theorem accountSpaces_true (sp : List (Nat × Nat)) (len : Option Nat) (i : Nat) : (accountSpaces sp len i).1 = trueIdx sp i := by
  have key : ∀ (sp : List (Nat × Nat)) (i j x : Nat), (sp.foldl (spaceStep len) (i, j, x)).1 = trueIdx sp i := by
    intro sp
    induction sp with
    | nil => intros; rfl
    | cons s sp ih =>
      intro i j x
      have e : trueIdx (s :: sp) i = trueIdx sp (if s.1 < i then i + s.2 else i) := rfl
      have e1 : (spaceStep len (i, j, x) s).1 = if s.1 < i then i + s.2 else i := by
        unfold spaceStep
        dsimp only
        split
        · rfl
        · cases len with
          | none => rfl
          | some n => dsimp only; split <;> rfl
      rw [e, List.foldl_cons, ← e1]
      exact ih _ _ _
  exact key sp i i 0

omit [UnicodeDB] in
theorem trueIdx_mono (sp : List (Nat × Nat)) : ∀ {i j : Nat}, i ≤ j → trueIdx sp i ≤ trueIdx sp j := by
  induction sp with
  | nil => intro i j h; exact h
  | cons s sp ih =>
    intro i j h
    refine ih ?_
    dsimp only
    split <;> split <;> omega

/-! ### One step -/

omit [UnicodeDB] in
theorem mem_stripP {p : Char → Bool} {s : Str} {c : Char} (h : c ∈ stripP p s) : c ∈ s := by
  obtain ⟨a, b, e, -⟩ := stripP_split p s
  rw [e]; simp [h]

omit [UnicodeDB] in
theorem mem_strip {s : Str} {c : Char} (h : c ∈ strip s) : c ∈ s := mem_stripP h

/-- What is known of the previous title. -/
def PrevPlain (spell : Char → Str) (p : Option Prev) : Prop := ∀ q, p = some q → NoAngle spell q.title ∧ OptPlain spell q.series

theorem journalNumeration_plain (S : Spelled uni spell) {line rebuilt : Str} {pos : Nat} {n : Numeration} (hl : Tame spell line) (hr : Tame spell rebuilt)
    (h : journalNumeration line rebuilt pos = .ok (some n)) : NumPlain spell n := by
  unfold journalNumeration at h
  have hd : Tame spell (line.drop pos) := hl.of_sub fun c hc => List.mem_of_mem_drop hc
  cases hf : findNumeration (line.drop pos) with
  | error e => rw [hf] at h; cases h
  | ok o =>
    rw [hf] at h
    cases o with
    | some m => cases h; exact findNumeration_plain S hd hf
    | none =>
      refine findNumerationMore_plain S (hr.append ?_) h
      have : Tame spell [' '] := tame_ascii S (by decide)
      exact this.append hd

omit [UnicodeDB] in
theorem noAngle_nil : NoAngle spell [] := fun _ h => by cases h

/-- A title or the title of the abbreviation, after a piece of the line. -/
theorem addJournal_meek (S : Spelled uni spell) (hw : CountedTag w) {line info : Str} {prev prev' : Option Prev} {start idx extras pos : Nat}
    {std : List (Str × Str)} {chunk : Str} (hl : Tame spell line) (hp : PrevPlain spell prev) (hs : ∀ t, dget std info = some t → NoAngle spell t)
    (h : addJournal line info prev start idx extras std = .ok (chunk, pos, prev')) :
    PrevPlain spell prev' ∧ ((chunk = [] ∧ pos = start) ∨ ∃ i, Seal spell w i ∧ chunk = slice line start idx ++ i ∧ idx ≤ pos) := by
  have st : ∀ {i : Str}, i ∈ sealTags → Seal spell w i := fun h => seal_tag S hw h
  unfold addJournal at h
  cases hh : journalHead line info prev start idx extras std with
  | error e => rw [hh] at h; cases h
  | ok o =>
    rw [hh] at h
    cases o with
    | none => cases h; exact ⟨hp, .inl ⟨rfl, rfl⟩⟩
    | some q =>
      obtain ⟨rebuilt, pos1, pv, series⟩ := q
      obtain ⟨hpos, -⟩ := journalHead_form hh
      obtain ⟨rfl, hq⟩ := journalHead_prev hh
      have hpv : NoAngle spell pv.title ∧ OptPlain spell pv.series := by
        rcases hq with ⟨-, -, t, ht, h⟩ | ⟨-, h, -⟩
        · rcases h with ⟨-, rfl⟩ | ⟨title, s, rfl, -, rfl⟩
          · exact ⟨hs t ht, fun x hx => by cases hx⟩
          · have := hs _ ht
            refine ⟨this.of_sub fun c hc => by simp [hc], fun x hx => ?_⟩
            cases hx
            exact this.of_sub fun c hc => by simp [mem_strip hc]
        · exact hp pv h
      obtain ⟨i, hi, hreb⟩ : ∃ i, Seal spell w i ∧ rebuilt = slice line start idx ++ i := by
        rcases hq with ⟨-, h, -⟩ | ⟨-, -, h⟩
        · exact ⟨py! "<cds.JOURNAL>" ++ pv.title ++ py! "</cds.JOURNAL>", ((st (by decide)).text hpv.1).append (st (by decide)), by rw [h]; simp only [List.append_assoc]⟩
        · exact ⟨py! " <cds.JOURNALibid>" ++ pv.title ++ py! "</cds.JOURNALibid>", ((st (by decide)).text hpv.1).append (st (by decide)), by rw [h]; simp only [List.append_assoc]⟩
      have htr : Tame spell rebuilt := by
        rw [hreb]
        exact (hl.of_sub fun c hc => List.mem_of_mem_take (List.mem_of_mem_drop hc)).append hi.tame
      dsimp only [bind, Except.bind] at h
      cases hn : journalNumeration line rebuilt pos1 with
      | error e => rw [hn] at h; cases h
      | ok o =>
        rw [hn] at h
        cases o with
        | none => cases h; exact ⟨hp, .inl ⟨rfl, rfl⟩⟩
        | some n =>
          have hnp := journalNumeration_plain S hl htr hn
          have hser : OptPlain spell (withSeries pv.series n).series :=
            optPlain_orElse hnp.series (optPlain_orElse hpv.2 hnp.series)
          dsimp only at h
          cases ht : numerationTag (withSeries pv.series n) with
          | error e => rw [ht] at h; cases h
          | ok tag =>
            rw [ht] at h
            cases h
            refine ⟨fun q hq => by cases hq; exact ⟨hpv.1, hser⟩, .inr ⟨i ++ tag, hi.append (numerationTag_seal S hw (n := withSeries pv.series n) ⟨hnp.year, hser, hnp.volume, hnp.page, hnp.pageEnd⟩ ht), ?_, ?_⟩⟩
            · rw [hreb, List.append_assoc]
            · rw [hpos]; unfold skipPunctuation; omega

/-- What holds between the steps. -/
def Kept (spell : Char → Str) (w line : Str) (E : Nat) (st : Nat × Option Prev × Str) : Prop :=
  PrevPlain spell st.2.1 ∧ ((st.1 = 0 ∧ st.2.2 = []) ∨ (E ≤ st.1 ∧ ∀ k, E ≤ k → Meek spell w (line.take k) st.2.2))

omit [UnicodeDB] in
theorem take_slice (line : Str) {a b c : Nat} (h : a ≤ b) (h' : b ≤ c) : ∃ t, line.take c = line.take a ++ slice line a b ++ t := by
  refine ⟨slice line b c, ?_⟩
  have key : ∀ {a b : Nat}, a ≤ b → line.take b = line.take a ++ slice line a b := by
    intro a b h
    have := (List.take_append_drop a (line.take b)).symm
    rwa [List.take_take, Nat.min_eq_left h] at this
  rw [← key h, ← key h']

omit [UnicodeDB] in
theorem Kept.chunk {line : Str} {E idx k : Nat} {st : Nat × Option Prev × Str} (h : Kept spell w line E st) (hE : E ≤ idx) (hk : k ≤ idx)
    {i : Str} (hi : Seal spell w i) {j : Nat} (hj : idx ≤ j) : Meek spell w (line.take j) (st.2.2 ++ (slice line st.1 k ++ i)) := by
  rcases h.2 with ⟨h1, h2⟩ | ⟨h1, h2⟩
  · rw [h1, h2]
    have e : slice line 0 k = line.take k := by simp [slice]
    obtain ⟨t, ht⟩ := take_slice line (Nat.zero_le k) (Nat.le_trans hk hj)
    rw [ht, e]
    simpa using Meek.swallow (u := t) hi (line.take k)
  · by_cases hs : st.1 ≤ k
    · obtain ⟨t, ht⟩ := take_slice line hs (Nat.le_trans hk hj)
      rw [ht, List.append_assoc]
      exact (h2 st.1 h1).append (Meek.swallow hi _)
    · have e : slice line st.1 k = [] := by
        unfold slice
        apply List.drop_eq_nil_of_le
        rw [List.length_take]; omega
      rw [e, List.nil_append]
      have := (h2 j (Nat.le_trans hE hj)).append (hi.meek [])
      simpa using this

/-- What is asked of the things found. -/
structure FoundPlain (spell : Char → Str) (f : Found) (pubs : List (Str × Re × Str)) : Prop where
  std : ∀ p ∈ f.std, NoAngle spell p.2
  texts : ∀ p ∈ f.repTexts, NoAngle spell p.2
  pubs : ∀ p ∈ pubs, NoAngle spell p.2.2

theorem replaceStep_kept (S : Spelled uni spell) (hw : CountedTag w) {line : Str} {f : Found} {pubs : List (Str × Re × Str)} (hl : Tame spell line)
    (hf : FoundPlain spell f pubs) {E : Nat} {st st' : Nat × Option Prev × Str} {loc : Nat × ReplTy} (hk : Kept spell w line E st)
    (hE : E ≤ trueIdx f.spaces loc.1) (h : replaceStep line f pubs st loc = .ok st') :
    ∃ E', E' ≤ trueIdx f.spaces loc.1 ∧ Kept spell w line E' st' := by
  have stg : ∀ {i : Str}, i ∈ sealTags → Seal spell w i := fun h => seal_tag S hw h
  unfold replaceStep at h
  split at h
  · obtain ⟨info, hi, h⟩ := bind_ok h
    dsimp only at h
    obtain ⟨⟨chunk, pos, prev⟩, ha, h⟩ := bind_ok h
    cases h
    rw [accountSpaces_true] at ha
    obtain ⟨hp, h | ⟨i, hi, rfl, hpos⟩⟩ := addJournal_meek (w := w) S hw hl hk.1 (fun t ht => hf.std _ (dget_mem _ _ _ ht)) ha
    · obtain ⟨rfl, rfl⟩ := h
      exact ⟨E, hE, hp, by simpa using hk.2⟩
    · exact ⟨_, Nat.le_refl _, hp, .inr ⟨hpos, fun j hj => hk.chunk hE (Nat.le_refl _) hi hj⟩⟩
  · obtain ⟨len, hlen, h⟩ := bind_ok h
    obtain ⟨text, ht, h⟩ := bind_ok h
    dsimp only at h
    rw [accountSpaces_true] at h
    generalize hX : addReportNumber line len text st.1 (trueIdx f.spaces loc.1) (accountSpaces f.spaces (some len) loc.1).2 = X at h
    obtain ⟨chunk, pos⟩ := X
    cases h
    have htext : NoAngle spell text := by
      cases hd : dget f.repTexts loc.1 with
      | none => rw [hd] at ht; cases ht
      | some x => rw [hd] at ht; cases ht; exact hf.texts _ (dget_mem _ _ _ hd)
    have hseal : Seal spell w (py! "<cds.REPORTNUMBER>" ++ text ++ py! "</cds.REPORTNUMBER>") := ((stg (by decide)).text htext).append (stg (by decide))
    unfold addReportNumber at hX
    dsimp only at hX
    obtain ⟨rfl, rfl⟩ := Prod.mk.inj hX
    refine ⟨_, Nat.le_refl _, hk.1, .inr ⟨?_, fun j hj => ?_⟩⟩
    · dsimp only
      split
      · split <;> omega
      · omega
    · dsimp only
      split
      · have := hk.chunk hE (k := trueIdx f.spaces loc.1 - 1) (by omega) hseal hj
        simpa using this
      · have := hk.chunk hE (Nat.le_refl _) hseal hj
        simpa using this
  · dsimp only at h
    obtain ⟨pub, hpub, h⟩ := bind_ok h
    obtain ⟨⟨chunk, pos⟩, ha, h⟩ := bind_ok h
    cases h
    unfold addPublisher at ha
    obtain ⟨info, hinfo, ha⟩ := bind_ok ha
    cases ha
    have htext : NoAngle spell info.2 := by
      cases hd : dget pubs pub with
      | none => rw [hd] at hinfo; cases hinfo
      | some x => rw [hd] at hinfo; cases hinfo; exact hf.pubs _ (dget_mem _ _ _ hd)
    have hseal : Seal spell w (py! "<cds.PUBLISHER>" ++ info.2 ++ py! "</cds.PUBLISHER>") := ((stg (by decide)).text htext).append (stg (by decide))
    refine ⟨_, Nat.le_refl _, hk.1, .inr ⟨?_, fun j hj => ?_⟩⟩
    · rw [accountSpaces_true]; dsimp only; omega
    · rw [accountSpaces_true]
      have := hk.chunk hE (Nat.le_refl _) hseal hj
      simpa using this

theorem replaceSteps_kept (S : Spelled uni spell) (hw : CountedTag w) {line : Str} {f : Found} {pubs : List (Str × Re × Str)} (hl : Tame spell line)
    (hf : FoundPlain spell f pubs) : ∀ {locs : List (Nat × ReplTy)} {E : Nat} {st st' : Nat × Option Prev × Str}, Kept spell w line E st →
    (∀ l ∈ locs, E ≤ trueIdx f.spaces l.1) → locs.Pairwise (fun a b => decide (a.1 ≤ b.1) = true) →
    locs.foldlM (replaceStep line f pubs) st = .ok st' → ∃ E', Kept spell w line E' st' := by
  intro locs
  induction locs with
  | nil => intro E st st' hk _ _ h; cases h; exact ⟨E, hk⟩
  | cons l locs ih =>
    intro E st st' hk hE hs h
    rw [List.foldlM_cons] at h
    obtain ⟨s1, h1, h⟩ := bind_ok h
    obtain ⟨E1, hE1, hk1⟩ := replaceStep_kept S hw hl hf hk (hE l (by simp)) h1
    have hp := List.pairwise_cons.1 hs
    exact ih hk1 (fun x hx => Nat.le_trans hE1 (trueIdx_mono _ (by simpa using hp.1 x hx))) hp.2 h

end Py
