import Verif.Model.Numeration
import Verif.Lemmas.ReSyn
import Verif.Lemmas.Transform2
import Verif.Spec.Numeration

/-!
# Helper lemmas for numeration
-/

namespace Py
open Spec

/-- Every matched text has a character of the class. -/
def Re.has (k : CSet) : Re → Bool
  | .fail => true
  | .set k' => k' == k
  | .seq a b => a.has k || b.has k
  | .alt a b => a.has k && b.has k
  | .group _ a => a.has k
  | _ => false

theorem lang_has [UnicodeDB] {k : CSet} (r : Re) (hr : r.has k = true) (w : Str) (h : Lang r w) :
    ∃ c ∈ w, k.mem c = true := by
  induction r generalizing w with
  | fail => exact h.elim
  | set k' =>
    obtain ⟨c, rfl, hc⟩ := h
    simp only [Re.has, beq_iff_eq] at hr
    subst hr
    exact ⟨c, by simp, hc⟩
  | seq a b iha ihb =>
    obtain ⟨u, v, rfl, hu, hv⟩ := h
    simp only [Re.has, Bool.or_eq_true] at hr
    rcases hr with hr | hr
    · obtain ⟨c, h1, h2⟩ := iha hr _ hu
      exact ⟨c, by simp [h1], h2⟩
    · obtain ⟨c, h1, h2⟩ := ihb hr _ hv
      exact ⟨c, by simp [h1], h2⟩
  | alt a b iha ihb =>
    simp only [Re.has, Bool.and_eq_true] at hr
    rcases h with h | h
    · exact iha hr.1 _ h
    · exact ihb hr.2 _ h
  | group g a ih => exact ih hr _ h
  | _ => simp [Re.has] at hr

/-- The body of the group `year` in all numeration patterns. -/
def yearBody : Re :=
  (Re.opt (.set ⟨false, false, [.range 'A' 'Z', .range 'a' 'z']⟩)) ⬝ (Re.alts [.str (py! "19"), .str (py! "20")]) ⬝
    (Re.times 2 Re.digit)

/-- The bodies of the groups for volume numbers. -/
def romanBody : Re :=
  Re.alt (Re.plus Re.digit) (.behind true [⟨false, false, [.word]⟩] ⬝
    (Re.plus (.set ⟨false, false, [.ch 'X', .ch 'x', .ch 'V', .ch 'v', .ch 'I', .ch 'i']⟩)) ⬝
    .look true (.set ⟨false, false, [.word]⟩))

theorem lang_plus_set [UnicodeDB] {k : CSet} {w : Str} (h : Lang (Re.plus (.set k)) w) :
    w ≠ [] ∧ ∀ c ∈ w, k.mem c = true := by
  obtain ⟨u, v, rfl, ⟨c, rfl, hc⟩, ws, rfl, hw⟩ := h
  refine ⟨by simp, ?_⟩
  intro d hd
  rcases List.mem_append.1 hd with hd | hd
  · simp at hd; subst hd; exact hc
  · obtain ⟨x, hx, hdx⟩ := List.mem_flatten.1 hd
    obtain ⟨_, e, rfl, he⟩ := hw x hx
    simp at hdx; subst hdx; exact he

theorem lang_year [UnicodeDB] {w : Str} (h : Lang yearBody w) : YearText w := by
  obtain ⟨l, _, rfl, hl, c, _, rfl, hc, u, v, rfl, ⟨a, rfl, ha⟩, b, rfl, hb⟩ := h
  refine ⟨l, c, a, b, by simp, ?_, ?_, by simpa [CSet.mem, CItem.mem] using ha, by simpa [CSet.mem, CItem.mem] using hb⟩
  · rcases hl with ⟨x, rfl, hx⟩ | hl
    · right
      refine ⟨x, rfl, ?_⟩
      simp only [CSet.mem, CItem.mem, List.any_cons, List.any_nil, Bool.or_false, Bool.false_eq_true, if_false,
        Bool.or_eq_true, Bool.and_eq_true, decide_eq_true_eq] at hx
      rcases hx with hx | hx
      · right; exact hx
      · left; exact hx
    · left; exact hl
  · rcases hc with hc | hc
    · left; exact hc
    · right; exact hc

theorem lang_digits [UnicodeDB] {w : Str} (h : Lang (Re.plus Re.digit) w) : Decimals w := by
  obtain ⟨h1, h2⟩ := lang_plus_set h
  exact ⟨h1, fun c hc => by have := h2 c hc; simpa [CSet.mem, CItem.mem] using this⟩

theorem lang_volume [UnicodeDB] {w : Str} (h : Lang romanBody w ∨ Lang (Re.plus Re.digit) w) : VolumeText w := by
  rcases h with (h | ⟨u, v, rfl, hu, w, x, rfl, hw, hx⟩) | h
  · exact .inl (lang_digits h)
  · right
    cases hu; cases hx
    obtain ⟨h1, h2⟩ := lang_plus_set hw
    refine ⟨by simpa using h1, ?_⟩
    intro c hc
    have := h2 c (by simpa using hc)
    simp [CSet.mem, CItem.mem] at this
    simp
    rcases this with h | h | h | h | h | h <;> simp [h]
  · exact .inl (lang_digits h)

/-- Checks on a numeration pattern. -/
def numOk (year : Bool) (r : Re) : Bool :=
  r.must [G.vol] && r.must [G.vol_num, G.vol_num_alt, G.vol_num_alt2] && r.must [G.page, G.jinst_page] &&
  (!year || r.must [G.year]) && decide (0 < r.minLen) &&
  r.groups.all fun b =>
    (b.1 != G.year || b.2 == yearBody) &&
    (!([G.vol_num, G.vol_num_alt, G.vol_num_alt2].contains b.1) || b.2 == romanBody || b.2 == Re.plus Re.digit) &&
    (!([G.page, G.jinst_page].contains b.1) || b.2.has digitSet)

theorem patterns_ok : (numerationPatterns.all (numOk true)) = true := by decide +kernel

theorem patterns2_ok : (numerationPatterns2.all (numOk false)) = true := by decide +kernel

theorem patterns2_after : (numerationPatterns2.all fun r => r.must [G.aftertitle]) = true := by decide +kernel

/-- What `numOk` gives for a match. -/
structure NumFacts [UnicodeDB] (year : Bool) (text : Str) (m : Match) : Prop where
  vol : ∃ v, m.group G.vol = some v
  volume : ∃ v, volumeGroup m = some v ∧ VolumeText v ∧ PartOf v text
  page : ∃ p, orElse (m.group G.page) (m.group G.jinst_page) = some p ∧ PageText p ∧ PartOf p text
  yearSome : year = true → ∃ y, m.group G.year = some y
  yearOk : ∀ y, m.group G.year = some y → YearText y ∧ PartOf y text

theorem numFacts [UnicodeDB] {yr : Bool} {r : Re} {pre post : Str} {m : Match} {adv : Bool} (hr : numOk yr r = true)
    (h : matchHere r adv pre post = some m) : NumFacts yr (pre.reverse ++ post) m := by
  have hm := (matchHere_ok h).1
  simp only [numOk, Bool.and_eq_true, List.all_eq_true, decide_eq_true_eq] at hr
  obtain ⟨⟨⟨⟨⟨h1, h2⟩, h3⟩, h4⟩, h5⟩, h6⟩ := hr
  have hvol : ∀ g ∈ [G.vol_num, G.vol_num_alt, G.vol_num_alt2], ∀ x, m.group g = some x → VolumeText x := by
    intro g hg x hx
    obtain ⟨body, hb, hl⟩ := hm.group_lang hx
    have := (h6 _ hb).1.2
    have hc : [G.vol_num, G.vol_num_alt, G.vol_num_alt2].contains g = true := by simpa using hg
    rw [hc] at this
    simp only [Bool.not_true, Bool.false_or, Bool.or_eq_true, beq_iff_eq] at this
    apply lang_volume
    rcases this with h | h
    · left; rw [← h]; exact hl
    · right; rw [← h]; exact hl
  have hpage : ∀ g ∈ [G.page, G.jinst_page], ∀ x, m.group g = some x → PageText x := by
    intro g hg x hx
    obtain ⟨body, hb, hl⟩ := hm.group_lang hx
    have := (h6 _ hb).2
    have hc : [G.page, G.jinst_page].contains g = true := by simpa using hg
    rw [hc] at this
    simp only [Bool.not_true, Bool.false_or] at this
    obtain ⟨c, h1, h2⟩ := lang_has _ this _ hl
    exact ⟨c, h1, by rwa [mem_digitSet] at h2⟩
  have hvne : ∀ x, VolumeText x → x ≠ [] := by
    rintro x (⟨h, -⟩ | ⟨h, -⟩) <;> exact h
  have hpne : ∀ x, PageText x → x ≠ [] := by
    rintro x ⟨c, h, -⟩; exact List.ne_nil_of_mem h
  refine ⟨?_, ?_, ?_, ?_, ?_⟩
  · obtain ⟨g, hg, x, hx⟩ := matchHere_must h1 h
    simp at hg; subst hg; exact ⟨x, hx⟩
  · obtain ⟨g, hg, x, hx⟩ := matchHere_must h2 h
    have hx' := hvne _ (hvol g hg x hx)
    have key : ∃ g ∈ [G.vol_num, G.vol_num_alt, G.vol_num_alt2], ∃ y, volumeGroup m = some y ∧ m.group g = some y := by
      unfold volumeGroup
      cases ha : m.group G.vol_num with
      | some a =>
        have := hvne _ (hvol _ (by simp) a ha)
        cases a with
        | nil => exact absurd rfl this
        | cons c s => exact ⟨G.vol_num, by simp, c :: s, by simp [orElse], ha⟩
      | none =>
        cases hb : m.group G.vol_num_alt with
        | some b =>
          have := hvne _ (hvol _ (by simp) b hb)
          cases b with
          | nil => exact absurd rfl this
          | cons c s => exact ⟨G.vol_num_alt, by simp, c :: s, by simp [orElse], hb⟩
        | none =>
          refine ⟨G.vol_num_alt2, by simp, x, ?_, ?_⟩ <;>
          · simp only [List.mem_cons, List.not_mem_nil, or_false] at hg
            rcases hg with rfl | rfl | rfl
            · rw [ha] at hx; cases hx
            · rw [hb] at hx; cases hx
            · simp [orElse, hx]
    obtain ⟨g, hg, y, hy, hgy⟩ := key
    exact ⟨y, hy, hvol g hg y hgy, hm.group_infix hgy⟩
  · obtain ⟨g, hg, x, hx⟩ := matchHere_must h3 h
    cases ha : m.group G.page with
    | some a =>
      have ht := hpage _ (by simp) a ha
      have := hpne _ ht
      cases a with
      | nil => exact absurd rfl this
      | cons c s => exact ⟨c :: s, by simp [orElse], ht, hm.group_infix ha⟩
    | none =>
      simp only [List.mem_cons, List.not_mem_nil, or_false] at hg
      rcases hg with rfl | rfl
      · rw [ha] at hx; cases hx
      · exact ⟨x, by simp [orElse, hx], hpage _ (by simp) x hx, hm.group_infix hx⟩
  · intro hy
    subst hy
    simp only [Bool.not_true, Bool.false_or] at h4
    obtain ⟨g, hg, x, hx⟩ := matchHere_must h4 h
    simp at hg; subst hg; exact ⟨x, hx⟩
  · intro y hy
    obtain ⟨body, hb, hl⟩ := hm.group_lang hy
    have := (h6 _ hb).1.1
    simp at this
    exact ⟨lang_year (this ▸ hl), hm.group_infix hy⟩

end Py
