import Verif.Lemmas.Re

/-!
# Facts about matches that can be read off the syntax of a pattern
-/

namespace Py

/-- Every successful path through the expression captures one of the groups. -/
def Re.must (gs : List Nat) : Re → Bool
  | .fail => true
  | .seq a b => a.must gs || b.must gs
  | .alt a b => a.must gs && b.must gs
  | .group g a => gs.contains g || a.must gs
  | .look false a => a.must gs
  | _ => false

theorem must_run [UnicodeDB] {gs : List Nat} (r : Re) (hr : r.must gs = true) (s t : St) (h : t ∈ run r s) :
    ∃ c ∈ t.caps, gs.contains c.g = true := by
  induction r generalizing s t with
  | eps | set | str | star | behind | bos | eos | wordb => simp [Re.must] at hr
  | fail => simp [run] at h
  | seq a b iha ihb =>
    simp only [run, List.mem_flatMap] at h
    obtain ⟨u, hu, ht⟩ := h
    simp only [Re.must, Bool.or_eq_true] at hr
    rcases hr with hr | hr
    · obtain ⟨c, hc, hg⟩ := iha hr _ _ hu
      obtain ⟨_, _, _, new, hn, _⟩ := run_sound _ _ _ ht
      exact ⟨c, by rw [hn]; simp [hc], hg⟩
    · exact ihb hr _ _ ht
  | alt a b iha ihb =>
    simp only [run, List.mem_append] at h
    simp only [Re.must, Bool.and_eq_true] at hr
    rcases h with h | h
    · exact iha hr.1 _ _ h
    · exact ihb hr.2 _ _ h
  | group g a ih =>
    simp only [run, List.mem_map] at h
    obtain ⟨u, hu, rfl⟩ := h
    simp only [Re.must, Bool.or_eq_true] at hr
    rcases hr with hr | hr
    · exact ⟨_, List.mem_cons_self, hr⟩
    · obtain ⟨c, hc, hg⟩ := ih hr _ _ hu
      exact ⟨c, List.mem_cons_of_mem _ hc, hg⟩
  | look neg a ih =>
    cases neg with
    | true => simp [Re.must] at hr
    | false =>
      simp only [Re.must] at hr
      simp only [run] at h
      split at h
      · simp at h
      · next u l hu =>
        simp at h
        subst h
        exact ih hr s u (by rw [hu]; simp)

theorem Match.group_of_cap {m : Match} {c : Cap} (h : c ∈ m.caps) : ∃ x, m.group c.g = some x := by
  simp only [Match.group]
  cases hf : m.caps.find? (·.g == c.g) with
  | some d => exact ⟨d.txt, rfl⟩
  | none =>
    have := List.find?_eq_none.1 hf c h
    simp at this

theorem matchHere_must [UnicodeDB] {gs : List Nat} {r : Re} (hr : r.must gs = true) {adv : Bool} {pre post : Str}
    {m : Match} (h : matchHere r adv pre post = some m) : ∃ g ∈ gs, ∃ x, m.group g = some x := by
  obtain ⟨t, ht, rfl, -⟩ := matchHere_state h
  obtain ⟨c, hc, hg⟩ := must_run r hr _ _ ht
  obtain ⟨x, hx⟩ := Match.group_of_cap (m := mkMatch pre t) (c := c) (by simpa [mkMatch] using hc)
  exact ⟨c.g, by simpa using hg, x, hx⟩

theorem reMatch_must [UnicodeDB] {gs : List Nat} {r : Re} (hr : r.must gs = true) {s : Str} {m : Match}
    (h : reMatch r s = some m) : ∃ g ∈ gs, ∃ x, m.group g = some x := matchHere_must hr h

theorem reMatch_must1 [UnicodeDB] {g : Nat} {r : Re} (hr : r.must [g] = true) {s : Str} {m : Match}
    (h : reMatch r s = some m) : ∃ x, m.group g = some x := by
  obtain ⟨g', hg, x, hx⟩ := reMatch_must hr h
  simp at hg; subst hg; exact ⟨x, hx⟩

theorem finditer_must [UnicodeDB] {gs : List Nat} {r : Re} (hr : r.must gs = true) {s : Str} {m : Match}
    (h : m ∈ finditer r s) : ∃ g ∈ gs, ∃ x, m.group g = some x := by
  obtain ⟨ps, qs, hs⟩ := mem_finditer h
  obtain ⟨b, hb⟩ := scan_hit hs
  exact matchHere_must hr hb

theorem finditer_must1 [UnicodeDB] {g : Nat} {r : Re} (hr : r.must [g] = true) {s : Str} {m : Match}
    (h : m ∈ finditer r s) : ∃ x, m.group g = some x := by
  obtain ⟨g', hg, x, hx⟩ := finditer_must hr h
  simp at hg; subst hg; exact ⟨x, hx⟩

/-- A lower bound for the length of matched texts. -/
def Re.minLen : Re → Nat
  | .fail => 1
  | .set _ => 1
  | .str w => w.length
  | .seq a b => a.minLen + b.minLen
  | .alt a b => min a.minLen b.minLen
  | .group _ a => a.minLen
  | _ => 0

theorem lang_minLen [UnicodeDB] (r : Re) (w : Str) (h : Lang r w) : r.minLen ≤ w.length := by
  induction r generalizing w with
  | fail => exact h.elim
  | set k => obtain ⟨c, rfl, -⟩ := h; simp [Re.minLen]
  | str v => cases h; simp [Re.minLen]
  | seq a b iha ihb =>
    obtain ⟨u, v, rfl, hu, hv⟩ := h
    have := iha _ hu
    have := ihb _ hv
    simp [Re.minLen]; omega
  | alt a b iha ihb =>
    simp only [Re.minLen]
    rcases h with h | h
    · have := iha _ h; omega
    · have := ihb _ h; omega
  | group g a ih => exact ih _ h
  | _ => exact Nat.zero_le _

/-- Every character of a matched text satisfies the predicate. -/
def Re.over [UnicodeDB] (P : Char → Prop) : Re → Prop
  | .set k => ∀ c, k.mem c = true → P c
  | .str w => ∀ c ∈ w, P c
  | .seq a b => a.over P ∧ b.over P
  | .alt a b => a.over P ∧ b.over P
  | .star _ a => a.over P
  | .group _ a => a.over P
  | _ => True

theorem lang_over [UnicodeDB] {P : Char → Prop} (r : Re) (hr : r.over P) (w : Str) (h : Lang r w) :
    ∀ c ∈ w, P c := by
  induction r generalizing w with
  | fail => exact h.elim
  | set k => obtain ⟨c, rfl, hc⟩ := h; intro d hd; simp at hd; subst hd; exact hr _ hc
  | str v => cases h; exact hr
  | seq a b iha ihb =>
    obtain ⟨u, v, rfl, hu, hv⟩ := h
    intro c hc
    rcases List.mem_append.1 hc with hc | hc
    · exact iha hr.1 _ hu c hc
    · exact ihb hr.2 _ hv c hc
  | alt a b iha ihb =>
    rcases h with h | h
    · exact iha hr.1 _ h
    · exact ihb hr.2 _ h
  | star g a ih =>
    obtain ⟨ws, rfl, hw⟩ := h
    intro c hc
    obtain ⟨x, hx, hcx⟩ := List.mem_flatten.1 hc
    exact ih hr x (hw x hx).2 c hcx
  | group g a ih => exact ih hr _ h
  | eps | look | behind | bos | eos | wordb => cases h; simp

/-- The text of a captured group is not empty when all bodies of the group need a character. -/
theorem MatchOk.group_ne_nil [UnicodeDB] {r : Re} {pre post : Str} {m : Match} (hm : MatchOk r pre post m) {g : Nat}
    {x : Str} (h : m.group g = some x) (hg : (r.groups.all fun b => b.1 != g || 0 < b.2.minLen) = true) : x ≠ [] := by
  obtain ⟨body, hb, hl⟩ := hm.group_lang h
  have := List.all_eq_true.1 hg _ hb
  simp at this
  have h2 := lang_minLen _ _ hl
  rintro rfl
  simp at h2
  omega

/-! ### The pieces of a scan, for patterns that cannot match the empty text -/

/-- How a scan cuts a text: a character is left alone only if nothing matches there. -/
inductive Scanned [UnicodeDB] (r : Re) : Str → Str → List Piece → Prop
  | nil (pre : Str) : Scanned r pre [] []
  | ch {pre c t ps} : matchHere r false pre (c :: t) = none → Scanned r (c :: pre) t ps →
      Scanned r pre (c :: t) (.ch c :: ps)
  | hit {pre t ps} {m : Match} : matchHere r false pre (m.txt ++ t) = some m → m.txt ≠ [] →
      Scanned r (m.txt.reverse ++ pre) t ps → Scanned r pre (m.txt ++ t) (.hit m :: ps)

theorem scanGo_skip [UnicodeDB] (r : Re) (w pre t : Str) :
    scanGo r w.length pre (w ++ t) = scanGo r 0 (w.reverse ++ pre) t := by
  induction w generalizing pre with
  | nil => rfl
  | cons c w ih => simp only [List.length_cons, List.cons_append, scanGo, ih]; simp

theorem scan_scanned [UnicodeDB] {r : Re} (hr : 0 < r.minLen) (pre post : Str) :
    Scanned r pre post (scanGo r 0 pre post) := by
  generalize hn : post.length = n
  induction n using Nat.strongRecOn generalizing pre post with
  | ind n ih =>
    have hne : ∀ {m : Match}, matchHere r false pre post = some m → m.txt ≠ [] := by
      intro m h h0
      have := lang_minLen _ _ (matchHere_ok h).1.lang
      rw [h0] at this; simp at this; omega
    cases post with
    | nil =>
      have : scanGo r 0 pre [] = [] := by
        simp only [scanGo]
        cases h : matchHere r false pre [] with
        | none => rfl
        | some m =>
          obtain ⟨rest, hs⟩ := (matchHere_ok h).1.split
          have hs' : m.txt = [] := by
            have := congrArg List.length hs; simp at this; exact List.eq_nil_of_length_eq_zero (by omega)
          exact absurd hs' (hne h)
      rw [this]; exact .nil pre
    | cons c t =>
      simp only [scanGo]
      cases h : matchHere r false pre (c :: t) with
      | none => exact .ch h (ih t.length (by rw [← hn]; simp) _ _ rfl)
      | some m =>
        have h0 := hne h
        have h0' : m.txt.isEmpty = false := by simpa using h0
        simp only [h0', Bool.false_eq_true, if_false]
        obtain ⟨rest, hs⟩ := (matchHere_ok h).1.split
        cases hm : m.txt with
        | nil => exact absurd hm h0
        | cons d w =>
          rw [hm, List.cons_append] at hs
          injection hs with h1 h2
          subst h1 h2
          have hsk := scanGo_skip r w (c :: pre) rest
          have hlen : (c :: w).length - 1 = w.length := rfl
          rw [hlen, hsk]
          have h' : matchHere r false pre (m.txt ++ rest) = some m := by rw [hm]; exact h
          have hrec := ih rest.length (by rw [← hn]; simp; omega) (m.txt.reverse ++ pre) rest rfl
          have := Scanned.hit h' h0 hrec
          rw [hm] at this
          simpa using this

/-- `r.sub("", s)` deletes texts in the language of `r` and nothing else; a character is kept
only where `r` does not match. -/
theorem scan_scanned' [UnicodeDB] {r : Re} (hr : 0 < r.minLen) (s : Str) : Scanned r [] s (scan r s) :=
  scan_scanned hr [] s

end Py
