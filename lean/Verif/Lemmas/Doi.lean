import Verif.Lemmas.First
import Verif.Lemmas.Tag
import Verif.Spec.Doi

/-!
# Helper lemmas: the text of a DOI is the longest one
-/

namespace Py
open Spec
open scoped List

variable [UnicodeDB]

/-- The last part of the pattern takes as much as possible. -/
theorem first_doiTail {s t : St} {K L : CSet} (hK : ∀ c, K.mem c = true ↔ DoiChar c) (hL : ∀ c, L.mem c = true ↔ (DoiChar c ∧ c ≠ '.'))
    (h : First (Re.plus (.set K) ⬝ .set L) s t) :
    ∃ w, s.post = w ++ t.post ∧ 2 ≤ w.length ∧ (∀ c ∈ w, DoiChar c) ∧ w.getLast? ≠ some '.' ∧
      ∀ e f, t.post = e ++ f → e ≠ [] → (∀ c ∈ e, DoiChar c) → e.getLast? = some '.' := by
  rw [Re.plus, first_assoc] at h
  obtain ⟨u, x, hx, h⟩ := first_seq h
  obtain ⟨v, y, hy, h, hmax⟩ := first_star_seq h
  obtain ⟨z, hz⟩ := h.step
  obtain ⟨a, rfl, ha⟩ := hx.sem
  have hy' := (sem_star_set).1 hy.sem
  obtain ⟨b, rfl, hb⟩ := hz.sem
  refine ⟨[a] ++ y ++ [b], ?_, ?_, ?_, ?_, ?_⟩
  · rw [hx.post, hy.post, hz.post]; simp
  · simp
  · intro c hc
    simp only [List.mem_append, List.mem_singleton] at hc
    rcases hc with (rfl | hc) | rfl
    · exact (hK _).1 ha
    · exact (hK _).1 (hy' c hc)
    · exact ((hL _).1 hb).1
  · rw [List.getLast?_concat]
    exact fun h => ((hL _).1 hb).2 (Option.some.inj h)
  · intro e f he hne hall
    rcases List.eq_nil_or_concat e with rfl | ⟨e', c, rfl⟩
    · exact absurd rfl hne
    · rw [List.concat_eq_append] at *
      rw [List.getLast?_concat]
      by_cases hc : c = '.'
      · rw [hc]
      · exfalso
        have hrun := hmax (b :: e') (c :: f) (by rw [hz.post, he]; simp) (by simp) (by
          intro d hd
          rcases List.mem_cons.1 hd with rfl | hd
          · exact (hK _).2 ((hL _).1 hb).1
          · exact (hK _).2 (hall d (by simp [hd])))
        exact run_nil hrun ⟨[c], f, rfl, ⟨c, rfl, (hL c).2 ⟨hall c (by simp), hc⟩⟩⟩

theorem first_doiBody {s t : St} (h : First doiBody s t) :
    ∃ d w, s.post = w ++ t.post ∧ DoiText w d ∧ ∀ e f, t.post = e ++ f → e ≠ [] → (∀ c ∈ e, DoiChar c) → e.getLast? = some '.' := by
  obtain ⟨w, hw⟩ := h.step
  obtain ⟨d, hd⟩ := sem_doiBody.1 hw.sem
  refine ⟨d, w, hw.post, hd, ?_⟩
  unfold doiBody at h
  obtain ⟨u1, -, -, h⟩ := first_seq h
  obtain ⟨u2, -, -, h⟩ := first_seq h
  obtain ⟨u3, -, -, h⟩ := first_seq h
  obtain ⟨u4, -, -, h⟩ := first_seq h
  obtain ⟨-, -, -, -, -, hmax⟩ := first_doiTail (fun c => by simp [CSet.mem, CItem.mem, DoiChar]) (fun c => by
    by_cases hc : c = '.'
    · subst hc
      have : isWord '.' = false := by rfl
      simp [CSet.mem, CItem.mem, this]
    · simp [CSet.mem, CItem.mem, hc, DoiChar]) h
  exact hmax

omit [UnicodeDB] in
/-- Two texts that go on in the same way, up to the first character of a kind. -/
theorem doi_split {p : Char → Bool} : ∀ {a a' : Str} {x x' : Char} {r r' : Str}, (∀ c ∈ a, p c = false) → (∀ c ∈ a', p c = false) → p x = true → p x' = true →
    a ++ x :: r = a' ++ x' :: r' → a = a' ∧ x = x' ∧ r = r'
  | [], [], _, _, _, _, _, _, _, _, e => by simpa using e
  | [], c :: a', _, _, _, _, _, h, hx, _, e => by
    simp only [List.nil_append, List.cons_append, List.cons.injEq] at e
    have := h c (by simp)
    rw [← e.1, hx] at this
    cases this
  | c :: a, [], _, _, _, _, h, _, _, hx, e => by
    simp only [List.nil_append, List.cons_append, List.cons.injEq] at e
    have := h c (by simp)
    rw [e.1, hx] at this
    cases this
  | c :: a, c' :: a', _, _, _, _, h, h', hx, hx', e => by
    simp only [List.cons_append, List.cons.injEq] at e
    obtain ⟨rfl, e⟩ := e
    obtain ⟨rfl, h1, h2⟩ := doi_split (fun d hd => h d (by simp [hd])) (fun d hd => h' d (by simp [hd])) hx hx' e
    exact ⟨rfl, h1, h2⟩

theorem slash_word : isWord '/' = false := rfl
theorem slash_dec : isDec '/' = false := rfl

/-- What stands in front of the slash of a DOI. -/
theorem doi_stem {ds : Str} {ps : List Str} (h1 : ∀ c ∈ ds, isDec c = true) (h2 : ∀ p ∈ ps, p ≠ [] ∧ ∀ c ∈ p, isWord c = true) :
    ∀ c ∈ py! "10." ++ ds ++ ps.flatMap ('.' :: ·), (c == '/' || c == '%') = false := by
  intro c hc
  rw [Bool.eq_false_iff]
  intro hx
  simp only [Bool.or_eq_true, beq_iff_eq] at hx
  rw [List.mem_append, List.mem_append] at hc
  rcases hc with (hc | hc) | hc
  · rcases hx with rfl | rfl <;> exact absurd hc (by decide)
  · have := h1 _ hc
    rcases hx with rfl | rfl
    · rw [slash_dec] at this; cases this
    · rw [percent_dec] at this; cases this
  · obtain ⟨p, hp, hm⟩ := List.mem_flatMap.1 hc
    rcases List.mem_cons.1 hm with rfl | hm
    · rcases hx with hx | hx <;> exact absurd hx (by decide)
    · have := (h2 p hp).2 _ hm
      rcases hx with rfl | rfl
      · rw [slash_word] at this; cases this
      · rw [percent_word] at this; cases this

/-- Two texts of DOIs in the same place are equal when neither can go on. -/
theorem doiText_unique {w w' d d' r r' : Str} (h : DoiText w d) (h' : DoiText w' d') (hp : '%' ∉ w) (e : w ++ r = w' ++ r')
    (hr : ∀ x y, r = x ++ y → x ≠ [] → (∀ c ∈ x, DoiChar c) → x.getLast? = some '.')
    (hr' : ∀ x y, r' = x ++ y → x ≠ [] → (∀ c ∈ x, DoiChar c) → x.getLast? = some '.') : w = w' ∧ d = d' ∧ d = w := by
  obtain ⟨ds, ps, sl, t, rfl, -, -, d3, hps, hsl, t1, t2, t3, rfl⟩ := h
  obtain ⟨ds', ps', sl', t', rfl, -, -, d3', hps', hsl', t1', t2', t3', rfl⟩ := h'
  have hs : sl = ['/'] := by
    rcases hsl with h | h | h
    · exact h
    · exact absurd (by simp [h]) hp
    · exact absurd (by simp [h]) hp
  subst hs
  obtain ⟨x', sl'', hx', hp'⟩ : ∃ x' q, sl' = x' :: q ∧ (x' == '/' || x' == '%') = true := by
    rcases hsl' with h | h | h
    · exact ⟨_, _, h, by decide⟩
    · exact ⟨_, _, h, by decide⟩
    · exact ⟨_, _, h, by decide⟩
  have e1 := doi_split (p := fun c => c == '/' || c == '%') (x := '/') (x' := x') (r := t ++ r) (r' := sl'' ++ t' ++ r') (doi_stem d3 hps) (doi_stem d3' hps') (by decide) hp' (by
    rw [hx'] at e
    simpa using e)
  obtain ⟨e2, rfl, e3⟩ := e1
  have hs' : sl'' = [] := by
    rcases hsl' with h | h | h
    · rw [hx'] at h; simpa using h
    · rw [hx'] at h; exact absurd (List.cons.inj h).1 (by decide)
    · rw [hx'] at h; exact absurd (List.cons.inj h).1 (by decide)
  subst hs'
  have ht : t = t' := by
    rw [List.nil_append, List.append_eq_append_iff] at e3
    rcases e3 with ⟨x, rfl, rfl⟩ | ⟨x, rfl, rfl⟩
    · by_cases hx : x = []
      · simp [hx]
      · have := hr x r' rfl hx fun c hc => t2' c (by simp [hc])
        exact absurd (by rw [List.getLast?_append, this]; rfl) t3'
    · by_cases hx : x = []
      · simp [hx]
      · have := hr' x r rfl hx fun c hc => t2 c (by simp [hc])
        exact absurd (by rw [List.getLast?_append, this]; rfl) t3
  subst ht
  subst hx'
  refine ⟨by rw [e2], by rw [e2], rfl⟩

end Py
