import Verif.Lemmas.ReSem
import Verif.Lemmas.ReSyn

/-!
# Where captured groups lie
-/

namespace Py

/-- The text last captured by a group. -/
def St.cap (t : St) (g : Nat) : Option Str := (t.caps.find? (·.g == g)).map (·.txt)

/-- `t` is reached from `s` by matching `r` on `w`. -/
structure Step [UnicodeDB] (r : Re) (s t : St) (w : Str) : Prop where
  post : s.post = w ++ t.post
  pre : t.pre = w.reverse ++ s.pre
  sem : Sem r s.pre w t.post
  cap : ∀ g, g ∉ r.groups.map (·.1) → t.cap g = s.cap g

theorem run_step [UnicodeDB] {r : Re} {s t : St} (h : t ∈ run r s) : ∃ w, Step r s t w := by
  obtain ⟨w, h1, h2, h3⟩ := (sem_both r).1 s.pre s.post s.caps t (by simpa using h)
  refine ⟨w, h1, h2, h3, fun g hg => ?_⟩
  obtain ⟨w', ha, -, new, hn, hc⟩ := run_sound _ _ _ h
  rw [St.cap, St.cap, hn, List.find?_append]
  have : new.find? (·.g == g) = none := by
    rw [List.find?_eq_none]
    intro c hcn
    obtain ⟨⟨b, hb, -⟩, -⟩ := hc c hcn
    simp only [beq_iff_eq]
    rintro rfl
    exact hg (List.mem_map.2 ⟨_, hb, rfl⟩)
  rw [this]
  rfl

theorem run_seq [UnicodeDB] {a b : Re} {s t : St} : t ∈ run (a ⬝ b) s ↔ ∃ u ∈ run a s, t ∈ run b u := by
  simp [run]

theorem run_alt [UnicodeDB] {a b : Re} {s t : St} : t ∈ run (a ∣∣ b) s ↔ t ∈ run a s ∨ t ∈ run b s := by
  simp [run]

/-- A group captures what its body matches. -/
theorem run_group [UnicodeDB] {g : Nat} {a : Re} {s t : St} (h : t ∈ run (.group g a) s) :
    ∃ w u, u ∈ run a s ∧ Step a s u w ∧ t.pre = u.pre ∧ t.post = u.post ∧ t.cap g = some w ∧
      ∀ g', g' ≠ g → t.cap g' = u.cap g' := by
  simp only [run, List.mem_map] at h
  obtain ⟨u, hu, rfl⟩ := h
  obtain ⟨w, hw⟩ := run_step hu
  refine ⟨w, u, hu, hw, rfl, rfl, ?_, fun g' hg' => ?_⟩
  · simp [St.cap, hw.pre]
  · simp [St.cap, Ne.symm hg']

theorem matchHere_cap [UnicodeDB] {r : Re} {adv : Bool} {pre post : Str} {m : Match}
    (h : matchHere r adv pre post = some m) :
    ∃ t ∈ run r ⟨pre, post, []⟩, post = m.txt ++ t.post ∧ t.pre = m.txt.reverse ++ pre ∧ m.start = pre.length ∧
      ∀ g, m.group g = t.cap g := by
  obtain ⟨t, ht, rfl, -⟩ := matchHere_state h
  obtain ⟨w, hw⟩ := run_step ht
  have : (mkMatch pre t).txt = w := by simp [mkMatch, hw.pre]
  exact ⟨t, ht, by rw [this]; exact hw.post, by rw [this]; exact hw.pre, rfl, fun g => rfl⟩

end Py
