import Verif.Lemmas.Masks
import Verif.Py.Sample

/-!
# Properties of the knowledge base builders
-/

open Py Spec

namespace Props

/-! ### C45: masks of report numbers -/

/-- **C45**, one mask: for masks without quotes and square brackets the tokens are replaced all at
once, as if none of the replacements could see the result of another. -/
theorem C45_tokens [UnicodeDB] (mask : Str) (h1 : '"' ∉ mask) (h2 : ']' ∉ mask) :
    maskToRegex mask = simultaneous maskTable mask := mask_plain h1 h2

example : @maskToRegex asciiDB (py! " yyyyy/mm-9aw+s") = py! " [12]\\d{3}y\\/(0[1-9]|1[0-2])-\\d[A-Za-z]\\w+\\s*" ∧
    simultaneous maskTable (py! " yyyyy/mm-9aw+s") = py! " [12]\\d{3}y\\/(0[1-9]|1[0-2])-\\d[A-Za-z]\\w+\\s*" := by
  decide +kernel

/-- **C45**, distribution: such a mask may be cut anywhere but inside a token. -/
theorem C45_append [UnicodeDB] (a b : Str) (h1 : '"' ∉ a ++ b) (h2 : ']' ∉ a ++ b) (h : NoStraddle maskTable a b) :
    maskToRegex (a ++ b) = maskToRegex a ++ maskToRegex b := by
  simp only [List.mem_append, not_or] at h1 h2
  rw [mask_plain (by simp [h1]) (by simp [h2]), mask_plain h1.1 h2.1, mask_plain h1.2 h2.2]
  exact sim_append (by decide) b a h

/-- Where a mask may not be cut: between `w` and `+`, two `m` or two `y`. -/
theorem C45_cut (a b : Str) (h : ∀ x y, a.getLast? = some x → b.head? = some y →
    ¬ (x = 'w' ∧ y = '+') ∧ ¬ (x = 'm' ∧ y = 'm') ∧ ¬ (x = 'y' ∧ y = 'y')) : NoStraddle maskTable a b := by
  intro p hp x y e hx hy hh
  obtain ⟨⟨a', rfl⟩, ⟨b', rfl⟩⟩ := hh
  obtain ⟨x', x0, rfl⟩ : ∃ x' x0, x = x' ++ [x0] := ⟨x.dropLast, x.getLast hx, (List.dropLast_concat_getLast hx).symm⟩
  obtain ⟨y0, y', rfl⟩ := List.exists_cons_of_ne_nil hy
  have := h x0 y0 (by simp) (by simp)
  have hadj : ∀ p ∈ maskTable, Adj (fun x y => (x = 'w' ∧ y = '+') ∨ (x = 'm' ∧ y = 'm') ∨ (x = 'y' ∧ y = 'y')) p.1 := by
    simp [maskTable, Adj]
  have h3 := adj_iff.1 (hadj p hp) x' x0 y0 y' (by rw [e]; simp)
  rcases h3 with h3 | h3 | h3
  · exact this.1 h3
  · exact this.2.1 h3
  · exact this.2.2 h3

example : @maskToRegex asciiDB (py! "mm" ++ py! "9") = @maskToRegex asciiDB (py! "mm") ++ @maskToRegex asciiDB (py! "9") :=
  @C45_append asciiDB (py! "mm") (py! "9") (by decide) (by decide) (C45_cut _ _ (by simp))

/-- The cut matters. -/
example : @maskToRegex asciiDB (py! "mm") ≠ @maskToRegex asciiDB (py! "m") ++ @maskToRegex asciiDB (py! "m") := by
  decide +kernel

/-- **C45**, order: the masks are tried from the widest to the narrowest, a class of characters
counting as one character; masks of the same width keep their order. -/
theorem C45_order [UnicodeDB] (masks : List Str) :
    ((orderMasks masks).map (·.2)).Perm masks ∧ (∀ p ∈ orderMasks masks, Width p.2 p.1) ∧
    (orderMasks masks).Pairwise (fun p q => q.1 ≤ p.1) ∧
    ∀ p q, [p, q].Sublist masks → ∀ n, Width p n → Width q n → [p, q].Sublist ((orderMasks masks).map (·.2)) := by
  have hle : ∀ (a b c : Nat × Str), decide (b.1 ≤ a.1) = true → decide (c.1 ≤ b.1) = true → decide (c.1 ≤ a.1) = true := by
    simp; omega
  have hperm := sortBy_perm (le := fun (a b : Nat × Str) => decide (b.1 ≤ a.1))
    (masks.map fun p => ((sub Rx.re_regexp_character_class (fun _ => ['1']) p).length, p))
  refine ⟨?_, ?_, ?_, ?_⟩
  · have := hperm.map (·.2)
    rw [List.map_map, show ((fun x : Nat × Str => x.2) ∘ fun p =>
      ((sub Rx.re_regexp_character_class (fun _ => ['1']) p).length, p)) = id from rfl, List.map_id] at this
    exact this
  · intro p hp
    obtain ⟨q, -, rfl⟩ := List.mem_map.1 (hperm.mem_iff.1 hp)
    exact mask_width q
  · refine (sortBy_sorted (by simp; omega) hle _).imp ?_
    intro p q h
    simpa using h
  · intro p q hs n hp hq
    have h1 := width_unique (mask_width p) hp
    have h2 := width_unique (mask_width q) hq
    have := sortBy_stable hle (a := ((sub Rx.re_regexp_character_class (fun _ => ['1']) p).length, p))
      (b := ((sub Rx.re_regexp_character_class (fun _ => ['1']) q).length, q)) (by simp [h1, h2])
      (hs.map fun p => ((sub Rx.re_regexp_character_class (fun _ => ['1']) p).length, p))
    have h3 := this.map (·.2)
    exact h3

example : (@orderMasks asciiDB [py! "99", py! "[ab ]9", py! " 999", py! "yy"]).map (·.2) =
    [py! " 999", py! "99", py! "[ab ]9", py! "yy"] := by decide +kernel

/-! ### C68: quoted text in masks -/

/-- **C68** does not hold: the letters of a quoted text are taken for tokens before the quotes are
removed. -/
theorem C68_quoted : @maskToRegex asciiDB (py! "\"data\"") = py! "d[A-Za-z]t[A-Za-z]" ∧
    @maskToRegex asciiDB (py! "\"v9\"") = py! "[Vv]\\d" := by decide +kernel

/-- **C68**, for quoted texts without the characters `9 w a v m y s /` and without a closing square
bracket, in a mask without further quotes and closing square brackets: the quoted text is kept as it
is, and the rest of the mask is translated as if it stood alone. -/
theorem C68_partial [UnicodeDB] (a q b : Str) (hq : q ≠ []) (hl : ∀ c ∈ q, c ∉ ['9', 'w', 'a', 'v', 'm', 'y', 's', '/', '"', ']'])
    (ha : '"' ∉ a ∧ ']' ∉ a) (hb : '"' ∉ b ∧ ']' ∉ b) :
    maskToRegex (a ++ '"' :: q ++ '"' :: b) = maskToRegex a ++ q ++ maskToRegex b := mask_quoted hq hl ha hb

example : @maskToRegex asciiDB (py! "99\"TH \"yy") = py! "\\d\\dTH \\d\\d" := by decide +kernel

/-! ### C69: institutes -/

/-- **C69**: in the knowledge base made from a file, every institute that has a category and a mask
has a number of its own, and under that number and the category stand the standard form that the
institute's own lines give, the last one if there are several, and the pattern made of the institute's
own masks. So the same category of two institutes is kept twice. -/
theorem C69 [UnicodeDB] (compile : Str → Py Re) (lines : List Str) (pats : List ((Nat × Str) × Re))
    (std : List ((Nat × Str) × Str)) (h : buildReports compile lines = .ok (pats, std)) :
    ∃ ns : List Nat, ns.Pairwise (· < ·) ∧
      All2 (fun n sec => ∀ c s, LastFor c s sec.1 → dget std (n, c) = some s ∧
        ∃ r, compile (categPattern c (numerationGroup (orderMasks sec.2))) = .ok r ∧ dget pats (n, c) = some r)
      ns ((institutes [] [] ((lines.filter fun l => !startsWith l ['#']).map reportKind)).filter Usable) := by
  unfold buildReports at h
  obtain ⟨k1, h1, h⟩ := bind_ok h
  obtain ⟨k2, h2, h⟩ := bind_ok h
  have h : (k2.pats, k2.std) = (pats, std) := by simpa [pure, Except.pure] using h
  obtain ⟨rfl, rfl⟩ := Prod.mk.inj h
  obtain ⟨ns, i1, -, -, i4⟩ := reports_go compile lines _ _ _ h1 h2
  exact ⟨ns, i1, i4⟩

/-- Two institutes with the same category. -/
def sampleInstitutes : List Str :=
  [py! "# comment\n", py! "*****LANL*****\n", py! "< 9999>\n", py! "REP---REP-L\n", py! "*****CERN*****\n", py! "<-99>\n", py! "REP---REP-C\n"]

example : (@buildReports asciiDB (fun _ => .ok .eps) sampleInstitutes).map (·.2) =
      .ok [((4, py! "REP"), py! "REP-L"), ((6, py! "REP"), py! "REP-C")] ∧
    (institutes [] [] ((sampleInstitutes.filter fun l => !startsWith l ['#']).map (@reportKind asciiDB))).filter Usable =
      [([(py! "REP", py! "REP-L")], [py! " 9999"]), ([(py! "REP", py! "REP-C")], [py! "-99"])] := by decide +kernel

end Props
