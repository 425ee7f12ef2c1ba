import Verif.Lemmas.PdfKeys
import Verif.Py.Sample

/-!
# TeX keys and links of a PDF: C50, C51
-/

open Py Spec

namespace Props

variable [UnicodeDB]

/-- **C50.** The TeX keys are those of the citation destinations, one entry each, in reading
order; destinations at the same place keep the order of the file. -/
theorem C50_reading_order (i : PdfInfo) (cites : List (Str × Pos)) (h : Cites i.dests cites)
    (hl : ∀ l ∈ i.links, ∃ p, LinkPlaced l p) :
    ∃ (two : Bool) (sorted : List (Str × Pos)) (r : List (Str × List Str)),
      (two = true ↔ TwoColumns (cites.map (·.2)))
      ∧ sorted.Perm cites ∧ sorted.Pairwise (fun a b => ReadBefore two a.2 b.2)
      ∧ (∀ a b, [a, b].Sublist cites → ReadBefore two a.2 b.2 → [a, b].Sublist sorted)
      ∧ texkeys (.ok i) = .ok r ∧ r.map (·.1) = sorted.map (·.1) := by
  obtain ⟨refs, ps, h1, h2, h3, h4⟩ := citeDests_ok h
  obtain ⟨us, hus⟩ := links_ok hl
  refine ⟨twoColumns [] (ps.map (·.2)), sortPos (twoColumns [] (ps.map (·.2))) cites,
    (sortPos (twoColumns [] (ps.map (·.2))) cites).map (·.1) |>.zip
      ((assignLinks (twoColumns [] (ps.map (·.2))) (sortPos (twoColumns [] (ps.map (·.2))) us)
        ((sortPos (twoColumns [] (ps.map (·.2))) ps).map (·.2))).map linkSet), ?_, sortPos_perm _ _,
    sortPos_sorted _ _, fun a b => sortPos_stable _, ?_, ?_⟩
  · rw [twoColumns_iff, h4]
  · rw [texkeys_eq h1 h2 hus h3]
  · rw [List.map_fst_zip]
    have : (sortPos (twoColumns [] (ps.map (·.2))) cites).length = (sortPos (twoColumns [] (ps.map (·.2))) ps).length := by
      have := congrArg List.length h4
      rw [(sortPos_perm _ _).length_eq, (sortPos_perm _ _).length_eq]
      simpa using this.symm
    simp [assignLinks_length, this]

/-- A small file: a destination that is no citation, and two citations of which the second is
further up. -/
example : @texkeys asciiDB (.ok ⟨[(.text (py! "section.1"), ⟨.ok (0, 600), some 50, some 700⟩),
      (.text (py! "cite.Low:1999"), ⟨.ok (0, 600), some 50, some 200⟩),
      (.text (py! "cite.High:2001"), ⟨.ok (0, 600), some 50, some 500⟩)], []⟩)
    = .ok [(py! "High:2001", []), (py! "Low:1999", [])] := by decide +kernel

/-- **C50.** Otherwise the list is empty: a non-empty list of TeX keys means that all citation
destinations and all links were located. -/
theorem C50_or_empty (info : Py PdfInfo) (r : List (Str × List Str)) (h : texkeys info = .ok r) (hr : r ≠ []) :
    ∃ i cites, info = .ok i ∧ Cites i.dests cites ∧ ∀ l ∈ i.links, ∃ p, LinkPlaced l p := by
  unfold texkeys at h
  cases info with
  | error => cases h; exact absurd rfl hr
  | ok i =>
    dsimp only at h
    cases hc : citeDests i.dests with
    | error e => rw [hc] at h; cases h
    | ok refs =>
      rw [hc] at h
      dsimp only at h
      cases hb : texkeysBody refs i.links with
      | error e => rw [hb] at h; cases h; exact absurd rfl hr
      | ok r' =>
        obtain ⟨h1, h2⟩ := texkeysBody_ok hb
        obtain ⟨cites, hcites⟩ := cites_of hc h2
        exact ⟨i, cites, rfl, hcites, h1⟩

/-- A citation without coordinates: nothing is returned. -/
example : @texkeys asciiDB (.ok ⟨[(.text (py! "cite.Low:1999"), ⟨.ok (0, 600), none, some 200⟩)], []⟩) = .ok [] := by
  decide +kernel

/-- **C50.** The call raises only for a destination name that is not valid UTF-8. -/
theorem C50_total (info : Py PdfInfo) (e : PyErr) (h : texkeys info = .error e) :
    ∃ i d, info = .ok i ∧ (DestKey.bytes none, d) ∈ i.dests := by
  unfold texkeys at h
  cases info with
  | error => cases h
  | ok i =>
    refine ⟨i, ?_⟩
    dsimp only at h
    cases hc : citeDests i.dests with
    | error e' =>
      obtain ⟨d, hd⟩ := citeDests_error hc
      exact ⟨d, rfl, hd⟩
    | ok refs =>
      rw [hc] at h
      dsimp only at h
      split at h <;> cases h

example : @texkeys asciiDB (.ok ⟨[(.bytes none, ⟨.ok (0, 600), some 50, some 200⟩)], []⟩) = .error .valueError := by
  decide +kernel

/-- **C51**, the part that holds: in a bibliography on one page and in one column, a link that is
not exactly at the height of a reference is attached to at most one reference. Links are told
apart by their targets. Missing: bibliographies over several pages, see `C51_counterexample`, and
links at the height of a reference, see `C51_same_height`. -/
theorem C51_partial (i : PdfInfo) (cites : List (Str × Pos)) (h : Cites i.dests cites) (page : Nat) (col : Int)
    (hone : ∀ c ∈ cites, c.2.page = page ∧ c.2.col = col)
    (hne : ∀ l ∈ i.links, ∀ p, LinkPlaced l p → ∀ c ∈ cites, p.y ≠ c.2.y)
    (hu : (i.links.map (·.uri)).Nodup) (r : List (Str × List Str)) (hr : texkeys (.ok i) = .ok r) :
    r.Pairwise fun a b => ∀ u ∈ a.2, u ∉ b.2 := by
  by_cases hnil : r = []
  · rw [hnil]
    exact .nil
  obtain ⟨i', _, hi, -, hl⟩ := C50_or_empty _ r hr hnil
  cases hi
  obtain ⟨refs, ps, h1, h2, h3, h4⟩ := citeDests_ok h
  obtain ⟨us, hus⟩ := links_ok hl
  obtain ⟨hu1, hu2⟩ := links_placed hus
  rw [texkeys_eq h1 h2 hus h3] at hr
  cases hr
  apply pairwise_zip_snd (R := fun a b => ∀ u ∈ a, u ∉ b)
  rw [List.pairwise_map]
  have hpos : ∀ p ∈ (sortPos (twoColumns [] (ps.map (·.2))) ps).map (·.2), ∃ c ∈ cites, p = c.2 := by
    intro p hp
    have : p ∈ ps.map (·.2) := ((sortPos_perm _ _).map _).mem_iff.1 hp
    rw [h4] at this
    obtain ⟨c, hc, rfl⟩ := List.mem_map.1 this
    exact ⟨c, hc, rfl⟩
  have hdis := assignLinks_disjoint (two := twoColumns [] (ps.map (·.2)))
    (refs := (sortPos (twoColumns [] (ps.map (·.2))) ps).map (·.2))
    (urls := sortPos (twoColumns [] (ps.map (·.2))) us)
    (fun a ha b hb => by
      obtain ⟨c, hc, rfl⟩ := hpos a ha
      obtain ⟨d, hd, rfl⟩ := hpos b hb
      have := hone c hc
      have := hone d hd
      omega)
    (by
      rw [List.pairwise_map]
      refine (sortPos_sorted (twoColumns [] (ps.map (·.2))) ps).imp_of_mem fun {a b} ha hb hab => ?_
      obtain ⟨c, hc, hac⟩ := hpos a.2 (List.mem_map_of_mem ha)
      obtain ⟨d, hd, hbd⟩ := hpos b.2 (List.mem_map_of_mem hb)
      have e1 := hone c hc
      have e2 := hone d hd
      rw [← hac] at e1
      rw [← hbd] at e2
      unfold ReadBefore at hab
      split at hab <;> omega)
    (fun u hu' a ha => by
      obtain ⟨l, hl, hp⟩ := hu2 u ((sortPos_perm _ _).mem_iff.1 hu')
      obtain ⟨c, hc, rfl⟩ := hpos a ha
      exact hne l hl u.2 hp c hc)
  refine hdis.imp_of_mem fun {s t} hs ht hst x hx hx' => ?_
  obtain ⟨p, hp⟩ := linkSet_mem hx
  obtain ⟨q, hq⟩ := linkSet_mem hx'
  have hps := (sortPos_perm _ _).mem_iff.1 (assignLinks_sub s hs hp)
  have hqs := (sortPos_perm _ _).mem_iff.1 (assignLinks_sub t ht hq)
  rw [← hu1] at hu
  have := pair_unique hu hps hqs
  subst this
  exact hst _ hp hq

/-- Two references on a page, one link under each. -/
example : @texkeys asciiDB (.ok ⟨[(.text (py! "cite.A"), ⟨.ok (0, 600), some 50, some 500⟩),
      (.text (py! "cite.B"), ⟨.ok (0, 600), some 50, some 300⟩)],
      [⟨py! "http://a", 0, .ok 600, .ok (60, 499)⟩, ⟨py! "http://b", 0, .ok 600, .ok (60, 250)⟩]⟩)
    = .ok [(py! "A", [py! "http://a"]), (py! "B", [py! "http://b"])] := by decide +kernel

omit [UnicodeDB] in
/-- **C51** is false: with four references on two pages, a link on the second page is attached
to a reference of each page. -/
theorem C51_counterexample : ∃ (i : PdfInfo) (l : Link), i.links = [l] ∧
    @texkeys asciiDB (.ok i) = .ok [(py! "A", [l.uri]), (py! "B", []), (py! "C", [l.uri]), (py! "D", [])] :=
  ⟨⟨[(.text (py! "cite.A"), ⟨.ok (0, 600), some 50, some 500⟩), (.text (py! "cite.B"), ⟨.ok (0, 600), some 50, some 300⟩),
      (.text (py! "cite.C"), ⟨.ok (1, 600), some 50, some 500⟩), (.text (py! "cite.D"), ⟨.ok (1, 600), some 50, some 300⟩)],
      [⟨py! "http://a", 1, .ok 600, .ok (60, 400)⟩]⟩, _, rfl, by decide +kernel⟩

omit [UnicodeDB] in
/-- **C51** is false on a single page, too: a link at the height of a reference is attached to it
and to the one before. -/
theorem C51_same_height : ∃ (i : PdfInfo) (l : Link), i.links = [l] ∧
    @texkeys asciiDB (.ok i) = .ok [(py! "A", [l.uri]), (py! "B", [l.uri])] :=
  ⟨⟨[(.text (py! "cite.A"), ⟨.ok (0, 600), some 50, some 500⟩), (.text (py! "cite.B"), ⟨.ok (0, 600), some 50, some 300⟩)],
      [⟨py! "http://a", 0, .ok 600, .ok (60, 300)⟩]⟩, _, rfl, by decide +kernel⟩

end Props
