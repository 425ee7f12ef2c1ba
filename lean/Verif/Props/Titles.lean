import Verif.Lemmas.Titles
import Verif.Py.Sample

/-!
# Properties of titles and their knowledge base
-/

open Py Spec

namespace Props

/-! ### C28: recognised titles -/

/-- **C28**, for knowledge bases whose titles are not empty and have no underscore: recognition
never raises; every recorded title really stands at its position in the line; no two recorded titles
overlap; the working line is the line with exactly the recorded titles overwritten, so its length and
all other positions stay; and a title that stands alone in the line is recorded unless it meets a
recorded title that is at least as long. The hypothesis cannot be dropped, see `C28_empty`. -/
theorem C28_partial [UnicodeDB] (pairs : List (Str × Str)) (line : Str)
    (hk : ∀ t ∈ (buildJournals pairs).keys, t ≠ [] ∧ '_' ∉ t) :
    ∃ st, identifyJournals line (buildJournals pairs).pats (buildJournals pairs).keys = .ok st ∧
      (∀ p ∈ st.found, p.2 ∈ (buildJournals pairs).keys ∧ StandsAt p.2 line p.1) ∧ Disjoint st.found ∧
      Overwritten st.found line st.line ∧
      ∀ t ∈ (buildJournals pairs).keys, (∃ x t', t = x :: t' ∧ isWord x = true) → ∀ i, Alone t line i →
        ∃ p ∈ st.found, t.length ≤ p.2.length ∧ p.1 ≤ i + t.length ∧ i ≤ p.1 + p.2.length := by
  have h0 : TitlesOk line ⟨[], line, []⟩ :=
    ⟨⟨rfl, fun k _ hc => by (obtain ⟨p, hp, -⟩ := hc; cases hp), fun k _ => rfl⟩, by simp, .nil⟩
  obtain ⟨st, h1, h2, ⟨new, h3, h4⟩, h5⟩ := identifyJournals_ok (buildJournals pairs).keys _ h0
    (fun t ht => ⟨(hk t ht).1, (hk t ht).2, buildJournals_pats pairs t ht⟩) (buildJournals_sorted pairs) (by simp)
  refine ⟨st, h1, fun p hp => ⟨?_, ?_⟩, h2.disjoint, h2.over, h5⟩
  · rw [h3] at hp; exact h4 p hp
  · exact atPos_stands (h2.stands p hp).2.2 (h2.stands p hp).1

example : (@buildJournals asciiDB [(py! "Phys. Rev.", py! "Phys.Rev."), (py! "PHYS REV LETT", py! "Phys.Rev.Lett.")]).keys =
      [py! "PHYS REV LETT", py! "PHYS  REV ", py! "PHYS REV"] ∧
    (@identifyJournals asciiDB (py! "SEE PHYS REV LETT 3 AND PHYS REV 7")
      (@buildJournals asciiDB [(py! "Phys. Rev.", py! "Phys.Rev."), (py! "PHYS REV LETT", py! "Phys.Rev.Lett.")]).pats
      (@buildJournals asciiDB [(py! "Phys. Rev.", py! "Phys.Rev."), (py! "PHYS REV LETT", py! "Phys.Rev.Lett.")]).keys).map (·.found) =
      .ok [(4, py! "PHYS REV LETT"), (24, py! "PHYS REV")] := by decide +kernel

/-- A replacement term without letters or digits becomes an empty title. It is found at the position
of a title that was recorded before, and that title is forgotten although its text is overwritten. -/
theorem C28_empty : (@identifyJournals asciiDB (py! "IN FOO 12")
      (@buildJournals asciiDB [(py! "FOO", py! "...")]).pats (@buildJournals asciiDB [(py! "FOO", py! "...")]).keys).map
        (fun st => (st.found, st.line)) =
    .ok ([(3, []), (2, []), (6, [])], py! "IN ___ 12") := by decide +kernel

/-! ### C29: report numbers and ibids -/

/-- **C29**, report numbers, for patterns that do not match the empty text: every recorded position
and length lie inside the line and are overwritten by as many underscores; all other characters stay
where they were, except that slashes have become blanks. Each recorded text begins with the standard
category of one of the patterns. -/
theorem C29_reports [UnicodeDB] (kbs : TagKbs) (hp : ∀ p ∈ kbs.reportPats, 0 < p.2.minLen) (line : Str) (st : Repnums)
    (h : identifyRepnums line kbs = .ok st) :
    st.line.length = line.length ∧ st.lens.map (·.1) = st.repls.map (·.1) ∧ (st.lens.map (·.1)).Nodup ∧
    (∀ p ∈ st.lens, p.1 + p.2 ≤ line.length ∧ ∀ k, p.1 ≤ k → k < p.1 + p.2 → st.line[k]? = some '_') ∧
    (∀ k < line.length, st.line[k]? = some '_' ∨ st.line[k]? = (line.map fun c => if c = '/' then ' ' else c)[k]?) ∧
    ∀ p ∈ st.repls, ∃ q ∈ kbs.reportStd, ∃ x, p.2 = q.2 ++ x := by
  have h0 : RepsOk kbs.reportStd (replace line ['/'] [' ']) ⟨[], [], replace line ['/'] [' ']⟩ :=
    ⟨rfl, rfl, .nil, by simp, fun _ _ => .inr rfl, by simp⟩
  have hk : RepsOk kbs.reportStd (replace line ['/'] [' ']) st :=
    foldlM_keeps (P := RepsOk kbs.reportStd (replace line ['/'] [' '])) h h0 fun b a c _ hb hc => repnumCateg_ok hp hb hc
  rw [replace_char] at hk
  obtain ⟨h1, h2, h3, h4, h5, h6⟩ := hk
  simp only [List.length_map] at h1 h4 h5
  exact ⟨h1, h2, h3, h4, h5, h6⟩

/-- A pattern as built for a category `CERN TH` with the mask `9999`, for the example. -/
def sampleReports : TagKbs :=
  { journalPats := [], journalStd := [], journalKeys := [], journalsRe := [], publishers := [], authors := [], collaborations := []
    reportPats := [((3, py! "CERN TH"), .alt .bos (.set ⟨true, false, [.word]⟩) ⬝ .group 1 (.group 2 (.str (py! "CERN TH")) ⬝
      .group G.numn (Re.opt (Re.ch ' ') ⬝ Re.times 4 Re.digit)))]
    reportStd := [((3, py! "CERN TH"), py! "CERN-TH-")] }

example : @identifyRepnums asciiDB (py! "SEE CERN TH 1234/CERN TH5678") sampleReports =
    .ok ⟨[(4, 12), (17, 11)], [(4, py! "CERN-TH--1234"), (17, py! "CERN-TH-5678")], py! "SEE ____________ ___________"⟩ := by decide +kernel

/-- **C29**, ibids: every recorded text reads `ibid.` and really stands at its position, no two of
them overlap, and the working line is the line with exactly the recorded texts overwritten. -/
theorem C29_ibids [UnicodeDB] (line : Str) :
    (∀ p ∈ (identifyIbids line).1, ReadsIbid p.2 ∧ StandsAt p.2 line p.1) ∧
    Disjoint (identifyIbids line).1 ∧ Overwritten (identifyIbids line).1 line (identifyIbids line).2 := by
  obtain ⟨h1, h2, h3⟩ := identifyIbids_ok line
  refine ⟨fun p hp => ?_, h2, h3⟩
  obtain ⟨hne, hat, b, hsem⟩ := h1 p hp
  refine ⟨?_, atPos_stands hat hne⟩
  obtain ⟨x, _, e, hx, _, _, rfl, rfl, y, z, rfl, hy, hz⟩ := hsem
  refine ⟨x, y, z, by rw [e]; simp, ?_, ?_, ?_⟩
  · rcases hx with (hx | ⟨rfl, -⟩) | rfl
    · exact .inr (sem_ch.1 hx)
    · exact .inl rfl
    · exact .inl rfl
  · rcases hy with rfl | rfl
    · exact .inr rfl
    · exact .inl rfl
  · rcases hz with hz | rfl
    · exact .inr (sem_ch.1 hz)
    · exact .inl rfl

example : @identifyIbids asciiDB (py! "X 12 -IBIDEM 34 IBID. 5") =
    ([(5, py! "-IBIDEM"), (16, py! "IBID.")], py! "X 12 _______ 34 _____ 5") := by decide +kernel

/-! ### C44: the knowledge base of journals -/

/-- **C44.** Every search term has a pattern and a standard title, longer terms come first, every
search term given and every replacement term, in the form in which it is compared with a line, is a
search term. When two pairs have the same search term the last one counts. The rest of the full
statement is in `C44_partial` and is refuted in general by `C44_repeated`. -/
theorem C44_terms [UnicodeDB] (pairs : List (Str × Str)) :
    (∀ t, (dget (buildJournals pairs).pats t).isSome ↔ t ∈ (buildJournals pairs).keys) ∧
    (∀ t, (dget (buildJournals pairs).std t).isSome ↔ t ∈ (buildJournals pairs).keys) ∧
    (buildJournals pairs).keys.Pairwise (fun a b => b.length ≤ a.length) ∧
    (∀ p ∈ pairs, searchTerm p.1 ∈ (buildJournals pairs).keys) ∧
    (∀ p ∈ pairs, ∃ t ∈ (buildJournals pairs).keys, PlainTitle p.2 t) ∧
    (∀ t ∈ (buildJournals pairs).keys, (∃ p ∈ pairs, searchTerm p.1 = t) ∨ ∃ p ∈ pairs, PlainTitle p.2 t) ∧
    (∀ a p b, pairs = a ++ p :: b → (∀ q ∈ b, searchTerm q.1 ≠ searchTerm p.1) →
      dget (buildJournals pairs).std (searchTerm p.1) = some p.2) := by
  have hk0 : KbOk ⟨[], [], []⟩ := ⟨by simp [dget], by simp [dget]⟩
  have hk1 := kbOk_seek pairs _ hk0
  have hk2 := kbOk_repl (replTerms pairs) _ hk1
  obtain ⟨⟨new, n1, n2, n3⟩, h2, h3, h4⟩ := repl_keeps (replTerms pairs) _ hk1
  have hkeys : ∀ t, t ∈ (buildJournals pairs).keys ↔ t ∈ ((replTerms pairs).foldl replStep (pairs.foldl seekStep ⟨[], [], []⟩)).keys :=
    fun t => (sortBy_perm _).mem_iff
  have hseek := seek_keys pairs ⟨[], [], []⟩
  have hmem : ∀ p ∈ pairs, searchTerm p.1 ∈ (pairs.foldl seekStep ⟨[], [], []⟩).keys := by
    intro p hp
    rw [hseek]
    exact List.mem_append_right _ (List.mem_map.2 ⟨p, hp, seekPhrase_eq _⟩)
  refine ⟨fun t => ?_, fun t => ?_, buildJournals_sorted pairs, fun p hp => ?_, fun p hp => ?_, fun t ht => ?_, ?_⟩
  · rw [hkeys]; exact hk2.pats t
  · rw [hkeys]; exact hk2.std t
  · rw [hkeys, n1]; exact List.mem_append_left _ (hmem p hp)
  · exact ⟨replPhrase p.2, (hkeys _).2 (h3 _ (replTerms_mem.2 ⟨p, hp, rfl⟩)), replPhrase_plain _⟩
  · rw [hkeys, n1] at ht
    rcases List.mem_append.1 ht with ht | ht
    · rw [hseek] at ht
      rw [List.nil_append] at ht
      obtain ⟨p, hp, e⟩ := List.mem_map.1 ht
      exact .inl ⟨p, hp, by rw [← seekPhrase_eq]; exact e⟩
    · obtain ⟨r, hr, e⟩ := (n3 t ht).2
      obtain ⟨p, hp, e'⟩ := replTerms_mem.1 hr
      exact .inr ⟨p, hp, by rw [← e, e']; exact replPhrase_plain _⟩
  · intro a p b e hb
    have hp : p ∈ pairs := by rw [e]; simp
    show dget ((replTerms pairs).foldl replStep (pairs.foldl seekStep ⟨[], [], []⟩)).std _ = _
    rw [h2 _ ((hk1.std _).2 (hmem p hp)), seek_std]
    have : (pairs.reverse.find? fun q => seekPhrase q.1 == searchTerm p.1) = some p := by
      rw [e, List.reverse_append, List.reverse_cons, List.append_assoc, List.find?_append, List.find?_append]
      have : b.reverse.find? (fun q => seekPhrase q.1 == searchTerm p.1) = none := by
        rw [List.find?_eq_none]
        intro q hq
        rw [seekPhrase_eq]
        simpa using hb q (by simpa using hq)
      rw [this]
      simp [seekPhrase_eq]
    rw [this]; rfl

/-- **C44**, when no two pairs have the same search term: the search terms are distinct and each has
the standard title given with it. -/
theorem C44_partial [UnicodeDB] (pairs : List (Str × Str)) (h : (pairs.map fun p => searchTerm p.1).Nodup) :
    (buildJournals pairs).keys.Nodup ∧ ∀ p ∈ pairs, dget (buildJournals pairs).std (searchTerm p.1) = some p.2 := by
  have hk1 := kbOk_seek pairs ⟨[], [], []⟩ ⟨by simp [dget], by simp [dget]⟩
  obtain ⟨⟨new, n1, n2, n3⟩, -⟩ := repl_keeps (replTerms pairs) _ hk1
  constructor
  · refine (sortBy_perm _).nodup_iff.2 ?_
    rw [n1, seek_keys]
    have e : (pairs.map fun p => seekPhrase p.1) = pairs.map fun p => searchTerm p.1 := by simp [seekPhrase_eq]
    refine List.nodup_append.2 ⟨by rw [e]; simpa using h, n2, ?_⟩
    rintro x hx y hy rfl
    refine (n3 x hy).1 ?_
    rw [seek_keys]; exact hx
  · intro p hp
    obtain ⟨a, b, e⟩ := List.append_of_mem hp
    refine (C44_terms pairs).2.2.2.2.2.2 a p b e fun q hq he => ?_
    rw [e, List.map_append, List.map_cons] at h
    exact (List.nodup_cons.1 (List.nodup_append.1 h).2.1).1 (he ▸ List.mem_map_of_mem (f := fun p => searchTerm p.1) hq)

example : @buildJournals asciiDB [(py! "J. X", py! "J.X"), (py! "JX", py! "J.X"), (py! "A", py! "Ann.Ph.")] =
    ⟨[(py! "J  X", seekRe (py! "J  X")), (py! "JX", seekRe (py! "JX")), (py! "A", seekRe (py! "A")), (py! "J X", replRe (py! "J X")),
        (py! "ANN PH", replRe (py! "ANN PH"))],
      [(py! "J  X", py! "J.X"), (py! "JX", py! "J.X"), (py! "A", py! "Ann.Ph."), (py! "J X", py! "J.X"), (py! "ANN PH", py! "Ann.Ph.")],
      [py! "ANN PH", py! "J  X", py! "J X", py! "JX", py! "A"]⟩ := by decide +kernel

/-- The hypothesis of `C44_partial` cannot be dropped: two pairs for one search term, after
simplification, give the term twice and only the last standard title. -/
theorem C44_repeated : (@buildJournals asciiDB [(py! "J.X", py! "Journal of X"), (py! "j x", py! "Jahrbuch X")]).keys =
      [py! "JOURNAL OF X", py! "JAHRBUCH X", py! "J X", py! "J X"] ∧
    dget (@buildJournals asciiDB [(py! "J.X", py! "Journal of X"), (py! "j x", py! "Jahrbuch X")]).std (py! "J X") =
      some (py! "Jahrbuch X") := by decide +kernel

end Props
