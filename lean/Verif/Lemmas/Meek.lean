import Verif.Lemmas.Occurs
import Verif.Lemmas.NoLt
import Verif.Lemmas.Journal
import Verif.Lemmas.Tag

/-!
# Rebuilding the line brings no tags for DOIs and URLs
-/

open Py Spec
open scoped List

namespace Py

variable [UnicodeDB] {uni : Str → Str} {spell : Char → Str} {w : Str}

/-- The tags that are counted. -/
def CountedTag (w : Str) : Prop := w = py! "cds.DOI" ∨ w = py! "cds.URL"

omit [UnicodeDB] in
/-- The texts that are checked. -/
def sealTags : List Str :=
  [py! "<cds.JOURNAL>", py! "</cds.JOURNAL>", py! " <cds.JOURNALibid>", py! "</cds.JOURNALibid>", py! "<cds.REPORTNUMBER>", py! "</cds.REPORTNUMBER>",
   py! "<cds.PUBLISHER>", py! "</cds.PUBLISHER>", py! " <cds.VOL>", py! "<cds.VOL>", py! "</cds.VOL>", py! " <cds.YR>(", py! ")</cds.YR>", py! " <cds.PG>", py! "</cds.PG>"]

theorem seal_tag (S : Spelled uni spell) (hw : CountedTag w) {i : Str} (h : i ∈ sealTags) : Seal spell w i := by
  refine seal_of S ?_
  rcases hw with rfl | rfl
  · have : ∀ i ∈ sealTags, sealB (py! "cds.DOI") i = true := by decide
    exact this i h
  · have : ∀ i ∈ sealTags, sealB (py! "cds.URL") i = true := by decide
    exact this i h

/-! ### Numeration -/

/-- The text, if any, is not spelled with `<`. -/
def OptPlain (spell : Char → Str) (x : Option Str) : Prop := ∀ s, x = some s → NoAngle spell s

omit [UnicodeDB] in
theorem optPlain_orElse {a b : Option Str} (ha : OptPlain spell a) (hb : OptPlain spell b) : OptPlain spell (orElse a b) := by
  rcases orElse_cases a b with ⟨-, e⟩ | ⟨-, e⟩ <;> rw [e] <;> assumption

theorem optPlain_show (S : Spelled uni spell) {a : Option Str} (ha : OptPlain spell a) : NoAngle spell (showVal a) := by
  cases a with
  | none => exact plain_ascii S (by decide) (by decide)
  | some s => exact ha s rfl

/-- The parts of the numeration are not spelled with `<`. -/
structure NumPlain (spell : Char → Str) (n : Numeration) : Prop where
  year : OptPlain spell n.year
  series : OptPlain spell n.series
  volume : OptPlain spell n.volume
  page : OptPlain spell n.page
  pageEnd : OptPlain spell n.pageEnd

theorem noAngle_upper (S : Spelled uni spell) {s : Str} (h : NoAngle spell s) : NoAngle spell (upper s) := by
  intro d hd
  obtain ⟨c, hc, hd⟩ := List.mem_flatMap.1 hd
  exact S.upper c (h c hc) d hd

theorem group_noAngle {gs : List Nat} {r : Re} (hr : r.groupsNoLt gs = true) {pre post : Str} {m : Match} (hm : MatchOk r pre post m)
    (ht : Tame spell (pre.reverse ++ post)) {g : Nat} (hg : g ∈ gs) : OptPlain spell (m.group g) := by
  intro x hx
  obtain ⟨h1, h2⟩ := group_plain hr hm hg hx
  exact (ht.of_sub h2).plain h1

/-- The groups of a numeration. -/
def numGroups : List Nat := [G.year, G.series, G.vol, G.vol_num, G.vol_num_alt, G.vol_num_alt2, G.page, G.jinst_page, G.page_end]

theorem series_plain (S : Spelled uni spell) {v : Str} (hv : NoAngle spell v) : OptPlain spell (extractSeries v) := by
  unfold extractSeries
  have key : ∀ {r : Re} {m : Match}, r.groupsNoLt [1] = true → search r v = some m → OptPlain spell ((m.group 1).map upper) := by
    intro r m hr hm x hx
    obtain ⟨pre, post, e, hok⟩ := finditer_ok (search_mem hm)
    obtain ⟨y, hy, rfl⟩ := Option.map_eq_some_iff.1 hx
    exact noAngle_upper S (group_noAngle hr hok (by rw [List.reverse_reverse, ← List.append_assoc, ← e]; exact hv.tame) (by simp) y hy)
  split
  · next m hm => exact key (by decide +kernel) hm
  · split
    · next m hm => exact key (by decide +kernel) hm
    · intro x hx; cases hx

omit [UnicodeDB] in
theorem volumeGroup_plain {m : Match} (h : ∀ g ∈ numGroups, OptPlain spell (m.group g)) : OptPlain spell (volumeGroup m) :=
  optPlain_orElse (optPlain_orElse (h _ (by simp [numGroups])) (h _ (by simp [numGroups]))) (h _ (by simp [numGroups]))

omit [UnicodeDB] in
theorem page_plain {m : Match} (h : ∀ g ∈ numGroups, OptPlain spell (m.group g)) : OptPlain spell (orElse (m.group G.page) (m.group G.jinst_page)) :=
  optPlain_orElse (h _ (by simp [numGroups])) (h _ (by simp [numGroups]))

theorem findNumeration_plain (S : Spelled uni spell) {line : Str} (ht : Tame spell line) {n : Numeration} (h : findNumeration line = .ok (some n)) :
    NumPlain spell n := by
  unfold findNumeration at h
  split at h
  · cases h
  · next m hm =>
    obtain ⟨r, hr, hm⟩ := List.exists_of_findSome?_eq_some hm
    have hg : ∀ r ∈ numerationPatterns, r.groupsNoLt numGroups = true := by decide +kernel
    have hok := reMatch_ok hm
    have key : ∀ g ∈ numGroups, OptPlain spell (m.group g) := fun g hgm => group_noAngle (hg r hr) hok (by simpa using ht) hgm
    have mk : ∀ {s : Option Str}, OptPlain spell s → NumPlain spell
        { year := m.group G.year, series := s, volume := volumeGroup m, page := orElse (m.group G.page) (m.group G.jinst_page),
          pageEnd := m.group G.page_end, len := m.stop } :=
      fun hs => ⟨key _ (by simp [numGroups]), hs, volumeGroup_plain key, page_plain key, key _ (by simp [numGroups])⟩
    unfold numerationOf at h
    dsimp only at h
    split at h
    · next c s hs =>
      cases h
      exact mk (fun x hx => by cases hx; exact key _ (by simp [numGroups]) _ hs)
    · split at h
      · next v hv =>
        cases h
        exact mk (series_plain S (key _ (by simp [numGroups]) _ hv))
      · cases h

theorem findNumerationMore_plain (S : Spelled uni spell) {line : Str} (ht : Tame spell line) {n : Numeration} (h : findNumerationMore line = .ok (some n)) :
    NumPlain spell n := by
  unfold findNumerationMore at h
  split at h
  · cases h
  · next m hm =>
    obtain ⟨r, hr, hm⟩ := List.exists_of_findSome?_eq_some hm
    have hg : ∀ r ∈ numerationPatterns2, r.groupsNoLt numGroups = true := by decide +kernel
    obtain ⟨pre, post, e, hok⟩ := finditer_ok (search_mem hm)
    have key : ∀ g ∈ numGroups, OptPlain spell (m.group g) := fun g hgm => group_noAngle (hg r hr) hok (by rw [List.reverse_reverse, ← List.append_assoc, ← e]; exact ht) hgm
    unfold numerationMoreOf at h
    split at h
    · next v a hv ha =>
      cases h
      exact ⟨key _ (by simp [numGroups]), series_plain S (key _ (by simp [numGroups]) _ hv), volumeGroup_plain key, page_plain key, key _ (by simp [numGroups])⟩
    · cases h

theorem numerationTag_seal (S : Spelled uni spell) (hw : CountedTag w) {n : Numeration} (hn : NumPlain spell n) {tag : Str} (h : numerationTag n = .ok tag) :
    Seal spell w tag := by
  have st : ∀ {i : Str}, i ∈ sealTags → Seal spell w i := fun h => seal_tag S hw h
  have hy : NoAngle spell ['-'] := plain_ascii S (by decide) (by decide)
  have fin : ∀ {vol : Option Str}, OptPlain spell vol →
      (let tags : Str := py! " <cds.VOL>" ++ showVal vol ++ py! "</cds.VOL>"
       let tags : Str := match n.year with
         | some (c :: y) => tags ++ py! " <cds.YR>(" ++ c :: y ++ py! ")</cds.YR>"
         | _ => tags
       match n.pageEnd with
       | some (c :: e) => (pure (tags ++ py! " <cds.PG>" ++ showVal n.page ++ ['-'] ++ c :: e ++ py! "</cds.PG>") : Py Str)
       | _ => pure (tags ++ py! " <cds.PG>" ++ showVal n.page ++ py! "</cds.PG>")) = .ok tag → Seal spell w tag := by
    intro vol hvol h
    have h1 : Seal spell w (py! " <cds.VOL>" ++ showVal vol ++ py! "</cds.VOL>") :=
      ((st (i := py! " <cds.VOL>") (by decide)).text (optPlain_show S hvol)).append (st (by decide))
    have h2 : Seal spell w (match n.year with
      | some (c :: y) => py! " <cds.VOL>" ++ showVal vol ++ py! "</cds.VOL>" ++ py! " <cds.YR>(" ++ c :: y ++ py! ")</cds.YR>"
      | _ => py! " <cds.VOL>" ++ showVal vol ++ py! "</cds.VOL>") := by
      split
      · next c y hy =>
        exact ((h1.append (st (i := py! " <cds.YR>(") (by decide))).text (hn.year _ hy)).append (st (by decide))
      · exact h1
    dsimp only at h
    split at h
    · next c e he =>
      cases h
      exact ((((h2.append (st (i := py! " <cds.PG>") (by decide))).text (optPlain_show S hn.page)).text hy).text (hn.pageEnd _ he)).append (st (by decide))
    · cases h
      exact ((h2.append (st (i := py! " <cds.PG>") (by decide))).text (optPlain_show S hn.page)).append (st (by decide))
  unfold numerationTag at h
  dsimp only at h
  split at h
  · next c s hs =>
    split at h
    · next v hv =>
      refine fin (vol := some (c :: s ++ v)) ?_ h
      intro x hx
      cases hx
      exact (hn.series _ hs).append (hn.volume _ hv)
    · cases h
  · exact fin hn.volume h

end Py
