import Verif.Lemmas.Meek4
import Verif.Lemmas.Built3
import Verif.Lemmas.Complete
import Verif.Props.Parse
import Verif.Props.Places

/-!
# Whole lines without `<` are parsed
-/

open Py Spec
open scoped List

namespace Py

variable [UnicodeDB] {spell : Char → Str}

/-! ### Cleaning -/

theorem noAngle_wash {undesirable : Str → Str} (hu : ∀ s, NoAngle spell s → NoAngle spell (undesirable s))
    (hq : NoAngle spell (py! " ,\"")) {s : Str} (h : NoAngle spell s) : NoAngle spell (washRepair undesirable s) := by
  have q : ∀ c ∈ py! " ,\"", '<' ∉ spell c := hq
  unfold washRepair
  dsimp only
  have h1 : NoAngle spell (repairUrls s) := fun c hc => h c ((repairUrls_sublist s).subset hc)
  have h2 := hu _ h1
  have h3 : NoAngle spell (sub Rx.quoted_comma (fun m => '"' :: (m.group 1).getD [] ++ ['"', ',']) (undesirable (repairUrls s))) := by
    refine sub_all (P := fun c => '<' ∉ spell c) h2 fun m hm c hc => ?_
    simp only [List.cons_append, List.mem_cons, List.mem_append, List.not_mem_nil, or_false] at hc
    rcases hc with rfl | hc | rfl | rfl
    · exact q _ (by decide)
    · cases hg : m.group 1 with
      | none => rw [hg] at hc; cases hc
      | some g => rw [hg] at hc; exact h2 c (group_chars hm hg c hc)
    · exact q _ (by decide)
    · exact q _ (by decide)
  refine sub_all (P := fun c => '<' ∉ spell c) (hu _ h3) fun m _ c hc => ?_
  rw [List.mem_singleton.1 hc]
  exact q _ (by decide)

theorem noAngle_marker {s : Str} (h : NoAngle spell s) : NoAngle spell (removeMarker s).2 := by
  have hl : ∀ {t : Str}, NoAngle spell t → NoAngle spell (lstrip t) := by
    intro t ht c hc
    obtain ⟨a, e, -⟩ := lstrip_split t
    exact ht c (by rw [e]; exact List.mem_append_right _ hc)
  unfold removeMarker
  dsimp only
  split
  · exact hl fun c hc => hl h c (List.mem_of_mem_drop hc)
  · exact hl h

/-! ### Adding up -/

omit [UnicodeDB] in
theorem sumDicts_makes {a b : List (Str × Nat)} (ha : ∀ p ∈ a, p.1 ≠ py! "key") (hb : ∀ p ∈ b, p.1 ≠ py! "key") :
    ∃ d, sumDicts a b = .ok d ∧ ∀ p ∈ d, p.1 ≠ py! "key" := by
  unfold sumDicts
  refine foldlM_makes (P := fun d : List (Str × Nat) => ∀ p ∈ d, p.1 ≠ py! "key") ha fun d p hp hd => ?_
  have hn : dget d (py! "key") = none := by
    cases h : dget d (py! "key") with
    | none => rfl
    | some v => exact absurd rfl (hd _ (dget_mem _ _ _ h))
  refine ⟨dset d p.1 p.2, by simp [hn]; rfl, fun q hq => ?_⟩
  rcases dset_mem hq with hq | rfl
  · exact hd q hq
  · exact hb p hp

/-! ### One line -/

omit [UnicodeDB] in
theorem clean_years {ys : List Str} (h : ∀ y ∈ ys, ∀ c ∈ y, c.isDigit = true) : ∀ y ∈ ys, Clean y := by
  intro y hy c hc
  have := h y hy c hc
  constructor <;> (rintro rfl; revert this; decide)

omit [UnicodeDB] in
theorem plain_rec {kbs : TagKbs} [UnicodeDB] (h : PlainKbs spell kbs) : RecKb spell kbs where
  min := h.reports
  pats := h.reportPats
  numn := h.reportNumbers
  std := h.reportStd
  titles := h.titles
  journalStd := h.journalStd
  journalsRe := h.journalsRe
  publishers := h.publishers

theorem tagLine_makes {lib : Lib} (S : Spelled lib.unidecode spell) (hy : PlainLib lib) {kbs : TagKbs} (hk : PlainKbs spell kbs) {line : Str}
    (hl : NoAngle spell line) {bad : List (Str × Nat)} (hb : ∀ p ∈ bad, p.1 ≠ py! "key") :
    ∃ t bad', tagReferenceLine lib (tagUrls (tagDois lib line).1).1 kbs bad = .ok (t, bad') ∧ (∀ p ∈ bad', p.1 ≠ py! "key") ∧
      occurs (py! "<cds.DOI") t ≤ (tagDois lib line).2.length ∧ occurs (py! "<cds.URL") t ≤ (tagUrls (tagDois lib line).1).2.length := by
  obtain ⟨ys, y1, y2⟩ := hy.years
  obtain ⟨ys5, y3, y4⟩ := hy.years5
  have b2 := built_urls S (built_dois (lib := lib) hl)
  obtain ⟨l, e1, b3⟩ := built_fixed S y1 y3 (clean_years y2) (clean_years y4) b2
  have hrec := plain_rec hk
  obtain ⟨f, n, e2, hf, hn⟩ := recognise_plain S hrec (built_tame S b3)
  obtain ⟨d, e3, hd⟩ := sumDicts_makes hb (b := n) fun p hp e => hk.notKey (e ▸ hn p hp)
  have hr := Props.C74_partial l kbs f n hk.titles hk.reports hk.standard hk.special e2
  have hs : ∀ w, CountedTag w → ∀ p ∈ kbs.authors, Seal spell w p.2 := by
    intro w hw p hp
    obtain ⟨h1, h2⟩ := hk.authors p hp
    refine ⟨h2 w ?_, shut_free ?_, fun c hc => .inr (h1 c hc)⟩
    · rcases hw with rfl | rfl <;> simp
    · intro hc
      obtain ⟨hc, -⟩ := List.mem_filter.1 hc
      obtain ⟨c, hc, hx⟩ := List.mem_flatMap.1 hc
      exact h1 c hc hx
  obtain ⟨t, e4, o1⟩ := processLine_count S (.inl rfl) (built_tame S b3) hf hr (hs _ (.inl rfl)) hk.collaborations
  obtain ⟨t', e5, o2⟩ := processLine_count S (.inr rfl) (built_tame S b3) hf hr (hs _ (.inr rfl)) hk.collaborations
  rw [e4] at e5
  cases e5
  refine ⟨t, d, ?_, hd, Nat.le_trans o1 (built_occurs_doi S b3), Nat.le_trans o2 (Nat.le_trans (built_occurs_url S b3) (by omega))⟩
  unfold tagReferenceLine
  rw [e1]
  dsimp only [bind, Except.bind]
  rw [e2]
  dsimp only
  rw [e3]
  dsimp only
  rw [e4]
  rfl

/-- The errors that are left. -/
def LeftErr (kbs : Kbs) (link : Option Linker) (e : PyErr) : Prop :=
  e ≠ .keyError ∧ ((e = .valueError ∧ kbs.special ≠ []) ∨ (kbs.books ≠ [] ∧ (e = .indexError ∨ e = .typeError)) ∨
    ∃ l x, link = some l ∧ l x = .error e)

attribute [local irreducible] Safe

theorem line_makes {lib : Lib} (S : Spelled lib.unidecode spell) (hy : PlainLib lib) {kbs : Kbs} (hk : PlainKbs spell kbs.tag) (hbk : BooksOk kbs.books)
    (link : Option Linker) {line : Str} (hl : NoAngle spell line) {bad : List (Str × Nat)} (hb : ∀ p ∈ bad, p.1 ≠ py! "key") :
    Safe (LeftErr kbs link) (fun r => (∀ c ∈ r.1, ∀ e ∈ c, Complete e) ∧ ∀ p ∈ r.2.2.2, p.1 ≠ py! "key") (parseReferenceLine lib kbs link line bad) := by
  unfold parseReferenceLine
  dsimp only
  have H := tagLine_makes S hy hk (noAngle_marker hl) hb
  generalize removeMarker line = ml at H ⊢
  generalize tagDois lib ml.2 = dl at H ⊢
  generalize tagUrls dl.1 = ul at H ⊢
  refine H.elim fun t H => H.elim fun bad' H => H.elim fun e1 H => H.elim fun h1 H => H.elim fun o1 o2 =>
    (Props.C22_partial o1 o2).elim fun r e2 => ?_
  rw [e1, okBind]
  dsimp only
  rw [e2, okBind]
  have hs := safe_post (E := LeftErr kbs link) (special := kbs.special) (books := kbs.books) (link := link) (.inl hbk)
    ⟨fun h _ => ⟨by simp, .inl ⟨rfl, h⟩⟩, fun h => ⟨by simp, .inr (.inl ⟨h, .inl rfl⟩)⟩,
    fun h => ⟨by simp, .inr (.inl ⟨h, .inr rfl⟩)⟩, fun l x e hl hx h1 h2 => ⟨h1, .inr (.inr ⟨l, x, hl, hx⟩)⟩⟩
    (fun x hx => (parseTagged_parsed (els := r.1) (n := r.2) e2 x hx).1)
  generalize postProcess kbs.special kbs.books link r.1 = z at hs ⊢
  exact Safe.bind hs fun cs hcs => Safe.ret ⟨hcs, h1⟩

/-! ### All lines -/

omit [UnicodeDB] in
theorem mapM_makes {α β : Type} {f : α → Py β} {l : List α} (h : ∀ a ∈ l, ∃ b, f a = .ok b) : ∃ bs, l.mapM f = .ok bs := by
  induction l with
  | nil => exact ⟨[], rfl⟩
  | cons a l ih =>
    obtain ⟨b, hb⟩ := h a (by simp)
    obtain ⟨bs, hbs⟩ := ih fun x hx => h x (by simp [hx])
    exact ⟨b :: bs, by rw [List.mapM_cons, hb, okBind, hbs]; rfl⟩

omit [UnicodeDB] in
theorem build_refs {cs : List ParsedLine} (h : ∀ p ∈ cs, ∀ c ∈ p.elements, ∀ e ∈ c, Complete e) {fmt : List FmtPart} (hf : FmtPart.key .pageEnd ∉ fmt) :
    ∃ fs, buildReferences fmt cs = .ok fs := by
  obtain ⟨bs, hbs⟩ := mapM_makes (f := fun c : ParsedLine => c.elements.mapM fun els => buildReferenceFields els c.marker c.raw fmt)
    (l := cs) fun p hp => mapM_makes fun c hc => build_complete (h p hp c hc) hf
  exact ⟨bs.flatten, by rw [buildReferences, hbs]; rfl⟩

theorem references_make {undesirable : Str → Str} (hu : ∀ s, NoAngle spell s → NoAngle spell (undesirable s)) {lib : Lib} (S : Spelled lib.unidecode spell)
    (hy : PlainLib lib) {kbs : Kbs} (hk : PlainKbs spell kbs.tag) (hbk : BooksOk kbs.books) (link : Option Linker) {lines : List Str} {fmt : List FmtPart} (hf : FmtPart.key .pageEnd ∉ fmt)
    (hl : ∀ l ∈ lines, NoAngle spell l) :
    Safe (LeftErr kbs link) (fun _ => True) (parseReferences undesirable lib kbs fmt link lines) := by
  have hq : NoAngle spell (py! " ,\"") := by
    intro c hc
    have ha : isAscii c = true := by
      have : ∀ c ∈ py! " ,\"", isAscii c = true := by decide
      exact this c hc
    rw [S.ascii c ha]
    have : ∀ c ∈ py! " ,\"", '<' ∉ [c] := by decide
    exact this c hc
  unfold parseReferences
  have key : ∀ (lines : List Str), (∀ l ∈ lines, NoAngle spell l) → ∀ (pls : List ParsedLine) (a : Counts) (bad : List (Str × Nat)),
      (∀ p ∈ pls, ∀ c ∈ p.elements, ∀ e ∈ c, Complete e) → (∀ p ∈ bad, p.1 ≠ py! "key") →
      Safe (LeftErr kbs link) (fun r => (∀ p ∈ r.1, ∀ c ∈ p.elements, ∀ e ∈ c, Complete e) ∧ ∃ a : Counts, r.2.1 = a.dict)
        (lines.foldlM (elementsStep undesirable lib kbs link) (pls, a.dict, bad)) := by
    intro lines
    induction lines with
    | nil => intro _ pls a bad hp _; exact Safe.ret ⟨hp, a, rfl⟩
    | cons l ls ih =>
      intro hl pls a bad hp hb
      rw [List.foldlM_cons]
      refine Safe.bind (P := fun r => (∀ p ∈ r.1, ∀ c ∈ p.elements, ∀ e ∈ c, Complete e) ∧ (∃ a : Counts, r.2.1 = a.dict) ∧ ∀ p ∈ r.2.2, p.1 ≠ py! "key") ?_ ?_
      · unfold elementsStep
        have hs := line_makes S hy hk hbk link (noAngle_wash hu hq (hl l (by simp))) hb
        generalize parseReferenceLine lib kbs link (washRepair undesirable l) bad = z at hs ⊢
        refine Safe.bind hs ?_
        rintro ⟨cs, m, n, b⟩ ⟨h1, h2⟩
        dsimp only
        rw [sum_counts, okBind]
        refine Safe.ret ⟨?_, ⟨n, rfl⟩, h2⟩
        intro p hp'
        rcases List.mem_append.1 hp' with hp' | hp'
        · exact hp p hp'
        · rw [List.mem_singleton.1 hp']; exact h1
      · rintro ⟨pls', c', b'⟩ ⟨h1, ⟨a', rfl⟩, h3⟩
        exact ih (fun x hx => hl x (by simp [hx])) _ _ _ h1 h3
  refine Safe.bind (key lines hl [] {} [] (by simp) (by simp)) ?_
  rintro ⟨cs, counts, b⟩ ⟨h1, a, rfl⟩
  obtain ⟨fs, hfs⟩ := build_refs h1 hf
  dsimp only
  rw [hfs, okBind]
  exact Safe.ret trivial

end Py
