import Verif.Model.Kept
import Verif.Lemmas.Whole
import Verif.Lemmas.Strings
import Verif.Props.Find

/-!
# Every line is parsed on its own
-/

open Py Spec
open scoped List

namespace Py

variable [UnicodeDB]

/-! ### The counts do not matter -/

/-- A dictionary of counts without the literal key that `sum_2_dictionaries` looks for. -/
def NoKey (d : List (Str × Nat)) : Prop := ∀ p ∈ d, p.1 ≠ py! "key"

theorem recognise_counts {kbs : TagKbs} {line : Str} {f : Found} {n : List (Str × Nat)} (h : recognise line kbs = .ok (f, n)) :
    ∀ p ∈ n, p.1 ∈ kbs.journalKeys := by
  unfold recognise at h
  generalize compressSpaces (cleanedLine line) = C at h
  obtain ⟨spaces, w⟩ := C
  dsimp only at h
  obtain ⟨reps, -, h⟩ := bind_ok h
  obtain ⟨st, k, h⟩ := bind_ok h
  have hn : n = st.count := by
    split at h <;> (have := pure_ok h; injection this with _ e; exact e.symm)
  subst hn
  refine foldlM_keeps (P := fun st : Titles => ∀ p ∈ st.count, p.1 ∈ kbs.journalKeys) k (by simp) ?_
  intro b t c ht hb hc
  unfold titleLoop at hc
  obtain ⟨r, -, hc⟩ := bind_ok hc
  cases hc
  exact titleSteps_count ht (finditer r b.line) hb

/-- The tagging of a line with any counts. -/
theorem tag_counts {lib : Lib} {kbs : TagKbs} (hk : py! "key" ∉ kbs.journalKeys) (line : Str) :
    (∃ e, ∀ a, NoKey a → tagReferenceLine lib line kbs a = .error e) ∨
      ∃ t, ∀ a, NoKey a → ∃ a', NoKey a' ∧ tagReferenceLine lib line kbs a = .ok (t, a') := by
  unfold tagReferenceLine
  cases h1 : tagFixed lib line with
  | error e => exact .inl ⟨e, fun a _ => rfl⟩
  | ok l =>
    dsimp only [bind, Except.bind]
    cases h2 : recognise l kbs with
    | error e => exact .inl ⟨e, fun a _ => rfl⟩
    | ok r =>
      obtain ⟨f, n⟩ := r
      dsimp only
      have hn : NoKey n := fun p hp e => hk (e ▸ recognise_counts h2 p hp)
      cases h3 : processLine lib l f kbs with
      | error e =>
        refine .inl ⟨e, fun a ha => ?_⟩
        obtain ⟨d, e1, -⟩ := sumDicts_makes ha hn
        rw [e1]
      | ok t =>
        refine .inr ⟨t, fun a ha => ?_⟩
        obtain ⟨d, e1, hd⟩ := sumDicts_makes ha hn
        exact ⟨d, hd, by rw [e1]; rfl⟩

/-- The parsing of a line with any counts. -/
theorem line_alone {lib : Lib} {kbs : Kbs} (hk : py! "key" ∉ kbs.tag.journalKeys) (link : Option Linker) (line : Str) :
    (∃ e, ∀ a, NoKey a → parseReferenceLine lib kbs link line a = .error e) ∨
      ∃ cs m n, ∀ a, NoKey a → ∃ a', NoKey a' ∧ parseReferenceLine lib kbs link line a = .ok (cs, m, n, a') := by
  unfold parseReferenceLine
  dsimp only
  generalize removeMarker line = ml
  generalize tagDois lib ml.2 = dl
  generalize tagUrls dl.1 = ul
  rcases tag_counts (lib := lib) hk ul.1 with ⟨e, h⟩ | ⟨t, h⟩
  · exact .inl ⟨e, fun a ha => by rw [h a ha]; rfl⟩
  · cases h1 : parseTagged t dl.2 ul.2 with
    | error e =>
      refine .inl ⟨e, fun a ha => ?_⟩
      obtain ⟨a', -, e1⟩ := h a ha
      rw [e1]
      dsimp only [bind, Except.bind]
      rw [h1]
    | ok r =>
      obtain ⟨els, n⟩ := r
      cases h2 : postProcess kbs.special kbs.books link els with
      | error e =>
        refine .inl ⟨e, fun a ha => ?_⟩
        obtain ⟨a', -, e1⟩ := h a ha
        rw [e1]
        dsimp only [bind, Except.bind]
        rw [h1]
        dsimp only
        rw [h2]
      | ok cs =>
        refine .inr ⟨cs, ml.1, n, fun a ha => ?_⟩
        obtain ⟨a', ha', e1⟩ := h a ha
        refine ⟨a', ha', ?_⟩
        rw [e1]
        dsimp only [bind, Except.bind]
        rw [h1]
        dsimp only
        rw [h2]
        rfl

/-! ### Lists of lines -/

/-- What a line gives, whatever the counts. -/
def LineIs (undesirable : Str → Str) (lib : Lib) (kbs : Kbs) (link : Option Linker) (line : Str) (r : Py (ParsedLine × Counts)) : Prop :=
  match r with
  | .error e => ∀ a, NoKey a → parseReferenceLine lib kbs link (washRepair undesirable line) a = .error e
  | .ok (p, n) => p.raw = line ∧ ∀ a, NoKey a → ∃ a', NoKey a' ∧
      parseReferenceLine lib kbs link (washRepair undesirable line) a = .ok (p.elements, p.marker, n, a')

theorem lineIs {undesirable : Str → Str} {lib : Lib} {kbs : Kbs} (hk : py! "key" ∉ kbs.tag.journalKeys) (link : Option Linker) (line : Str) :
    ∃ r, LineIs undesirable lib kbs link line r := by
  rcases line_alone (lib := lib) hk link (washRepair undesirable line) with ⟨e, h⟩ | ⟨cs, m, n, h⟩
  · exact ⟨.error e, h⟩
  · exact ⟨.ok (⟨cs, m, line⟩, n), rfl, h⟩

theorem fold_is {undesirable : Str → Str} {lib : Lib} {kbs : Kbs} (hk : py! "key" ∉ kbs.tag.journalKeys) {link : Option Linker}
    (lines : List Str) : ∀ (pls : List ParsedLine) (c : Counts) (a : List (Str × Nat)), NoKey a →
    (∃ e, lines.foldlM (elementsStep undesirable lib kbs link) (pls, c.dict, a) = .error e ∧
      ∃ l ∈ lines, LineIs undesirable lib kbs link l (.error e)) ∨
    ∃ ps c' a', lines.foldlM (elementsStep undesirable lib kbs link) (pls, c.dict, a) = .ok (pls ++ ps, Counts.dict c', a') ∧
      All2 (fun l p => ∃ n, LineIs undesirable lib kbs link l (.ok (p, n))) lines ps := by
  induction lines with
  | nil => intro pls c a _; exact .inr ⟨[], c, a, by simp [pure, Except.pure], .nil⟩
  | cons l ls ih =>
    intro pls c a ha
    rw [List.foldlM_cons]
    obtain ⟨r, hr⟩ := lineIs (undesirable := undesirable) (lib := lib) hk link l
    cases r with
    | error e =>
      refine .inl ⟨e, ?_, l, by simp, hr⟩
      unfold elementsStep
      rw [hr a ha]
      rfl
    | ok q =>
      obtain ⟨p, n⟩ := q
      obtain ⟨hp, hq⟩ := hr
      obtain ⟨a', ha', e1⟩ := hq a ha
      have e : elementsStep undesirable lib kbs link (pls, c.dict, a) l = .ok (pls ++ [p], n.dict, a') := by
        unfold elementsStep
        dsimp only
        rw [e1]
        dsimp only [bind, Except.bind]
        rw [sum_counts]
        dsimp only
        cases p
        subst hp
        rfl
      rw [e]
      rcases ih (pls ++ [p]) n a' ha' with ⟨e, h1, m, hm, h2⟩ | ⟨ps, c', a'', h1, h2⟩
      · exact .inl ⟨e, h1, m, by simp [hm], h2⟩
      · refine .inr ⟨p :: ps, c', a'', ?_, .cons ⟨n, hp, hq⟩ h2⟩
        rw [show pls ++ p :: ps = pls ++ [p] ++ ps by simp]
        exact h1

omit [UnicodeDB] in
theorem mapM_cases {α β : Type} (f : α → Py β) (as : List α) : (∃ e, as.mapM f = .error e ∧ ∃ a ∈ as, f a = .error e) ∨
    ∃ bs, as.mapM f = .ok bs ∧ All2 (fun a b => f a = .ok b) as bs := by
  induction as with
  | nil => exact .inr ⟨[], rfl, .nil⟩
  | cons a as ih =>
    rw [List.mapM_cons]
    cases h : f a with
    | error e => exact .inl ⟨e, rfl, a, by simp, h⟩
    | ok b =>
      rcases ih with ⟨e, h1, a', h2, h3⟩ | ⟨bs, h1, h2⟩
      · exact .inl ⟨e, by rw [h1]; rfl, a', by simp [h2], h3⟩
      · exact .inr ⟨b :: bs, by rw [h1]; rfl, .cons h h2⟩

/-- The references of one parsed line. -/
def lineFields (fmt : List FmtPart) (p : ParsedLine) : Py (List Field) := p.elements.mapM fun els => buildReferenceFields els p.marker p.raw fmt

theorem single_ok {undesirable : Str → Str} {lib : Lib} {kbs : Kbs} {fmt : List FmtPart} {link : Option Linker} {line : Str} {p : ParsedLine}
    {n : Counts} (h : LineIs undesirable lib kbs link line (.ok (p, n))) :
    parseReferences undesirable lib kbs fmt link [line] =
      (lineFields fmt p).map fun b => (b, [0, n.reportnum, n.title, n.auth, n.url, n.doi, n.misc]) := by
  obtain ⟨hp, hq⟩ := h
  obtain ⟨a', -, e1⟩ := hq [] (by simp [NoKey])
  have e : parseElements undesirable lib kbs link [line] = .ok ([p], n.dict, a') := by
    unfold parseElements elementsStep
    rw [List.foldlM_cons]
    dsimp only
    rw [e1]
    dsimp only [bind, Except.bind]
    rw [sum_counts]
    dsimp only
    cases p
    subst hp
    rfl
  unfold parseReferences
  rw [e]
  dsimp only [bind, Except.bind]
  unfold buildReferences
  rw [List.mapM_cons]
  cases h : lineFields fmt p with
  | error e =>
    rw [lineFields] at h
    rw [h]
    rfl
  | ok b =>
    rw [lineFields] at h
    rw [h]
    dsimp only [bind, Except.bind, List.mapM_nil, pure, Except.pure]
    rw [stats_dict]
    simp [Except.map]

theorem single_error {undesirable : Str → Str} {lib : Lib} {kbs : Kbs} {fmt : List FmtPart} {link : Option Linker} {line : Str} {e : PyErr}
    (h : LineIs undesirable lib kbs link line (.error e)) : parseReferences undesirable lib kbs fmt link [line] = .error e := by
  unfold parseReferences parseElements elementsStep
  rw [List.foldlM_cons]
  dsimp only
  rw [h [] (by simp [NoKey])]
  rfl

/-- The whole list against the lines one by one. -/
theorem parse_alone {undesirable : Str → Str} {lib : Lib} {kbs : Kbs} (hk : py! "key" ∉ kbs.tag.journalKeys) {fmt : List FmtPart}
    {link : Option Linker} (lines : List Str) :
    (∃ e, parseReferences undesirable lib kbs fmt link lines = .error e ∧
      ∃ l ∈ lines, parseReferences undesirable lib kbs fmt link [l] = .error e) ∨
    ∃ blocks stats, parseReferences undesirable lib kbs fmt link lines = .ok (blocks.flatten, stats) ∧
      All2 (fun l b => ∃ st, parseReferences undesirable lib kbs fmt link [l] = .ok (b, st)) lines blocks := by
  rcases fold_is (undesirable := undesirable) (lib := lib) hk (link := link) lines [] {} [] (by simp [NoKey]) with
    ⟨e, h1, l, hl, h2⟩ | ⟨ps, c, a, h1, h2⟩
  · refine .inl ⟨e, ?_, l, hl, single_error h2⟩
    unfold parseReferences parseElements
    rw [h1]
    rfl
  · have e1 : parseElements undesirable lib kbs link lines = .ok (ps, c.dict, a) := by simpa [parseElements] using h1
    rcases mapM_cases (lineFields fmt) ps with ⟨e, h3, p, hp, h4⟩ | ⟨bs, h3, h4⟩
    · refine .inl ⟨e, ?_, ?_⟩
      · unfold parseReferences
        rw [e1]
        dsimp only [bind, Except.bind]
        unfold buildReferences
        have : (ps.mapM fun c => c.elements.mapM fun els => buildReferenceFields els c.marker c.raw fmt) = .error e := h3
        rw [this]
        rfl
      · obtain ⟨l, hl, n, hr⟩ := all2_mem h2 hp
        refine ⟨l, hl, ?_⟩
        rw [single_ok hr, h4]
        rfl
    · refine .inr ⟨bs, [0, c.reportnum, c.title, c.auth, c.url, c.doi, c.misc], ?_, all2_imp ?_ (all2_trans h2 h4)⟩
      · unfold parseReferences
        rw [e1]
        dsimp only [bind, Except.bind]
        unfold buildReferences
        have : (ps.mapM fun c => c.elements.mapM fun els => buildReferenceFields els c.marker c.raw fmt) = .ok bs := h3
        rw [this]
        dsimp only [bind, Except.bind, pure, Except.pure]
        rw [stats_dict]
      · rintro l b ⟨p, ⟨n, hr⟩, hb⟩
        exact ⟨_, by rw [single_ok hr, hb]; rfl⟩

/-! ### The texts of references -/

omit [UnicodeDB] in
theorem joins_start {ps : List Str} {x : Str} (h : Joins ps x) (hp : ∀ p ∈ ps, '\n' ∉ p) : '\n' ∉ x ∧ NoSpaceFirst x := by
  induction h with
  | nil => exact ⟨by simp, by simp [NoSpaceFirst]⟩
  | @snoc ps x g p t h1 hg hs ih =>
    obtain ⟨i1, i2⟩ := ih fun p hp' => hp p (by simp [hp'])
    obtain ⟨a, b, e, -, s1, -⟩ := hs
    have ht : '\n' ∉ t := fun hc => hp p (by simp) (by rw [e]; simp [hc])
    have hx : ∀ l r : Str, x = l ++ r → l ≠ [] → ∀ u, NoSpaceFirst (l ++ u) := by
      intro l r e hl u c hc
      cases l with
      | nil => exact absurd rfl hl
      | cons d l =>
        refine i2 c ?_
        rw [e]
        exact hc
    cases hg with
    | empty => exact ⟨by simpa using ht, s1⟩
    | hyphen =>
      refine ⟨?_, ?_⟩
      · simp only [List.mem_append, not_or] at i1 ⊢
        exact ⟨i1.1, ht⟩
      · cases g with
        | nil => exact s1
        | cons d l => exact hx (d :: l) ['-'] rfl (by simp) t
    | blank l =>
      refine ⟨?_, hx (l ++ [' ']) [] (by simp) (by simp) t⟩
      simp only [List.mem_append, not_or] at i1 ⊢
      exact ⟨i1, ht⟩
    | @other l c _ _ =>
      refine ⟨?_, ?_⟩
      · simp only [List.mem_append, List.mem_cons, List.not_mem_nil, or_false, not_or] at i1 ⊢
        exact ⟨⟨i1.1, i1.2, by decide⟩, ht⟩
      · have := hx (l ++ [c]) [] (by simp) (by simp) (' ' :: t)
        simpa using this

omit [UnicodeDB] in
theorem strip_self {t : Str} (h1 : NoSpaceFirst t) (h2 : ∀ c, t.getLast? = some c → isSpace c = false) : strip t = t := by
  have d : ∀ u : Str, (∀ c, u.head? = some c → isSpace c = false) → u.dropWhile isSpace = u := by
    intro u hu
    cases u with
    | nil => rfl
    | cons c u => rw [List.dropWhile_cons, hu c rfl]; rfl
  simp only [strip, stripP, rstripP, lstripP]
  rw [d t h1, d t.reverse (by simpa using h2), List.reverse_reverse]

omit [UnicodeDB] in
theorem refOf_start {g : List Str} {r : Str} (h : RefOf g r) (hg : '\n' ∉ g.flatten) : '\n' ∉ r ∧ NoSpaceFirst r ∧ strip r = r := by
  obtain ⟨-, x, b, h1, e, -, h2⟩ := h
  obtain ⟨i1, i2⟩ := joins_start h1 fun p hp hc => hg (List.mem_flatten.2 ⟨p, List.mem_of_mem_take hp, hc⟩)
  have hs : NoSpaceFirst r := by
    intro c hc
    refine i2 c ?_
    rw [e]
    cases r with
    | nil => cases hc
    | cons d r => exact hc
  exact ⟨fun hc => i1 (by rw [e]; simp [hc]), hs, strip_self hs h2⟩

theorem refs_start {pss groups : List (List Str)} {lines refs : List Str} (a : All2 Spec.Cut lines pss) (b : groups.flatten = pss.flatten)
    (c : All2 RefOf groups refs) (hl : '\n' ∉ lines.flatten) : ∀ r ∈ refs, '\n' ∉ r ∧ NoSpaceFirst r ∧ strip r = r := by
  intro r hr
  obtain ⟨g, hg, h⟩ := all2_mem c hr
  refine refOf_start h fun hc => hl ?_
  rw [← cut_flatten a, ← b]
  obtain ⟨p, hp, hc⟩ := List.mem_flatten.1 hc
  exact List.mem_flatten.2 ⟨p, List.mem_flatten.2 ⟨g, hg, hp⟩, hc⟩

theorem strings_start {only : Bool} {source : Str} (hl : only = false → ∀ l ∈ splitOn '\n' source, l.length ≤ 4300) {lines : List Str}
    (h : stringLines only source = .ok lines) : ∀ t ∈ lines, '\n' ∉ t ∧ NoSpaceFirst t ∧ strip t = t := by
  have hn : '\n' ∉ (splitOn '\n' source).flatten := by
    intro hc
    obtain ⟨l, h1, h2⟩ := List.mem_flatten.1 hc
    exact splitOn_free '\n' source l h1 h2
  unfold stringLines at h
  cases only with
  | true =>
    obtain ⟨pss, groups, a, b, c⟩ := rebuild_groups h
    exact refs_start a b c hn
  | false =>
    simp only [Bool.false_eq_true, if_false] at h
    obtain ⟨⟨ls, st⟩, h3, h⟩ := bind_ok h
    have e : lines = ls := by simpa [Pure.pure, Except.pure] using h.symm
    subst e
    obtain ⟨doc, refs', st', -, k1, k2, k3⟩ := Props.C36_extract _ (hl rfl)
    rw [h3] at k2
    cases k2
    rcases k3 with ⟨rfl, -⟩ | ⟨start, e, title, same, ls, pss, groups, -, -, -, -, m1, m2, m3, m4⟩
    · simp
    · exact refs_start m2 m3 m4 fun hc => hn (((section_sublist m1).trans (flatten_sublist k1)).subset hc)

/-! ### The kept dictionary -/

omit [UnicodeDB] in
theorem dset_same {κ α : Type} [DecidableEq κ] {k : κ} {v : α} : ∀ {d : List (κ × α)}, dget d k = some v → dset d k v = d
  | [], h => by cases h
  | (j, w) :: d, h => by
    by_cases e : j = k
    · simp only [dget, e, if_true, Option.some.injEq] at h
      simp [dset, e, h]
    · simp only [dget, e, if_false] at h
      simp [dset, e, dset_same h]

omit [UnicodeDB] in
theorem dict_ext {κ α : Type} [DecidableEq κ] : ∀ {d e : List (κ × α)}, (d.map (·.1)).Nodup → d.map (·.1) = e.map (·.1) →
    (∀ k, dget d k = dget e k) → d = e
  | [], [], _, _, _ => rfl
  | [], p :: e, _, h, _ => by simp at h
  | p :: d, [], _, h, _ => by simp at h
  | (k, v) :: d, (j, w) :: e, hn, h, hg => by
    simp only [List.map_cons, List.cons.injEq] at h
    obtain ⟨rfl, h⟩ := h
    have h0 := hg k
    simp only [dget, if_true, Option.some.injEq] at h0
    subst h0
    simp only [List.map_cons, List.nodup_cons] at hn
    rw [dict_ext hn.2 h fun i => ?_]
    by_cases hi : k = i
    · subst hi
      have n1 : dget d k = none := by
        cases hd : dget d k with
        | none => rfl
        | some u => exact absurd ((dget_isSome d k).1 (by simp [hd])) hn.1
      have n2 : dget e k = none := by
        cases hd : dget e k with
        | none => rfl
        | some u => exact absurd ((dget_isSome e k).1 (by simp [hd])) (h ▸ hn.1)
      rw [n1, n2]
    · simpa [dget, hi] using hg i

omit [UnicodeDB] in
theorem dupdate_distinct {κ α : Type} [DecidableEq κ] (u : List (κ × α)) : ∀ {d : List (κ × α)}, (d.map (·.1)).Nodup → ((dupdate d u).map (·.1)).Nodup := by
  induction u with
  | nil => intro d h; exact h
  | cons p u ih => intro d h; exact ih (dset_nodup d p.1 p.2 h)

omit [UnicodeDB] in
/-- The last value that a list of pairs gives to a key. -/
theorem dget_dupdate {κ α : Type} [DecidableEq κ] (u : List (κ × α)) (k : κ) : ∃ o : Option α, ∀ d, dget (dupdate d u) k = o.or (dget d k) := by
  induction u with
  | nil => exact ⟨none, fun d => rfl⟩
  | cons p u ih =>
    obtain ⟨o, h⟩ := ih
    refine ⟨o.or (if p.1 = k then some p.2 else none), fun d => ?_⟩
    show dget (dupdate (dset d p.1 p.2) u) k = _
    rw [h, dget_dset]
    cases o <;> simp
    split <;> rfl

omit [UnicodeDB] in
theorem dupdate_keys {κ α : Type} [DecidableEq κ] (u : List (κ × α)) : ∀ {d : List (κ × α)}, (∀ p ∈ u, p.1 ∈ d.map (·.1)) →
    (dupdate d u).map (·.1) = d.map (·.1) := by
  induction u with
  | nil => intro d _; rfl
  | cons p u ih =>
    intro d h
    have e : (dset d p.1 p.2).map (·.1) = d.map (·.1) := by
      rw [dset_keys, if_pos ((dget_isSome d p.1).2 (h p (by simp)))]
    show (dupdate (dset d p.1 p.2) u).map (·.1) = _
    rw [ih, e]
    intro q hq
    rw [e]
    exact h q (by simp [hq])

omit [UnicodeDB] in
theorem dset_has {κ α : Type} [DecidableEq κ] (d : List (κ × α)) (k : κ) (v : α) {j : κ} (h : j = k ∨ j ∈ d.map (·.1)) : j ∈ (dset d k v).map (·.1) := by
  rw [← dget_isSome, dget_dset]
  by_cases e : k = j
  · simp [e]
  · rw [if_neg e, dget_isSome]
    exact h.resolve_left fun e' => e e'.symm

omit [UnicodeDB] in
theorem dupdate_has {κ α : Type} [DecidableEq κ] (u : List (κ × α)) : ∀ {d : List (κ × α)} {j : κ}, j ∈ u.map (·.1) ∨ j ∈ d.map (·.1) →
    j ∈ (dupdate d u).map (·.1) := by
  induction u with
  | nil => intro d j h; exact h.resolve_left (by simp)
  | cons p u ih =>
    intro d j h
    refine ih (d := dset d p.1 p.2) ?_
    simp only [List.map_cons, List.mem_cons] at h
    rcases h with (h | h) | h
    · exact .inr (dset_has d _ _ (.inl h))
    · exact .inl h
    · exact .inr (dset_has d _ _ (.inr h))

omit [UnicodeDB] in
theorem dupdate_twice {κ α : Type} [DecidableEq κ] (d u : List (κ × α)) (h : (d.map (·.1)).Nodup) :
    dupdate (dupdate d u) u = dupdate d u := by
  refine dict_ext (dupdate_distinct u (dupdate_distinct u h)) (dupdate_keys u fun p hp => dupdate_has u (.inl (List.mem_map.2 ⟨p, hp, rfl⟩))) fun k => ?_
  obtain ⟨o, ho⟩ := dget_dupdate u k
  rw [ho, ho]
  cases o <;> rfl

omit [UnicodeDB] in
theorem updateStd_twice {kbs : Kbs} (h : (kbs.tag.journalStd.map (·.1)).Nodup) : updateStd (updateStd kbs) = updateStd kbs := by
  unfold updateStd
  dsimp only
  rw [dupdate_twice _ _ h]

theorem recognise_kept {kbs : Kbs} (h : (kbs.tag.journalStd.map (·.1)).Nodup) (line : Str) :
    recognise line (updateStd kbs).tag = recognise line kbs.tag := by
  unfold recognise
  show _ = _
  have e : dupdate (updateStd kbs).tag.journalStd ((updateStd kbs).tag.journalsRe.map fun p => (p.1, p.2.2)) =
      dupdate kbs.tag.journalStd (kbs.tag.journalsRe.map fun p => (p.1, p.2.2)) := dupdate_twice _ _ h
  rw [e]
  rfl

theorem line_kept {lib : Lib} {kbs : Kbs} (h : (kbs.tag.journalStd.map (·.1)).Nodup) (link : Option Linker) (line : Str) (a : List (Str × Nat)) :
    parseReferenceLine lib (updateStd kbs) link line a = parseReferenceLine lib kbs link line a := by
  unfold parseReferenceLine tagReferenceLine
  simp only [recognise_kept h]
  rfl

/-- The knowledge bases as loaded, or updated. -/
def KeptOf (kbs k : Kbs) : Prop := k = kbs ∨ k = updateStd kbs

omit [UnicodeDB] in
theorem KeptOf.update {kbs k : Kbs} (h : (kbs.tag.journalStd.map (·.1)).Nodup) (hk : KeptOf kbs k) : KeptOf kbs (updateStd k) := by
  rcases hk with rfl | rfl
  · exact .inr rfl
  · exact .inr (updateStd_twice h)

theorem KeptOf.after {kbs k : Kbs} (h : (kbs.tag.journalStd.map (·.1)).Nodup) (hk : KeptOf kbs k) (undesirable : Str → Str) (lib : Lib) (raw : Str) :
    KeptOf kbs (keptAfter undesirable lib k raw) := by
  unfold keptAfter
  split
  · exact hk.update h
  · exact hk

theorem step_kept {kbs k : Kbs} (h : (kbs.tag.journalStd.map (·.1)).Nodup) (hk : KeptOf kbs k) (undesirable : Str → Str) (lib : Lib)
    (link : Option Linker) (st : List ParsedLine × List (Str × Nat) × List (Str × Nat)) (raw : Str) :
    elementsStep undesirable lib k link st raw = elementsStep undesirable lib kbs link st raw := by
  rcases hk with rfl | rfl
  · rfl
  · unfold elementsStep
    rw [line_kept h]

theorem elements_kept {kbs : Kbs} (h : (kbs.tag.journalStd.map (·.1)).Nodup) (undesirable : Str → Str) (lib : Lib) (link : Option Linker)
    (lines : List Str) : ∀ {k : Kbs} (_ : KeptOf kbs k) (st : List ParsedLine × List (Str × Nat) × List (Str × Nat)),
    (elementsKept undesirable lib link k lines st).1 = lines.foldlM (elementsStep undesirable lib kbs link) st ∧
      KeptOf kbs (elementsKept undesirable lib link k lines st).2 := by
  induction lines with
  | nil => intro k hk st; exact ⟨rfl, hk⟩
  | cons l ls ih =>
    intro k hk st
    rw [List.foldlM_cons]
    unfold elementsKept
    rw [step_kept h hk]
    have ha := hk.after h undesirable lib l
    generalize keptAfter undesirable lib k l = k' at ha ⊢
    generalize elementsStep undesirable lib kbs link st l = r
    cases r with
    | error e => exact ⟨rfl, ha⟩
    | ok st' => exact ih ha st'

theorem parse_kept {kbs k : Kbs} (h : (kbs.tag.journalStd.map (·.1)).Nodup) (hk : KeptOf kbs k) (undesirable : Str → Str) (lib : Lib)
    (fmt : List FmtPart) (link : Option Linker) (lines : List Str) :
    (parseReferencesKept undesirable lib k fmt link lines).1 = parseReferences undesirable lib kbs fmt link lines ∧
      KeptOf kbs (parseReferencesKept undesirable lib k fmt link lines).2 := by
  obtain ⟨h1, h2⟩ := elements_kept h undesirable lib link lines hk ([], ({} : Counts).dict, [])
  refine ⟨?_, h2⟩
  unfold parseReferencesKept parseReferences parseElements
  dsimp only
  rw [h1]

end Py
