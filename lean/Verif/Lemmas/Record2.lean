import Verif.Lemmas.Record
import Verif.Spec.Record

/-!
# The record builder adds, element by element, a fixed list of subfields
-/

namespace Py
open Spec

/-- Subfields added by the typed part of an element. -/
def emits (e : El) (jref : Str) : List (Str × Val) :=
  match e.ty with
  | .journal => [(py! "journal_title", e.title), (py! "journal_volume", getOr e.volume),
      (py! "journal_year", getOr e.year), (py! "journal_page", getOr e.page),
      (py! "journal_reference", some jref)]
  | .reportnumber => [(py! "reportnumber", e.reportNum)]
  | .url => (py! "url", e.urlString) :: if e.urlString = e.urlDesc then [] else [(py! "urldesc", e.urlDesc)]
  | .doi => [(py! "doi", e.doiString.map (py! "doi:" ++ ·))]
  | .hdl => [(py! "hdl", e.hdlId.map (py! "hdl:" ++ ·))]
  | .auth => [(py! "author", e.authTxt.map fun v =>
      if e.authType = some (py! "incl") then py! "(" ++ v ++ py! ")" else v)]
  | .quoted => [(py! "title", e.title)]
  | .isbn => [(py! "isbn", e.isbn)]
  | .book => [(py! "title", e.title)]
  | .publisher => [(py! "publisher", e.publisher)]
  | .year => [(py! "year", getOr e.year)]
  | .collaboration => [(py! "collaboration", e.collaboration)]
  | .recid => [(py! "recid", e.recid.map showRecid)]
  | .misc => []

/-- Add a list of subfields. -/
def addAll (f : Field) (l : List (Str × Val)) : Field := l.foldl (fun f p => addSubfield f p.1 p.2) f

theorem formatRef_filled (e : El) : ∀ (fmt : List FmtPart) (s : Str), formatRef e fmt = .ok s → Filled e fmt s
  | [], s, h => by cases h; exact .nil
  | .lit x :: r, s, h => by
    obtain ⟨t, h1, h2⟩ := Py.bind_ok h
    cases h2; exact .lit x (formatRef_filled e r t h1)
  | .key k :: r, s, h => by
    obtain ⟨x, h1, h2⟩ := Py.bind_ok h
    obtain ⟨t, h3, h4⟩ := Py.bind_ok h2
    cases h4
    have ih := formatRef_filled e r t h3
    cases k with
    | type => cases h1; exact .type ih
    | miscTxt => cases h1; exact .misc ih
    | title => exact .title x (getKey_ok h1) ih
    | volume =>
      unfold fmtKey at h1
      cases hv : e.volume with
      | none => rw [hv] at h1; cases h1
      | some v =>
        rw [hv] at h1
        cases v with
        | none => cases h1; exact .none _ (by simp [hv]) ih
        | some v => cases h1; exact .volume _ hv ih
    | year =>
      unfold fmtKey at h1
      cases hv : e.year with
      | none => rw [hv] at h1; cases h1
      | some v =>
        rw [hv] at h1
        cases v with
        | none => cases h1; exact .none _ (by simp [hv]) ih
        | some v => cases h1; exact .year _ hv ih
    | page =>
      unfold fmtKey at h1
      cases hv : e.page with
      | none => rw [hv] at h1; cases h1
      | some v =>
        rw [hv] at h1
        cases v with
        | none => cases h1; exact .none _ (by simp [hv]) ih
        | some v => cases h1; exact .page _ hv ih
    | pageEnd =>
      unfold fmtKey at h1
      cases hv : e.pageEnd with
      | none => rw [hv] at h1; cases h1
      | some v =>
        rw [hv] at h1
        cases v with
        | none => cases h1; exact .none _ (by simp [hv]) ih
        | some v => cases h1; exact .pageEnd _ hv ih

/-- The formatted journal reference of a journal element, empty for other kinds. -/
def jrefOf (fmt : List FmtPart) (e : El) : Str :=
  match formatRef e fmt with
  | .ok s => s
  | .error _ => []

theorem addTyped_emits {fmt : List FmtPart} {f g : Field} {e : El} (h : addTyped fmt f e = .ok g) :
    g = addAll f (emits e (jrefOf fmt e)) ∧ (e.ty = .journal → ∃ s, formatRef e fmt = .ok s) := by
  unfold addTyped at h
  unfold emits
  cases ht : e.ty <;> simp only [ht] at h ⊢
  case journal =>
    unfold addJournalSubfield at h
    obtain ⟨s, h1, h2⟩ := Py.bind_ok h
    cases h2
    refine ⟨?_, fun _ => ⟨s, h1⟩⟩
    simp [addAll, jrefOf, h1]
  case url =>
    obtain ⟨s, h1, h2⟩ := Py.bind_ok h
    obtain ⟨d, h3, h4⟩ := Py.bind_ok h2
    have h1 := getKey_ok h1
    have h3 := getKey_ok h3
    by_cases hsd : s = d
    · simp only [hsd, if_true] at h4; cases h4; simp [addAll, h1, h3, hsd]
    · simp only [hsd] at h4; cases h4; simp [addAll, h1, h3, hsd]
  case auth =>
    obtain ⟨s, h1, h2⟩ := Py.bind_ok h
    obtain ⟨d, h3, h4⟩ := Py.bind_ok h2
    have h1 := getKey_ok h1
    have h3 := getKey_ok h3
    cases h4
    simp [addAll, h1, h3]
  case year =>
    obtain ⟨s, h1, h2⟩ := Py.bind_ok h
    have h1 := getKey_ok h1
    cases h2
    simp [addAll, h1, getOr]
  case misc => cases h; simp [addAll]
  all_goals
    obtain ⟨s, h1, h2⟩ := Py.bind_ok h
    have h1 := getKey_ok h1
    cases h2
    simp [addAll, h1]

theorem values_addAll (l : List (Str × Val)) : ∀ (f : Field) (k : Str),
    (addAll f l).values k = f.values k ++ (l.filter (·.1 = k)).flatMap (addedVals ·.2) := by
  induction l with
  | nil => simp [addAll]
  | cons p l ih =>
    intro f k
    have : addAll f (p :: l) = addAll (addSubfield f p.1 p.2) l := rfl
    rw [this, ih, values_addSubfield]
    by_cases h : p.1 = k
    · simp [h]
    · simp [h, Ne.symm h]

theorem ok_addAll {K : List Str} (l : List (Str × Val)) (hl : ∀ p ∈ l, p.1 ∈ K ∧ p.1 ≠ py! "raw_ref") :
    ∀ {f : Field}, f.Ok K → (addAll f l).Ok K := by
  induction l with
  | nil => intro f h; exact h
  | cons p l ih =>
    intro f h
    have hp := hl p (by simp)
    exact ih (fun q hq => hl q (by simp [hq])) (h.addSubfield p.2 hp.1 hp.2)

/-- The miscellaneous subfield of an element. -/
def miscEmit (m : Str) : List (Str × Val) :=
  if truthy (stripP (inSet edgeChars) m) then
    [(py! "misc", some (rstripP (inSet (py! "[({ ,.")) (lstripP (inSet (py! "])} ,.")) m)))]
  else []

theorem addMisc_emit (f : Field) (m : Str) : addMisc f m = addAll f (miscEmit m) := by
  unfold addMisc miscEmit
  split <;> simp [addAll]

theorem addAll_append (f : Field) (a b : List (Str × Val)) : addAll f (a ++ b) = addAll (addAll f a) b := by
  simp [addAll]

/-- All subfields added by an element. -/
def elEmits (fmt : List FmtPart) (e : El) : List (Str × Val) :=
  miscEmit e.misc ++ emits e (jrefOf fmt e)

theorem buildLoop_emits (fmt : List FmtPart) : ∀ (els : List El) (f g : Field), buildLoop fmt f els = .ok g →
    g = addAll f (els.flatMap (elEmits fmt)) ∧ ∀ e ∈ els, e.ty = .journal → ∃ s, formatRef e fmt = .ok s
  | [], f, g, h => by cases h; exact ⟨rfl, by simp⟩
  | e :: es, f, g, h => by
    obtain ⟨f1, h1, h2⟩ := Py.bind_ok h
    obtain ⟨h3, h4⟩ := addTyped_emits h1
    obtain ⟨h5, h6⟩ := buildLoop_emits fmt es f1 g h2
    refine ⟨?_, ?_⟩
    · rw [h5, h3, addMisc_emit, List.flatMap_cons, addAll_append, elEmits, addAll_append]
    · intro x hx
      rcases List.mem_cons.1 hx with rfl | hx
      · exact h4
      · exact h6 x hx

theorem build_emits {fmt : List FmtPart} {els : List El} {m raw : Str} {g : Field}
    (h : buildReferenceFields els m raw fmt = .ok g) :
    g = addAll ((createReferenceField m).set (py! "raw_ref") [raw]) (els.flatMap (elEmits fmt)) ∧
      ∀ e ∈ els, e.ty = .journal → ∃ s, formatRef e fmt = .ok s :=
  buildLoop_emits fmt els _ g h

theorem emits_keys (fmt : List FmtPart) (e : El) (p : Str × Val) (h : p ∈ elEmits fmt e) :
    p.1 ∈ recordKeys ∧ p.1 ≠ py! "raw_ref" ∧ p.1 ≠ py! "linemarker" := by
  unfold elEmits at h
  rcases List.mem_append.1 h with h | h
  · unfold miscEmit at h
    split at h
    · simp at h; subst h; dsimp only; decide
    · cases h
  · unfold emits at h
    cases ht : e.ty <;> simp only [ht] at h
    case journal =>
      simp only [List.mem_cons, List.not_mem_nil, or_false] at h
      rcases h with rfl | rfl | rfl | rfl | rfl <;> (dsimp only; exact ⟨by decide, by decide, by decide⟩)
    case url =>
      split at h
      · simp at h; subst h; dsimp only; exact ⟨by decide, by decide, by decide⟩
      · simp only [List.mem_cons, List.not_mem_nil, or_false] at h
        rcases h with rfl | rfl <;> (dsimp only; exact ⟨by decide, by decide, by decide⟩)
    case misc => cases h
    all_goals
      simp only [List.mem_cons, List.not_mem_nil, or_false] at h
      subst h; dsimp only; exact ⟨by decide, by decide, by decide⟩

theorem create_eq (m : Str) : createReferenceField m =
    if HasContent m ∧ formatMarker m ≠ [] then [(py! "linemarker", [formatMarker m])] else [] := by
  unfold createReferenceField
  have hc : truthy (stripP (inSet edgeChars) m) = true ↔ HasContent m := by
    rw [truthy_stripP]
    unfold HasContent isEdge
    constructor <;> rintro ⟨c, hc, hn⟩ <;> refine ⟨c, hc, ?_⟩
    · intro hm
      rw [show inSet edgeChars c = true from mem_inSet.2 hm] at hn; cases hn
    · cases h : inSet edgeChars c with
      | false => rfl
      | true => exact absurd (mem_inSet.1 h) hn
  by_cases h : HasContent m
  · rw [if_pos (hc.2 h)]
    by_cases h2 : formatMarker m = []
    · simp [h2, addSubfield, truthy]
    · simp [h, h2, addSubfield, truthy_iff.2 h2, Field.append]
  · rw [if_neg (fun x => h (hc.1 x))]; simp [h]

/-- The record before the loop over the elements. -/
theorem init_ok (m raw : Str) : ((createReferenceField m).set (py! "raw_ref") [raw]).Ok recordKeys := by
  rw [create_eq]
  split
  · rename_i h
    refine ⟨?_, ?_, ?_⟩
    · simp [Field.set]
    · intro p hp
      simp [Field.set] at hp
      rcases hp with rfl | rfl <;> simp [recordKeys]
    · intro p hp hne
      simp [Field.set] at hp
      rcases hp with rfl | rfl
      · simpa using h.2
      · exact absurd rfl hne
  · refine ⟨by simp [Field.set], ?_, ?_⟩ <;> intro p hp <;> simp [Field.set] at hp <;> subst hp
    · simp [recordKeys]
    · intro hne; exact absurd rfl hne

theorem vals_eq (f : Field) (k : Str) : vals f k = f.values k := by
  unfold vals Field.values Field.get
  induction f with
  | nil => rfl
  | cons p f ih =>
    obtain ⟨k0, vs⟩ := p
    by_cases h : k0 = k
    · simp [h]
    · have : (k == k0) = false := by simpa using (Ne.symm h)
      simp only [List.find?_cons, h, decide_false, List.lookup_cons, this]
      exact ih

/-- Values contributed to one key by every element, when `misc` and `linemarker` are
not concerned. -/
theorem vals_key {els : List El} {marker raw : Str} {fmt : List FmtPart} {f : Field}
    (h : buildReferenceFields els marker raw fmt = .ok f) (k : Str)
    (hk : k ≠ py! "raw_ref" ∧ k ≠ py! "linemarker" ∧ k ≠ py! "misc") :
    vals f k = els.flatMap fun e => ((emits e (jrefOf fmt e)).filter (·.1 = k)).flatMap (addedVals ·.2) := by
  have h1 := (build_emits h).1
  rw [vals_eq, h1, values_addAll]
  have : Field.values ((createReferenceField marker).set (py! "raw_ref") [raw]) k = [] := by
    rw [Field.values, Field.get_set, create_eq, if_neg hk.1]
    have : (k == py! "linemarker") = false := by simpa using hk.2.1
    split
    · simp only [Field.get, List.lookup_cons, this, List.lookup_nil]; rfl
    · rfl
  rw [this, List.nil_append]
  clear this h1 h
  induction els with
  | nil => rfl
  | cons e es ih =>
    simp only [List.flatMap_cons, List.filter_append, List.flatMap_append, ih]
    congr 1
    unfold elEmits miscEmit
    split <;> simp [Ne.symm hk.2.2]

theorem flatMap_kind (els : List El) (P : El → Prop) [DecidablePred P] (v : El → Val) (g : El → List Str)
    (hg : ∀ e, g e = if P e then addedVals (v e) else []) :
    els.flatMap g = nonEmpty ((els.filter (fun e => P e)).filterMap v) := by
  induction els with
  | nil => rfl
  | cons e es ih =>
    rw [List.flatMap_cons, ih, hg]
    by_cases h : P e
    · cases hv : v e with
      | none => simp [h, hv, addedVals]
      | some s => by_cases hs : s = [] <;> simp [h, hv, addedVals, nonEmpty, hs]
    · simp [h]

end Py
