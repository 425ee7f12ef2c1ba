import Verif.Lemmas.Record2

/-!
# Output records: C02, C03, C04, C05
-/

namespace Props
open Py Spec

/-- **C02.** A returned reference has only documented keys, no key twice, exactly the
raw line under `raw_ref`, and under every other key a non-empty list of non-empty
strings. -/
theorem C02_record_shape (els : List El) (marker raw : Str) (fmt : List FmtPart) (f : Field)
    (h : buildReferenceFields els marker raw fmt = .ok f) :
    (f.map (·.1)).Nodup ∧ (∀ p ∈ f, p.1 ∈ recordKeys) ∧ (py! "raw_ref", [raw]) ∈ f ∧
      ∀ p ∈ f, p.1 ≠ py! "raw_ref" → p.2 ≠ [] ∧ ∀ v ∈ p.2, v ≠ [] := by
  obtain ⟨h1, _⟩ := build_emits h
  have hk : ∀ p ∈ els.flatMap (elEmits fmt), p.1 ∈ recordKeys ∧ p.1 ≠ py! "raw_ref" := by
    intro p hp
    obtain ⟨e, _, he⟩ := List.mem_flatMap.1 hp
    exact ⟨(emits_keys fmt e p he).1, (emits_keys fmt e p he).2.1⟩
  have ho := ok_addAll _ hk (init_ok marker raw)
  rw [← h1] at ho
  refine ⟨ho.nodup, ho.keys, ?_, ho.vals⟩
  have hv : vals f (py! "raw_ref") = [raw] := by
    rw [vals_eq, h1, values_addAll]
    have : (els.flatMap (elEmits fmt)).filter (·.1 = py! "raw_ref") = [] := by
      rw [List.filter_eq_nil_iff]
      intro p hp
      simpa using (hk p hp).2
    rw [this, Field.values, Field.get_set]
    simp
  unfold vals at hv
  split at hv
  · rename_i p hp
    have h1 := List.mem_of_find?_eq_some hp
    have h2 := List.find?_some hp
    simp only [decide_eq_true_eq] at h2
    rw [← h2, ← hv]; exact h1
  · cases hv

/-- **C03.** The line marker field is present exactly when the marker has content; then
its single value is the marker without its outer brackets, dots and blanks, and is
not empty. -/
theorem C03_linemarker (els : List El) (marker raw : Str) (fmt : List FmtPart) (f : Field)
    (h : buildReferenceFields els marker raw fmt = .ok f) :
    ((∃ vs, (py! "linemarker", vs) ∈ f) ↔ HasContent marker) ∧
    ∀ vs, (py! "linemarker", vs) ∈ f → ∃ v, vs = [v] ∧ v ≠ [] ∧
      Trimmed (py! "[](){}. ") (py! "[](){}. ") marker v := by
  have hshape := C02_record_shape els marker raw fmt f h
  obtain ⟨h1, _⟩ := build_emits h
  have hempty : (els.flatMap (elEmits fmt)).filter (·.1 = py! "linemarker") = [] := by
    rw [List.filter_eq_nil_iff]
    intro p hp
    obtain ⟨e, _, he⟩ := List.mem_flatMap.1 hp
    simpa using (emits_keys fmt e p he).2.2
  have hne : HasContent marker → formatMarker marker ≠ [] := by
    rintro ⟨c, hc, hn⟩
    apply truthy_iff.1
    apply (truthy_stripP _ _).2
    refine ⟨c, hc, ?_⟩
    cases hs : inSet (py! "[](){}. ") c with
    | false => rfl
    | true =>
      exfalso; apply hn
      have := mem_inSet.1 hs
      unfold isEdge
      simp only [List.mem_cons, List.not_mem_nil, or_false] at this ⊢
      rcases this with rfl | rfl | rfl | rfl | rfl | rfl | rfl | rfl <;> simp
  have hv : vals f (py! "linemarker") = if HasContent marker then [formatMarker marker] else [] := by
    rw [vals_eq, h1, values_addAll, hempty, Field.values, Field.get_set, create_eq]
    by_cases hc : HasContent marker
    · simp [hc, hne hc, Field.get]
    · simp [hc, Field.get]
  have key : ∀ vs, (py! "linemarker", vs) ∈ f → vals f (py! "linemarker") = vs := by
    intro vs hm
    unfold vals
    split
    · rename_i p hp
      have h2 := List.mem_of_find?_eq_some hp
      have h3 := List.find?_some hp
      simp only [decide_eq_true_eq] at h3
      have hpe : p = (py! "linemarker", vs) := by
        have hn := hshape.1
        rw [List.nodup_iff_pairwise_ne, List.pairwise_map] at hn
        rcases List.mem_iff_getElem.1 h2 with ⟨i, hi, rfl⟩
        rcases List.mem_iff_getElem.1 hm with ⟨j, hj, hje⟩
        rcases Nat.lt_trichotomy i j with hij | hij | hij
        · exact absurd (h3.trans (congrArg Prod.fst hje).symm) (List.pairwise_iff_getElem.1 hn i j hi hj hij)
        · subst hij; exact hje
        · exact absurd ((congrArg Prod.fst hje).trans h3.symm) (List.pairwise_iff_getElem.1 hn j i hj hi hij)
      rw [hpe]
    · rename_i hp
      have := List.find?_eq_none.1 hp _ hm
      simp at this
  constructor
  · constructor
    · rintro ⟨vs, hm⟩
      by_cases hc : HasContent marker
      · exact hc
      · exfalso
        have h2 := key vs hm
        rw [hv, if_neg hc] at h2
        exact (hshape.2.2.2 _ hm (by simp)).1 h2.symm
    · intro hc
      rw [if_pos hc] at hv
      unfold vals at hv
      split at hv
      · rename_i p hp
        have h2 := List.mem_of_find?_eq_some hp
        have h3 := List.find?_some hp
        simp only [decide_eq_true_eq] at h3
        exact ⟨p.2, by rw [← h3]; exact h2⟩
      · cases hv
  · intro vs hm
    have h2 := key vs hm
    rw [hv] at h2
    by_cases hc : HasContent marker
    · rw [if_pos hc] at h2
      refine ⟨_, h2.symm, hne hc, ?_⟩
      obtain ⟨a, b, e1, e2, e3, e4, e5⟩ := stripP_split (inSet (py! "[](){}. ")) marker
      refine ⟨⟨a, b, e1, fun c hc => mem_inSet.1 (e2 c hc), fun c hc => mem_inSet.1 (e3 c hc)⟩, ?_, ?_⟩
      · intro c hc hm
        have := e4 c (Option.mem_def.2 hc)
        rw [mem_inSet.2 hm] at this; cases this
      · intro c hc hm
        have := e5 c (Option.mem_def.2 hc)
        rw [mem_inSet.2 hm] at this; cases this
    · rw [if_neg hc] at h2
      exact absurd h2.symm (hshape.2.2.2 _ hm (by simp)).1

/-- **C04.** The `misc` values are, in order, the texts of the elements that have
content, each without leading `])} ,.` and trailing `[({ ,.`; none is empty. -/
theorem C04_misc (els : List El) (marker raw : Str) (fmt : List FmtPart) (f : Field)
    (h : buildReferenceFields els marker raw fmt = .ok f) :
    All2 (fun (e : El) v => v ≠ [] ∧ Trimmed (py! "])} ,.") (py! "[({ ,.") e.misc v)
      (els.filter fun e => HasContent e.misc) (vals f (py! "misc")) := by
  obtain ⟨h1, hj⟩ := build_emits h
  have hv : vals f (py! "misc") = (els.flatMap (elEmits fmt)).flatMap fun p =>
      if p.1 = py! "misc" then addedVals p.2 else [] := by
    rw [vals_eq, h1, values_addAll]
    have : Field.values ((createReferenceField marker).set (py! "raw_ref") [raw]) (py! "misc") = [] := by
      rw [Field.values, Field.get_set, create_eq, if_neg (by decide)]
      split
      · simp only [Field.get, List.lookup_cons, List.lookup_nil]; rfl
      · rfl
    rw [this, List.nil_append]
    generalize els.flatMap (elEmits fmt) = l
    induction l with
    | nil => rfl
    | cons p l ih =>
      by_cases hp : p.1 = py! "misc" <;> simp [hp, ih]
  rw [hv]
  clear hv h1 h hj
  induction els with
  | nil => exact .nil
  | cons e es ih =>
    rw [List.flatMap_cons, List.flatMap_append]
    have htyped : ((emits e (jrefOf fmt e)).flatMap fun p =>
        if p.1 = py! "misc" then addedVals p.2 else []) = [] := by
      unfold emits
      cases e.ty
      case url => simp only []; split <;> simp
      all_goals simp
    have he : ((elEmits fmt e).flatMap fun p => if p.1 = py! "misc" then addedVals p.2 else [])
        = (miscEmit e.misc).flatMap fun p => if p.1 = py! "misc" then addedVals p.2 else [] := by
      unfold elEmits
      rw [List.flatMap_append, htyped, List.append_nil]
    rw [he]
    have hc : truthy (stripP (inSet edgeChars) e.misc) = true ↔ HasContent e.misc := by
      rw [truthy_stripP]
      unfold HasContent isEdge
      constructor <;> rintro ⟨c, hc, hn⟩ <;> refine ⟨c, hc, ?_⟩
      · intro hm
        rw [show inSet edgeChars c = true from mem_inSet.2 hm] at hn; cases hn
      · cases h : inSet edgeChars c with
        | false => rfl
        | true => exact absurd (mem_inSet.1 h) hn
    by_cases hcont : HasContent e.misc
    · have hfilter : (e :: es).filter (fun e => HasContent e.misc) =
          e :: es.filter fun e => HasContent e.misc := by simp [hcont]
      rw [hfilter]
      obtain ⟨a, e1, e2, e3⟩ := lstripP_split (inSet (py! "])} ,.")) e.misc
      obtain ⟨b, e4, e5, e6⟩ := rstripP_split (inSet (py! "[({ ,.")) (lstripP (inSet (py! "])} ,.")) e.misc)
      generalize hw : rstripP (inSet (py! "[({ ,.")) (lstripP (inSet (py! "])} ,.")) e.misc) = w at *
      have hwne : w ≠ [] := by
        rintro rfl
        obtain ⟨c, hc1, hc2⟩ := hcont
        rw [e1, e4] at hc1
        apply hc2
        unfold isEdge
        rcases List.mem_append.1 hc1 with hc1 | hc1
        · have := mem_inSet.1 (e2 c hc1)
          simp only [List.mem_cons, List.not_mem_nil, or_false] at this ⊢
          rcases this with rfl | rfl | rfl | rfl | rfl | rfl <;> simp
        · have := mem_inSet.1 (e5 c (by simpa using hc1))
          simp only [List.mem_cons, List.not_mem_nil, or_false] at this ⊢
          rcases this with rfl | rfl | rfl | rfl | rfl | rfl <;> simp
      have : (miscEmit e.misc).flatMap (fun p => if p.1 = py! "misc" then addedVals p.2 else []) = [w] := by
        unfold miscEmit
        rw [if_pos (hc.2 hcont), hw]
        simp [addedVals, hwne]
      rw [this, List.singleton_append]
      refine .cons ⟨hwne, ⟨⟨a, b, ?_, fun c hc => mem_inSet.1 (e2 c hc), fun c hc => mem_inSet.1 (e5 c hc)⟩, ?_, ?_⟩⟩ ih
      · rw [List.append_assoc, ← e4, ← e1]
      · intro c hc hm
        have hh : (lstripP (inSet (py! "])} ,.")) e.misc).head? = some c := by
          rw [e4]
          cases w with
          | nil => cases hc
          | cons x xs => simpa using hc
        have := e3 c (by simpa using hh)
        rw [mem_inSet.2 hm] at this; cases this
      · intro c hc hm
        have := e6 c (by simpa using hc)
        rw [mem_inSet.2 hm] at this; cases this
    · have hfilter : (e :: es).filter (fun e => HasContent e.misc) =
          es.filter fun e => HasContent e.misc := by simp [hcont]
      rw [hfilter]
      have : (miscEmit e.misc).flatMap (fun p => if p.1 = py! "misc" then addedVals p.2 else []) = [] := by
        unfold miscEmit
        rw [if_neg (fun x => hcont (hc.1 x))]; rfl
      rw [this, List.nil_append]
      exact ih

/-- **C05.** Per-kind values are complete and in order. -/
theorem C05_values (els : List El) (marker raw : Str) (fmt : List FmtPart) (f : Field)
    (h : buildReferenceFields els marker raw fmt = .ok f) :
    vals f (py! "journal_title") = nonEmpty ((ofKind .journal els).filterMap (·.title)) ∧
    vals f (py! "journal_volume") = nonEmpty ((ofKind .journal els).filterMap (·.volume.join)) ∧
    vals f (py! "journal_year") = nonEmpty ((ofKind .journal els).filterMap (·.year.join)) ∧
    vals f (py! "journal_page") = nonEmpty ((ofKind .journal els).filterMap (·.page.join)) ∧
    (∃ filled, All2 (fun e s => Filled e fmt s) (ofKind .journal els) filled ∧
      vals f (py! "journal_reference") = nonEmpty filled) ∧
    vals f (py! "reportnumber") = nonEmpty ((ofKind .reportnumber els).filterMap (·.reportNum)) ∧
    vals f (py! "url") = nonEmpty ((ofKind .url els).filterMap (·.urlString)) ∧
    vals f (py! "urldesc") = nonEmpty (((ofKind .url els).filter fun e => e.urlString ≠ e.urlDesc).filterMap
      (·.urlDesc)) ∧
    vals f (py! "doi") = (ofKind .doi els).filterMap (·.doiString.map (py! "doi:" ++ ·)) ∧
    vals f (py! "hdl") = (ofKind .hdl els).filterMap (·.hdlId.map (py! "hdl:" ++ ·)) ∧
    vals f (py! "author") = nonEmpty ((ofKind .auth els).filterMap fun e =>
      e.authTxt.map fun v => if e.authType = some (py! "incl") then py! "(" ++ v ++ py! ")" else v) ∧
    vals f (py! "title") = nonEmpty ((els.filter fun e => e.ty = .quoted ∨ e.ty = .book).filterMap (·.title)) ∧
    vals f (py! "isbn") = nonEmpty ((ofKind .isbn els).filterMap (·.isbn)) ∧
    vals f (py! "publisher") = nonEmpty ((ofKind .publisher els).filterMap (·.publisher)) ∧
    vals f (py! "year") = nonEmpty ((ofKind .year els).filterMap (·.year.join)) ∧
    vals f (py! "collaboration") = nonEmpty ((ofKind .collaboration els).filterMap (·.collaboration)) ∧
    vals f (py! "recid") = nonEmpty ((ofKind .recid els).filterMap fun e => e.recid.map fun r =>
      match r with
      | some r => r.txt
      | none => py! "None") := by
  have hj := (build_emits h).2
  refine ⟨?_, ?_, ?_, ?_, ?_, ?_, ?_, ?_, ?_, ?_, ?_, ?_, ?_, ?_, ?_, ?_, ?_⟩
  case refine_5 =>
    refine ⟨(ofKind .journal els).map (jrefOf fmt), ?_, ?_⟩
    · unfold ofKind
      clear h
      induction els with
      | nil => exact .nil
      | cons e es ih =>
        have ih := ih fun x hx => hj x (by simp [hx])
        by_cases ht : e.ty = .journal
        · simp only [ht, decide_true, List.filter_cons_of_pos, List.map_cons]
          refine .cons ?_ ih
          obtain ⟨s, hs⟩ := hj e (by simp) ht
          have : jrefOf fmt e = s := by simp [jrefOf, hs]
          rw [this]; exact formatRef_filled e fmt s hs
        · simpa [ht] using ih
    · rw [vals_key h _ (by decide)]
      have := flatMap_kind els (fun e => e.ty = .journal) (fun e => some (jrefOf fmt e)) (fun e =>
        ((emits e (jrefOf fmt e)).filter (·.1 = py! "journal_reference")).flatMap (addedVals ·.2)) (by
          intro e; unfold emits; cases ht : e.ty <;> simp <;> split <;> simp)
      rw [this, List.filterMap_eq_map']; rfl
  case refine_1 =>
    rw [vals_key h _ (by decide)]
    exact flatMap_kind els (fun e => e.ty = .journal) (fun e => e.title) _ (by
      intro e; unfold emits; cases ht : e.ty <;> simp [getOr] <;> split <;> simp)
  case refine_2 =>
    rw [vals_key h _ (by decide)]
    exact flatMap_kind els (fun e => e.ty = .journal) (fun e => e.volume.join) _ (by
      intro e; unfold emits; cases ht : e.ty <;> simp [getOr] <;> split <;> simp)
  case refine_3 =>
    rw [vals_key h _ (by decide)]
    exact flatMap_kind els (fun e => e.ty = .journal) (fun e => e.year.join) _ (by
      intro e; unfold emits; cases ht : e.ty <;> simp [getOr] <;> split <;> simp)
  case refine_4 =>
    rw [vals_key h _ (by decide)]
    exact flatMap_kind els (fun e => e.ty = .journal) (fun e => e.page.join) _ (by
      intro e; unfold emits; cases ht : e.ty <;> simp [getOr] <;> split <;> simp)
  case refine_6 =>
    rw [vals_key h _ (by decide)]
    exact flatMap_kind els (fun e => e.ty = .reportnumber) (fun e => e.reportNum) _ (by
      intro e; unfold emits; cases ht : e.ty <;> simp [getOr] <;> split <;> simp)
  case refine_7 =>
    rw [vals_key h _ (by decide)]
    exact flatMap_kind els (fun e => e.ty = .url) (fun e => e.urlString) _ (by
      intro e; unfold emits; cases ht : e.ty <;> simp [getOr] <;> split <;> simp)
  case refine_13 =>
    rw [vals_key h _ (by decide)]
    exact flatMap_kind els (fun e => e.ty = .isbn) (fun e => e.isbn) _ (by
      intro e; unfold emits; cases ht : e.ty <;> simp [getOr] <;> split <;> simp)
  case refine_14 =>
    rw [vals_key h _ (by decide)]
    exact flatMap_kind els (fun e => e.ty = .publisher) (fun e => e.publisher) _ (by
      intro e; unfold emits; cases ht : e.ty <;> simp [getOr] <;> split <;> simp)
  case refine_15 =>
    rw [vals_key h _ (by decide)]
    exact flatMap_kind els (fun e => e.ty = .year) (fun e => e.year.join) _ (by
      intro e; unfold emits; cases ht : e.ty <;> simp [getOr] <;> split <;> simp)
  case refine_16 =>
    rw [vals_key h _ (by decide)]
    exact flatMap_kind els (fun e => e.ty = .collaboration) (fun e => e.collaboration) _ (by
      intro e; unfold emits; cases ht : e.ty <;> simp [getOr] <;> split <;> simp)
  case refine_11 =>
    rw [vals_key h _ (by decide)]
    exact flatMap_kind els (fun e => e.ty = .auth) (fun e => e.authTxt.map fun v => if e.authType = some (py! "incl") then py! "(" ++ v ++ py! ")" else v) _ (by
      intro e; unfold emits; cases ht : e.ty <;> simp [getOr] <;> split <;> simp)
  case refine_17 =>
    rw [vals_key h _ (by decide)]
    exact flatMap_kind els (fun e => e.ty = .recid) (fun e => e.recid.map showRecid) _ (by
      intro e; unfold emits; cases ht : e.ty <;> simp <;> split <;> simp)
  case refine_12 =>
    rw [vals_key h _ (by decide)]
    exact flatMap_kind els (fun e => e.ty = .quoted ∨ e.ty = .book) (fun e => e.title) _ (by
      intro e; unfold emits; cases ht : e.ty <;> simp <;> split <;> simp)
  case refine_8 =>
    rw [vals_key h _ (by decide)]
    have := flatMap_kind els (fun e => e.ty = .url ∧ e.urlString ≠ e.urlDesc) (fun e => e.urlDesc) (fun e =>
        ((emits e (jrefOf fmt e)).filter (·.1 = py! "urldesc")).flatMap (addedVals ·.2)) (by
      intro e; unfold emits; cases ht : e.ty <;> simp <;> split <;> simp_all)
    rw [this]
    unfold ofKind
    rw [List.filter_filter]
    congr 3
    funext e
    simp [Bool.and_comm]
  case refine_9 =>
    rw [vals_key h _ (by decide)]
    have := flatMap_kind els (fun e => e.ty = .doi) (fun e => e.doiString.map (py! "doi:" ++ ·)) (fun e =>
        ((emits e (jrefOf fmt e)).filter (·.1 = py! "doi")).flatMap (addedVals ·.2)) (by
      intro e; unfold emits; cases ht : e.ty <;> simp <;> split <;> simp)
    rw [this]
    refine List.filter_eq_self.2 ?_
    · intro a ha
      obtain ⟨e, _, he⟩ := List.mem_filterMap.1 ha
      cases hd : e.doiString with
      | none => rw [hd] at he; cases he
      | some w => rw [hd] at he; cases he; simp
  case refine_10 =>
    rw [vals_key h _ (by decide)]
    have := flatMap_kind els (fun e => e.ty = .hdl) (fun e => e.hdlId.map (py! "hdl:" ++ ·)) (fun e =>
        ((emits e (jrefOf fmt e)).filter (·.1 = py! "hdl")).flatMap (addedVals ·.2)) (by
      intro e; unfold emits; cases ht : e.ty <;> simp <;> split <;> simp)
    rw [this]
    refine List.filter_eq_self.2 ?_
    · intro a ha
      obtain ⟨e, _, he⟩ := List.mem_filterMap.1 ha
      cases hd : e.hdlId with
      | none => rw [hd] at he; cases he
      | some w => rw [hd] at he; cases he; simp

/-- Concrete elements of several kinds, including an empty value, meeting the hypotheses of C02 to C05. -/
def sampleEls : List El :=
  [{ ty := .auth, misc := py! "see ", authTxt := some (py! "A. Smith"), authType := some (py! "incl") },
   { ty := .journal, misc := py! ", ", title := some (py! "Phys.Rev."), volume := some (some (py! "D10")),
     year := some (some (py! "1974")), page := some (some (py! "12")) },
   { ty := .url, misc := [], urlString := some (py! "http://a"), urlDesc := some (py! "here") },
   { ty := .misc, misc := py! "] and more. " }]

example : buildReferenceFields sampleEls (py! "[1.] ") (py! "[1.] see ...") defaultFormat = .ok
    [(py! "linemarker", [py! "1"]), (py! "raw_ref", [py! "[1.] see ..."]), (py! "misc", [py! "see", py! "and more"]),
     (py! "author", [py! "(A. Smith)"]), (py! "journal_title", [py! "Phys.Rev."]),
     (py! "journal_volume", [py! "D10"]), (py! "journal_year", [py! "1974"]), (py! "journal_page", [py! "12"]),
     (py! "journal_reference", [py! "Phys.Rev. D10 (1974) 12"]), (py! "url", [py! "http://a"]),
     (py! "urldesc", [py! "here"])] := by decide +kernel

end Props
