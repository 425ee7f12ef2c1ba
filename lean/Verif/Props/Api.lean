import Verif.Lemmas.Api

/-!
# The entry points: C48, C49, C52, C53, C63
-/

open Py Spec

namespace Props

/-- **C52.** The list interface returns one reference per line, in order: the first reference
found in the line, or the raw text alone when there is none or processing fails. -/
theorem C52_entries {S : Type} (ext : Extract S (List Field)) (lines : List Str) : ∀ s : S,
    ∃ outs, Outcomes ext s lines outs (extractList ext s lines).2 ∧
      All2 (fun lo entry => EntryOf lo.1 lo.2 entry) (lines.zip outs) (extractList ext s lines).1 ∧
      (extractList ext s lines).1.length = lines.length := by
  induction lines with
  | nil => exact fun s => ⟨[], .nil s, .nil, rfl⟩
  | cons line lines ih =>
    intro s
    rw [extractList]
    obtain ⟨outs, h1, h2, h3⟩ := ih (ext line s).2
    refine ⟨(ext line s).1 :: outs, .cons rfl h1, .cons ?_ h2, by simp [h3]⟩
    show EntryOf line (ext line s).1 (listEntry line (ext line s).1)
    cases (ext line s).1 with
    | error e => exact .failed e
    | ok rs =>
      cases rs with
      | nil => exact .empty
      | cons r rs => exact .first r rs

/-- **C52.** When extraction from a line does not depend on what was extracted before, the
entry of a line depends on that line alone. -/
theorem C52_isolated {S : Type} (ext : Extract S (List Field)) (h : ∀ line s t, (ext line s).1 = (ext line t).1)
    (s : S) (before after before' after' : List Str) (line : Str) (hl : before.length = before'.length) :
    (extractList ext s (before ++ line :: after)).1[before.length]? =
      (extractList ext s (before' ++ line :: after')).1[before.length]? := by
  have key : ∀ (before after : List Str) (s t : S),
      (extractList ext s (before ++ line :: after)).1[before.length]? = some (listEntry line (ext line t).1) := by
    intro before
    induction before with
    | nil =>
      intro after s t
      simp only [List.nil_append, extractList, List.length_nil, List.getElem?_cons_zero]
      rw [h line s t]
    | cons b before ih =>
      intro after s t
      simp only [List.cons_append, extractList, List.length_cons, List.getElem?_cons_succ]
      exact ih after _ t
  rw [key before after s s, hl, key before' after' s s]

/-- An extraction that fails on empty lines and counts the calls. -/
def toyExtract : Extract Nat (List Field) := fun line n =>
  if line = [] then (.error .indexError, n + 1) else (.ok [[(py! "misc", [line])], []], n + 1)

example : extractList toyExtract 0 [py! "a", [], py! "b"] =
    ([[(py! "misc", [py! "a"])], [(py! "raw_ref", [[]])], [(py! "misc", [py! "b"])]], 3) := by decide +kernel

/-- **C63.** Journal information for a list of texts is all or nothing: when no text makes the
extraction fail the result has one entry per text in order, empty where the text is missing or
no journal is found; when one fails there is no result at all. -/
theorem C63_all_or_nothing {S R : Type} (ext : Extract S (Option R)) (is : List (Option Str)) : ∀ s : S,
    match (journalInfo ext s is).1 with
    | some rs => ∃ t outs, Outcomes ext s (is.filterMap fun i => i.filter (· ≠ [])) outs t
        ∧ (∀ o ∈ outs, ∃ a, o = .ok a)
        ∧ rs.length = is.length
        ∧ outs = ((is.zip rs).filter fun p => p.1.getD [] ≠ []).map (fun p => .ok p.2)
        ∧ ∀ p ∈ is.zip rs, p.1.getD [] = [] → p.2 = none
    | none => ∃ t outs e lines rest, (is.filterMap fun i => i.filter (· ≠ [])) = lines ++ rest
        ∧ Outcomes ext s lines (outs ++ [.error e]) t := by
  have key : ∀ s : S, match (journalInfoLoop ext s is).1 with
    | .ok rs => ∃ t outs, Outcomes ext s (is.filterMap fun i => i.filter (· ≠ [])) outs t
        ∧ (∀ o ∈ outs, ∃ a, o = .ok a)
        ∧ rs.length = is.length
        ∧ outs = ((is.zip rs).filter fun p => p.1.getD [] ≠ []).map (fun p => .ok p.2)
        ∧ ∀ p ∈ is.zip rs, p.1.getD [] = [] → p.2 = none
    | .error _ => ∃ t outs e lines rest, (is.filterMap fun i => i.filter (· ≠ [])) = lines ++ rest
        ∧ Outcomes ext s lines (outs ++ [.error e]) t := by
    induction is with
    | nil => exact fun s => ⟨s, [], .nil s, by simp, rfl, rfl, by simp⟩
    | cons i is ih =>
      intro s
      have skip : i.filter (· ≠ []) = none → i.getD [] = [] →
          match (match journalInfoLoop ext s is with
            | (.ok r, s) => ((.ok (none :: r) : Py (List (Option R))), s)
            | (.error e, s) => (.error e, s)).1 with
          | .ok rs => ∃ t outs, Outcomes ext s ((i :: is).filterMap fun i => i.filter (· ≠ [])) outs t
              ∧ (∀ o ∈ outs, ∃ a, o = .ok a)
              ∧ rs.length = (i :: is).length
              ∧ outs = (((i :: is).zip rs).filter fun p => p.1.getD [] ≠ []).map (fun p => .ok p.2)
              ∧ ∀ p ∈ (i :: is).zip rs, p.1.getD [] = [] → p.2 = none
          | .error _ => ∃ t outs e lines rest, ((i :: is).filterMap fun i => i.filter (· ≠ [])) = lines ++ rest
              ∧ Outcomes ext s lines (outs ++ [.error e]) t := by
        intro hi hg
        have ih := ih s
        rw [List.filterMap_cons, hi]
        rcases hj : journalInfoLoop ext s is with ⟨o, t⟩
        rw [hj] at ih
        cases o with
        | ok rs =>
          obtain ⟨t, outs, h1, h2, h3, h4, h5⟩ := ih
          refine ⟨t, outs, h1, h2, by simp [h3], ?_, ?_⟩
          · simp only [List.zip_cons_cons]
            rw [List.filter_cons_of_neg (by simp [hg])]
            exact h4
          · intro p hp
            simp only [List.zip_cons_cons, List.mem_cons] at hp
            rcases hp with rfl | hp
            · exact fun _ => rfl
            · exact h5 p hp
        | error e => exact ih
      match i with
      | none => exact skip rfl rfl
      | some [] => exact skip rfl rfl
      | some (c :: cs) =>
        rw [journalInfoLoop]
        have hf : (some (c :: cs) : Option Str).filter (· ≠ []) = some (c :: cs) := rfl
        rw [List.filterMap_cons, hf]
        rcases he : ext (c :: cs) s with ⟨o, t⟩
        cases o with
        | error e => exact ⟨t, [], e, [c :: cs], _, rfl, .cons he (.nil t)⟩
        | ok a =>
          have ih := ih t
          dsimp only
          rcases hj : journalInfoLoop ext t is with ⟨o, u⟩
          rw [hj] at ih
          cases o with
          | ok rs =>
            obtain ⟨u, outs, h1, h2, h3, h4, h5⟩ := ih
            refine ⟨u, .ok a :: outs, .cons he h1, ?_, by simp [h3], ?_, ?_⟩
            · intro o ho
              rcases List.mem_cons.1 ho with rfl | ho
              · exact ⟨a, rfl⟩
              · exact h2 o ho
            · simp only [List.zip_cons_cons]
              rw [List.filter_cons_of_pos (by simp)]
              rw [List.map_cons, ← h4]
            · intro p hp
              simp only [List.zip_cons_cons, List.mem_cons] at hp
              rcases hp with rfl | hp
              · intro h; cases h
              · exact h5 p hp
          | error e =>
            obtain ⟨u, outs, e, lines, rest, h1, h2⟩ := ih
            exact ⟨u, .ok a :: outs, e, (c :: cs) :: lines, rest, congrArg ((c :: cs) :: ·) h1, .cons he h2⟩
  intro s
  have := key s
  unfold journalInfo
  rcases hj : journalInfoLoop ext s is with ⟨o, t⟩
  rw [hj] at this
  cases o with
  | ok rs => exact this
  | error e => exact this

example : (journalInfo (fun line (n : Nat) => (.ok (some line), n)) 0 [some (py! "a"), none, some []]).1 =
    some [some (py! "a"), none, none] := by decide +kernel

/-- **C53.** The journal lookup returns the first journal in citation order, if there is one. -/
theorem C53_first (cs : List (List El)) :
    match journalReference cs with
    | some el => ∃ before after, cs.flatten = before ++ el :: after ∧ el.ty = .journal ∧ ∀ b ∈ before, b.ty ≠ .journal
    | none => ∀ el ∈ cs.flatten, el.ty ≠ .journal := by
  have h : journalReference cs = cs.flatten.find? (·.ty = .journal) := by
    induction cs with
    | nil => rfl
    | cons c cs ih =>
      rw [List.flatten_cons, List.find?_append, ← ih, journalReference, List.findSome?_cons, journalReference]
      cases c.find? (·.ty = .journal) <;> rfl
  rw [h]
  cases hf : cs.flatten.find? (·.ty = .journal) with
  | none =>
    rw [List.find?_eq_none] at hf
    simpa using hf
  | some el =>
    rw [List.find?_eq_some_iff_append] at hf
    obtain ⟨h1, before, after, h2, h3⟩ := hf
    exact ⟨before, after, h2, by simpa using h1, fun b hb => by simpa using h3 b hb⟩

example : (journalReference [[{ ty := .misc, misc := [] }], [{ ty := .journal, misc := py! "x" }, { ty := .journal, misc := [] }]]).map
    (·.misc) = some (py! "x") := by decide +kernel

/-! ### Downloads -/

/-- **C48.** Unless the system refuses to remove it, the temporary file is gone when the call
ends, whatever failed. -/
theorem C48_removed {R : Type} (d : Download) (ext : Bytes → Py R × Option Bytes) : (fromUrl d ext none).2 = none := by
  unfold fromUrl
  rcases downloadBody d ext with ⟨out, _ | b⟩ <;> rfl

/-- **C48.** A call that returns has downloaded everything, and returns what extraction from the
downloaded bytes returns. -/
theorem C48_success {R : Type} (d : Download) (ext : Bytes → Py R × Option Bytes) (r : R)
    (h : (fromUrl d ext none).1 = .ok r) :
    d.request = none ∧ d.status = none ∧ d.openFile = none ∧ d.stop = none ∧ (ext d.chunks.flatten).1 = .ok r := by
  have hm : ∀ o : Py R, mapHttp o = .ok r → o = .ok r := by
    intro o h
    unfold mapHttp at h
    split at h
    · cases h
    · exact h
  have : (downloadBody d ext).1 = .ok r := by
    unfold fromUrl at h
    rcases hd : downloadBody d ext with ⟨out, _ | b⟩
    · rw [hd] at h
      cases h
    · rw [hd] at h
      exact hm _ h
  unfold downloadBody at this
  split at this
  · cases this
  · split at this
    · cases this
    · split at this
      · cases this
      · split at this
        · cases this
        · exact ⟨by assumption, by assumption, by assumption, by assumption, this⟩

/-- **C48.** A call that meets an error reports it unchanged, except that an HTTP error status
becomes "full text not available". Extraction is supposed to leave the file in place. -/
theorem C48_error {R : Type} (d : Download) (ext : Bytes → Py R × Option Bytes) (hext : ∀ b, ((ext b).2).isSome)
    (e : PyErr) (h : Meets d ext e) :
    (fromUrl d ext none).1 = .error (if e = .httpError then .fullTextNotAvailable else e) := by
  have hm : ∀ e : PyErr, mapHttp (.error e : Py R) = .error (if e = .httpError then .fullTextNotAvailable else e) := by
    intro e
    cases e <;> rfl
  have hb : ∃ b, downloadBody d ext = (.error e, some b) := by
    unfold downloadBody
    cases h with
    | request h => exact ⟨[], by simp [h]⟩
    | status h1 h2 => exact ⟨[], by simp [h1, h2]⟩
    | openFile h1 h2 h3 => exact ⟨[], by simp [h1, h2, h3]⟩
    | stop h1 h2 h3 h4 => exact ⟨d.chunks.flatten, by simp only [h1, h2, h3, h4]⟩
    | extract h1 h2 h3 h4 h5 =>
      obtain ⟨b, hb⟩ := Option.isSome_iff_exists.1 (hext d.chunks.flatten)
      exact ⟨b, by simp only [h1, h2, h3, h4]; exact Prod.ext h5 hb⟩
  obtain ⟨b, hb⟩ := hb
  unfold fromUrl
  rw [hb]
  exact hm e

/-- **C48.** A call that meets no error returns the result of the extraction. -/
theorem C48_returns {R : Type} (d : Download) (ext : Bytes → Py R × Option Bytes) (hext : ∀ b, ((ext b).2).isSome)
    (h : ∀ e, ¬ Meets d ext e) : ∃ r, (ext d.chunks.flatten).1 = .ok r ∧ (fromUrl d ext none).1 = .ok r := by
  have h1 : d.request = none := Option.eq_none_iff_forall_ne_some.2 fun e he => h e (.request he)
  have h2 : d.status = none := Option.eq_none_iff_forall_ne_some.2 fun e he => h e (.status h1 he)
  have h3 : d.openFile = none := Option.eq_none_iff_forall_ne_some.2 fun e he => h e (.openFile h1 h2 he)
  have h4 : d.stop = none := Option.eq_none_iff_forall_ne_some.2 fun e he => h e (.stop h1 h2 h3 he)
  obtain ⟨b, hb⟩ := Option.isSome_iff_exists.1 (hext d.chunks.flatten)
  cases hx : (ext d.chunks.flatten).1 with
  | error e => exact absurd (.extract h1 h2 h3 h4 hx) (h e)
  | ok r =>
    refine ⟨r, rfl, ?_⟩
    have : downloadBody d ext = (.ok r, some b) := by
      unfold downloadBody
      simp only [h1, h2, h3, h4]
      exact Prod.ext hx hb
    unfold fromUrl
    rw [this]
    rfl

example : fromUrl { request := none, status := some .httpError, openFile := none, chunks := [], stop := none }
    (fun b => ((.ok b : Py Bytes), some b)) none = (.error .fullTextNotAvailable, none) := by decide +kernel

example : fromUrl { request := none, status := none, openFile := none, chunks := [[1], [2, 3]], stop := none }
    (fun b => ((.ok b : Py Bytes), some b)) none = (.ok [1, 2, 3], none) := by decide +kernel

/-! ### TeX keys and links of a PDF -/

/-- **C49.** With as many TeX keys as references, the i-th reference gets the i-th key and its
links, repeated links once, and keeps everything else. -/
theorem C49_attached (refs : List Field) (keys : List (Str × List Str)) (h : keys.length = refs.length) :
    All2 (fun (p : Field × (Str × List Str)) (r : Field) =>
      vals r (py! "texkey") = [p.2.1]
      ∧ FirstOccurrences (vals p.1 (py! "url") ++ nonEmpty p.2.2) (vals r (py! "url"))
      ∧ ∀ k, k ≠ py! "texkey" → k ≠ py! "url" → vals r k = vals p.1 k)
      (refs.zip keys) (attachKeys refs keys) := by
  rw [attachKeys, if_pos h]
  induction refs generalizing keys with
  | nil =>
    cases keys with
    | nil => exact .nil
    | cons => simp at h
  | cons ref refs ih =>
    cases keys with
    | nil => simp at h
    | cons key keys =>
      refine .cons ?_ (ih keys (by simpa using h))
      obtain ⟨key, urls⟩ := key
      simp only [attachKey]
      have hu := updateWithUrls_vals urls ref
      generalize updateWithUrls ref urls = f at hu ⊢
      have hset : ∀ (f : Field) (k k' : Str) (v : List Str), vals (f.set k v) k' = if k' = k then v else vals f k' := by
        intro f k k' v
        rw [vals_eq, vals_eq, Field.values, Field.values, Field.get_set]
        split <;> rfl
      have hurl := hu (py! "url")
      rw [if_pos rfl] at hurl
      have hget : (f.get (py! "url")).getD [] = vals f (py! "url") := (vals_eq f _).symm
      split
      · rename_i u us hg
        rw [hg] at hget
        simp only [Option.getD_some] at hget
        refine ⟨by rw [hset, if_pos rfl], ?_, ?_⟩
        · rw [hset, if_neg (by decide), hset, if_pos rfl, ← hurl, ← hget]
          exact dedupe_first _
        · intro k h1 h2
          rw [hset, if_neg h1, hset, if_neg h2, hu, if_neg h2, List.append_nil]
      · rename_i hg
        have hnil : vals f (py! "url") = [] := by
          rw [← hget]
          cases hf : f.get (py! "url") with
          | none => rfl
          | some l =>
            cases l with
            | nil => rfl
            | cons a l => exact absurd hf (hg a l)
        refine ⟨by rw [hset, if_pos rfl], ?_, ?_⟩
        · rw [hset, if_neg (by decide), ← hurl, hnil]
          exact ⟨List.nodup_nil, fun n => ⟨0, by simp⟩⟩
        · intro k h1 h2
          rw [hset, if_neg h1, hu, if_neg h2, List.append_nil]

/-- **C49.** Extraction from a file returns the parsed references as they are, unless the file is
a PDF with exactly as many TeX keys. The number of references never changes. -/
theorem C49_otherwise (p : FileSteps) (rs : List Field) (h : fromFile p = .ok rs) :
    ∃ ls refs, p.parse ls = .ok refs ∧ rs.length = refs.length ∧
      (rs = refs ∨ ∃ keys, p.isPdf = .ok true ∧ p.keys = .ok keys ∧ keys.length = refs.length
        ∧ rs = attachKeys refs keys) := by
  unfold fromFile at h
  split at h
  · cases h
  obtain ⟨doc, -, h⟩ := Py.bind_ok h
  obtain ⟨ls, -, h⟩ := Py.bind_ok h
  obtain ⟨ls, -, h⟩ := Py.bind_ok h
  obtain ⟨refs, hp, h⟩ := Py.bind_ok h
  obtain ⟨b, hb, h⟩ := Py.bind_ok h
  refine ⟨ls, refs, hp, ?_⟩
  cases b with
  | false =>
    cases h
    exact ⟨rfl, .inl rfl⟩
  | true =>
    obtain ⟨keys, hk, h⟩ := Py.bind_ok h
    cases h
    by_cases hl : keys.length = refs.length
    · exact ⟨by simp [attachKeys, hl], .inr ⟨keys, hb, hk, hl, rfl⟩⟩
    · exact ⟨by simp [attachKeys, hl], .inl (by simp [attachKeys, hl])⟩

/-- **C49.** The second reading of the document, with its layout kept, is used exactly when the
first yields no reference lines. -/
theorem C49_layout (p : FileSteps) (doc ls : List Str) (h1 : p.isFile = true) (h2 : p.body false = .ok doc)
    (h3 : p.lines doc = .ok ls) (hp : p.isPdf = .ok false) :
    fromFile p = if ls = [] then (p.body true >>= p.lines) >>= p.parse else p.parse ls := by
  cases ls with
  | nil =>
    simp only [fromFile, h1, h2, h3, hp, bind, Except.bind, pure, Except.pure, List.isEmpty_nil]
    cases p.body true with
    | error e => rfl
    | ok d =>
      simp only [Bool.not_true, Bool.false_eq_true, if_false, if_true]
      cases p.lines d with
      | error e => rfl
      | ok l => dsimp only; cases p.parse l <;> rfl
  | cons l ls =>
    simp only [fromFile, h1, h2, h3, hp, bind, Except.bind, pure, Except.pure, List.isEmpty_cons]
    simp only [Bool.not_true, Bool.false_eq_true, if_false, reduceCtorEq]
    cases p.parse (l :: ls) <;> rfl

example : attachKeys [[(py! "misc", [py! "m"]), (py! "url", [py! "u"])], []] [(py! "k1", [py! "v", py! "u"]), (py! "k2", [])] =
    [[(py! "misc", [py! "m"]), (py! "url", [py! "u", py! "v"]), (py! "texkey", [py! "k1"])],
     [(py! "texkey", [py! "k2"])]] := by decide +kernel

example : attachKeys [[(py! "misc", [py! "m"])]] [] = [[(py! "misc", [py! "m"])]] := by decide +kernel

end Props
