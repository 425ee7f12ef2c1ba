import Verif.Lemmas.Collab4
import Verif.Lemmas.Table
import Verif.Props.Engine

/-!
# Collaborations, and which rows of a knowledge base count (C83–C85)
-/

namespace Props
open Py Spec
open scoped List

section
variable [UnicodeDB]

/-! ### C83: collaborations -/

/-- **C83.** Marking collaborations never fails. The entries are taken one after the other; each is looked for from
left to right outside the items already marked, in upper or lower case, and what is found is replaced by the text as
written between tags. -/
theorem C83 (kb : List (Str × Str × Bool)) (hk : ∀ e ∈ kb, PlainName e.2.1) (line : Str) (hN : NoNesting line) :
    ∃ out, tagCollaborations line (kb.map fun e => (e.1, collabRe e.2.1 e.2.2)) = .ok out ∧
      MarkedBy (kb.map fun e => CollabText e.2.1 e.2.2) line out ∧ NoNesting out :=
  tagCollaborations_marked hk hN

/-- **C83.** This says what the result is, for names that cannot be confused with what may stand in front of them. -/
theorem C83_unique (kb : List (Str × Str × Bool)) (hk : ∀ e ∈ kb, PlainName e.2.1 ∧ OwnName e.2.1) {line out out' : Str}
    (h : MarkedBy (kb.map fun e => CollabText e.2.1 e.2.2) line out) (h' : MarkedBy (kb.map fun e => CollabText e.2.1 e.2.2) line out') :
    out = out' := by
  refine markedBy_unique (fun P hP => ?_) h h'
  obtain ⟨e, he, rfl⟩ := List.mem_map.1 hP
  exact collabText_determined (hk e he).1 (hk e he).2 _

/-- **C83.** The last thing that happens to a line. -/
theorem C83_line (lib : Lib) (line : Str) (f : Found) (kbs : TagKbs) (kb : List (Str × Str × Bool)) (hk : ∀ e ∈ kb, PlainName e.2.1)
    (hc : kbs.collaborations = kb.map fun e => (e.1, collabRe e.2.1 e.2.2)) (t u : Str)
    (h1 : rebuildTagged line f kbs.publishers = .ok t) (h2 : tagAuthors lib t kbs.authors = .ok u) (hN : NoNesting u) :
    ∃ out, processLine lib line f kbs = .ok (out.filter (· != '\n')) ∧ MarkedBy (kb.map fun e => CollabText e.2.1 e.2.2) u out := by
  obtain ⟨out, h3, h4, -⟩ := C83 kb hk u hN
  refine ⟨out, ?_, h4⟩
  rw [← hc] at h3
  simp only [processLine, h1, h2, h3, okBind]
  rfl

end

/-- The examples' knowledge base. -/
def collabs : List (Str × Str × Bool) := [(py! "CMS Collaboration", py! "CMS", true), (py! "L3", py! "L3", false), (py! "NA 48", py! "NA 48", true)]

example : (∀ e ∈ collabs, PlainName e.2.1) ∧
    @tagCollaborations asciiDB (py! "[The cms Coll.] and L3, <cds.TITLE>CMS coll</cds.TITLE> NA\t48  Collaborations: XCMS coll") (collabs.map fun e => (e.1, collabRe e.2.1 e.2.2)) =
      .ok (py! "<cds.COLLABORATION>cms Coll</cds.COLLABORATION>]<cds.COLLABORATION>L3</cds.COLLABORATION>, <cds.TITLE>CMS coll</cds.TITLE><cds.COLLABORATION>NA\t48  Collaborations</cds.COLLABORATION>: XCMS coll") := by
  refine ⟨by unfold PlainName; decide, by decide +kernel⟩

/-- A name that cannot be confused: `CMS` (whatever the Unicode tables). -/
theorem own_cms [UnicodeDB] : OwnName (py! "CMS") := by
  have key : ∀ {n}, NameText (py! "CMS") n → ∃ c r, n = c :: r ∧ (c = 'C' ∨ c = 'c') := by
    intro n h
    cases h with
    | cons h _ =>
      refine ⟨_, _, rfl, ?_⟩
      rw [if_neg (by decide)] at h
      exact caseVariants_ascii (by decide) (by decide) h
  refine ⟨?_, ?_⟩
  · intro n h c hc
    obtain ⟨d, r, rfl, hd⟩ := key h
    cases hc
    rcases hd with rfl | rfl <;> decide
  · intro n a z h e ha
    exfalso
    obtain ⟨d, r, rfl, hd⟩ := key h
    have hl := article_length ha
    have hm := article_letter ha
    cases a with
    | nil => cases hl
    | cons x a =>
      have hx := hm x (by simp)
      simp only [List.cons_append, List.cons.injEq] at e
      rw [← e.1] at hx
      rcases hd with rfl | rfl
      · exact absurd hx (by decide)
      · exact absurd hx (by decide)

/-- A knowledge base with one collaboration. -/
def cmsKbs : Kbs := ⟨⟨[], [], [], [], [], [], [], [], [(py! "CMS Collaboration", collabRe (py! "CMS") true)]⟩, [], []⟩

set_option synthInstance.maxSize 1000 in
example : @parseReferences asciiDB id plainLib cmsKbs defaultFormat none [py! "[1] The cms Coll., doi:10.1000/xyz"] = .ok (
    [[(py! "linemarker", [py! "1"]), (py! "raw_ref", [py! "[1] The cms Coll., doi:10.1000/xyz"]), (py! "collaboration", [py! "cms Coll"]),
      (py! "doi", [py! "doi:10.1000/xyz"])]], [0, 0, 0, 0, 0, 1, 0]) := by decide +kernel

/-! ### C84: the last row with a key counts -/

/-- **C84.** Publishers: a name that was read twice stands for the last replacement; every name is looked for, in the order in
which they first appear. -/
theorem C84_publishers (compile : Str → Py Re) (pairs : List (Str × Str)) (kb : List (Str × Re × Str)) (h : buildPublishers compile pairs = .ok kb) :
    Firsts (pairs.map (·.1)) (kb.map (·.1)) ∧
    ∀ name r repl, dget kb name = some (r, repl) ↔
      LastRow (·.1) pairs name (name, repl) ∧ compile (py! "(\\b|^)" ++ name ++ py! "(\\b|$)") = .ok r := by
  have hs : buildPublishers compile pairs = pairs.foldlM (fun d p => ((compile (py! "(\\b|^)" ++ p.1 ++ py! "(\\b|$)")).map fun r => (r, p.2)).map
      fun v => dset d p.1 v) [] := by
    unfold buildPublishers
    congr 1
    funext d p
    cases compile (py! "(\\b|^)" ++ p.1 ++ py! "(\\b|$)") <;> rfl
  rw [hs] at h
  obtain ⟨-, h2, h3⟩ := (table_rows (·.1) _ pairs).2 kb h
  refine ⟨h2, fun name r repl => ?_⟩
  rw [h3]
  constructor
  · rintro ⟨⟨n, q⟩, hl, hv⟩
    have : n = name := by obtain ⟨-, -, -, h, -⟩ := hl; exact h
    subst this
    cases hc : compile (py! "(\\b|^)" ++ n ++ py! "(\\b|$)") with
    | error => rw [hc] at hv; cases hv
    | ok r' =>
      simp only [hc, Except.map] at hv
      cases hv
      exact ⟨hl, rfl⟩
  · rintro ⟨hl, hc⟩
    exact ⟨_, hl, by simp only [hc, Except.map]⟩

example : (buildPublishers (fun s => .ok (.str s)) [(py! "UP", py! "Univ. Pr."), (py! "WS", py! "World Scientific"), (py! "UP", py! "Univ. Press")]).map
    (fun kb => kb.map fun p => (p.1, p.2.2)) = .ok [(py! "UP", py! "Univ. Press"), (py! "WS", py! "World Scientific")] := by decide +kernel

/-- **C84.** Books: of the rows with the same title, in upper or lower case, the last counts; a row without a second column is
an error. -/
theorem C84_books [UnicodeDB] (rows : List (List Str)) :
    ((∃ r ∈ rows, r.length < 2) → buildBooks rows = .error .indexError) ∧
    ((∀ r ∈ rows, 2 ≤ r.length) → ∃ kb, buildBooks rows = .ok kb ∧
      ∀ title row, dget kb title = some row ↔ LastRow (fun r => (r[1]?).map upper) rows (some title) row) := by
  have hs : buildBooks rows = rows.foldlM (fun d r => (match r[1]? with
      | some _ => Except.ok r
      | none => Except.error PyErr.indexError).map fun v => dset d (upper ((r[1]?).getD [])) v) [] := by
    unfold buildBooks
    congr 1
    funext d r
    cases r[1]? <;> rfl
  rw [hs]
  obtain ⟨h1, h2⟩ := table_rows (fun r : List Str => upper ((r[1]?).getD [])) (fun r => match r[1]? with
      | some _ => Except.ok r
      | none => Except.error PyErr.indexError) rows
  have short : ∀ r : List Str, r.length < 2 → r[1]? = none := fun r hr => by simp; omega
  have long : ∀ r : List Str, 2 ≤ r.length → ∃ t, r[1]? = some t := fun r hr => ⟨_, List.getElem?_eq_getElem (by omega)⟩
  constructor
  · rintro ⟨r, hr, hl⟩
    cases hf : rows.foldlM (fun d r => (match r[1]? with
        | some _ => Except.ok r
        | none => Except.error PyErr.indexError).map fun v => dset d (upper ((r[1]?).getD [])) v) [] with
    | error e =>
      obtain ⟨a, q, b, -, hq, -⟩ := h1 e hf
      split at hq
      · cases hq
      · cases hq; rfl
    | ok d =>
      obtain ⟨hv, -⟩ := h2 d hf
      obtain ⟨v, hv⟩ := hv r hr
      rw [short r hl] at hv
      cases hv
  · intro hl
    cases hf : rows.foldlM (fun d r => (match r[1]? with
        | some _ => Except.ok r
        | none => Except.error PyErr.indexError).map fun v => dset d (upper ((r[1]?).getD [])) v) [] with
    | error e =>
      obtain ⟨a, q, b, rfl, hq, -⟩ := h1 e hf
      obtain ⟨t, ht⟩ := long q (hl q (by simp))
      rw [ht] at hq
      cases hq
    | ok d =>
      refine ⟨d, rfl, fun title row => ?_⟩
      rw [(h2 d hf).2.2]
      constructor
      · rintro ⟨r, ⟨a, b, rfl, e2, e3⟩, e4⟩
        obtain ⟨t, ht⟩ := long r (hl r (by simp))
        rw [ht] at e4
        cases e4
        refine ⟨a, b, rfl, by dsimp only at e2 ⊢; rw [ht] at e2 ⊢; exact congrArg some e2, fun q hq e => ?_⟩
        obtain ⟨t', ht'⟩ := long q (hl q (by simp [hq]))
        refine e3 q hq ?_
        dsimp only at e ⊢
        rw [ht'] at e ⊢
        exact Option.some.inj e
      · rintro ⟨a, b, rfl, e2, e3⟩
        obtain ⟨t, ht⟩ := long row (hl row (by simp))
        refine ⟨row, ⟨a, b, rfl, ?_, fun q hq e => e3 q hq ?_⟩, by rw [ht]⟩
        · dsimp only at e2 ⊢
          rw [ht] at e2 ⊢
          exact Option.some.inj e2
        · obtain ⟨t', ht'⟩ := long q (hl q (by simp [hq]))
          dsimp only at e ⊢
          rw [ht'] at e ⊢
          exact congrArg some e

example : @buildBooks asciiDB [[py! "A. Smith", py! "Fields", py! "1990"], [py! "B. Jones", py! "FIELDS", py! "1995"], [py! "C. Cox", py! "Waves", py! "2001"]] =
    .ok [(py! "FIELDS", [py! "B. Jones", py! "FIELDS", py! "1995"]), (py! "WAVES", [py! "C. Cox", py! "Waves", py! "2001"])] := by decide +kernel

/-- **C84.** Collaborations, as far as true: when no two entries have the same right-hand side, every entry is looked for,
in the order of the file. -/
theorem C84_partial [UnicodeDB] (compile : Str → Py Re) (entries : List ((Str × Bool) × Str)) (hd : (entries.map (·.2)).Nodup)
    (hc : ∀ e ∈ entries, compile (collabPattern (entryText e.1)) = .ok (collabRe e.1.1 e.1.2)) (hp : ∀ e ∈ entries, PlainName e.1.1)
    (line : Str) (hN : NoNesting line) :
    ∃ kb out, buildCollaborations compile (entries.map fun e => (entryText e.1, e.2)) = .ok kb ∧ tagCollaborations line kb = .ok out ∧
      MarkedBy (entries.map fun e => CollabText e.1.1 e.1.2) line out := by
  have hb : buildCollaborations compile (entries.map fun e => (entryText e.1, e.2)) =
      .ok (entries.map fun e => (e.2, collabRe e.1.1 e.1.2)) := by
    have h1 := table_distinct (ε := PyErr) (·.2) (fun e => collabRe e.1.1 e.1.2) entries [] (by simpa using hd)
    rw [List.nil_append] at h1
    rw [← h1]
    unfold buildCollaborations
    rw [List.foldlM_map]
    clear h1 hd hp
    generalize ([] : List (Str × Re)) = d
    induction entries generalizing d with
    | nil => rfl
    | cons e es ih =>
      rw [List.foldlM_cons, List.foldlM_cons, hc e (by simp)]
      exact ih (fun q hq => hc q (by simp [hq])) _
  obtain ⟨out, h2, h3, -⟩ := C83 (entries.map fun e => (e.2, e.1.1, e.1.2)) (by
    intro e he
    obtain ⟨q, hq, rfl⟩ := List.mem_map.1 he
    exact hp q hq) line hN
  refine ⟨_, out, hb, ?_, ?_⟩
  · simpa [List.map_map, Function.comp_def] using h2
  · simpa [List.map_map, Function.comp_def] using h3

/-- **C84**, refuted: of two spellings of one collaboration only the last is looked for. -/
theorem C84_shared (compile : Str → Py Re) (h1 : compile (collabPattern (py! "CMS Collaboration")) = .ok (collabRe (py! "CMS") true))
    (h2 : compile (collabPattern (py! "Compact Muon Solenoid")) = .ok (collabRe (py! "Compact Muon Solenoid") false)) :
    buildCollaborations compile [(py! "CMS Collaboration", py! "CMS"), (py! "Compact Muon Solenoid", py! "CMS")] =
      .ok [(py! "CMS", collabRe (py! "Compact Muon Solenoid") false)] ∧
    @tagCollaborations asciiDB (py! "CMS Collaboration") [(py! "CMS", collabRe (py! "Compact Muon Solenoid") false)] = .ok (py! "CMS Collaboration") := by
  refine ⟨?_, by decide +kernel⟩
  simp only [buildCollaborations, List.foldlM_cons, List.foldlM_nil, h1, h2]
  rfl

/-! ### C85: without the word `Collaboration` -/

/-- **C85**, as far as true: the name alone is recognised where no word character stands before, a blank stands behind it,
and behind the blank stands another blank, a closing bracket, a quotation mark, one of `.,:` or nothing. -/
theorem C85_partial [UnicodeDB] (name b n r : Str) (c : Char) (hb : NotFirst (fun c => isWord c = true) b.reverse) (hn : NameText name n)
    (hc : isSpace c = true) (hr : CollabEnd r) : ∃ w r' x, n ++ c :: r = w ++ r' ∧ n <+: w ∧ CollabText name true b w r' x := by
  obtain ⟨g, r', e, h1, h2, h3⟩ := longest_reading (name := name) (coll := true) (g := n ++ [c]) (r := r)
    (by unfold CollabReading; exact ⟨n, c, [], rfl, hn, hc, .inl rfl⟩) hr
  have hl := h3 (n ++ [c]) r e (by unfold CollabReading; exact ⟨n, c, [], rfl, hn, hc, .inl rfl⟩) hr
  refine ⟨g, r', _, by rw [e]; simp, ?_, [], g, _, rfl, ⟨[], [], [], rfl, .inl ⟨rfl, hb⟩, by simp, .inl rfl⟩, h1, h2, h3, trimmed_stripP _ _, rfl⟩
  refine List.prefix_of_prefix_length_le (l₃ := n ++ c :: r) (List.prefix_append _ _) ?_ (by simp at hl; omega)
  exact ⟨r', by rw [e]; simp⟩

example : NotFirst (fun c => @isWord asciiDB c = true) (py! "see ").reverse ∧ @NameText asciiDB (py! "CMS") (py! "cms") ∧ CollabEnd (py! " 12") := by
  refine ⟨?_, ?_, ?_⟩
  · intro c hc; cases hc; decide
  · exact .cons (by decide) (.cons (by decide) (.cons (by decide) .nil))
  · intro c hc; cases hc; decide

/-- **C85**, refuted: an entry `CMS Collaboration` asks for a blank behind the name, although the word itself may be
left out. -/
theorem C85_bare [UnicodeDB] : ¬ ∃ b w r x, CollabText (py! "CMS") true b w r x ∧ b ++ w ++ r = py! "CMS, Phys. Lett." := by
  rintro ⟨b, w, r, x, ⟨lead, g, v, rfl, -, h, -⟩, e⟩
  unfold CollabReading at h
  simp only [if_true] at h
  obtain ⟨n, c, t, rfl, h1, h2, -⟩ := h
  obtain ⟨c1, r1, rfl, hc1⟩ : ∃ c r, n = c :: r ∧ (c = 'C' ∨ c = 'c') := by
    cases h1 with
    | cons h _ =>
      refine ⟨_, _, rfl, ?_⟩
      rw [if_neg (by decide)] at h
      exact caseVariants_ascii (by decide) (by decide) h
  have hl := nameText_length h1
  obtain ⟨c2, c3, rfl⟩ : ∃ c2 c3, r1 = [c2, c3] := by
    match r1, hl with
    | [c2, c3], _ => exact ⟨c2, c3, rfl⟩
  simp only [List.append_assoc, List.cons_append, List.nil_append] at e
  -- the only `C` of the line is the first character
  generalize hp : b ++ lead = p at e
  rw [← List.append_assoc, hp] at e
  match p, e with
  | [], e =>
    simp only [List.nil_append, List.cons.injEq] at e
    rw [e.2.2.2.1] at h2
    exact absurd h2 (by decide)
  | _ :: p, e =>
    simp only [List.cons_append, List.cons.injEq] at e
    have : c1 ∈ py! "MS, Phys. Lett." := by rw [← e.2]; simp
    rcases hc1 with rfl | rfl
    · exact absurd this (by decide)
    · exact absurd this (by decide)

/-- **C85**, refuted: so nothing is marked in `CMS, Phys. Lett.` and in `CMS Phys. Lett.`, where the blank is followed by a letter. -/
theorem C85_comma :
    @tagCollaborations asciiDB (py! "CMS, Phys. Lett.") [(py! "CMS Collaboration", collabRe (py! "CMS") true)] = .ok (py! "CMS, Phys. Lett.") ∧
    @tagCollaborations asciiDB (py! "CMS Phys. Lett.") [(py! "CMS Collaboration", collabRe (py! "CMS") true)] = .ok (py! "CMS Phys. Lett.") ∧
    @tagCollaborations asciiDB (py! "CMS  Phys. Lett.") [(py! "CMS Collaboration", collabRe (py! "CMS") true)] =
      .ok (py! "<cds.COLLABORATION>CMS</cds.COLLABORATION> Phys. Lett.") := by
  refine ⟨?_, ?_, ?_⟩ <;> decide +kernel

end Props
