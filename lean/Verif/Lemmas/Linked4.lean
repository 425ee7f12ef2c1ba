import Verif.Lemmas.Linked3
import Verif.Lemmas.Record2
import Verif.Lemmas.Engine

/-!
# Helper lemmas: the records of linked citations (C122)
-/

open Spec
open scoped List

namespace Py

theorem append_new {k v : Str} : ∀ {f : Field}, (∀ p ∈ f, p.1 ≠ k) → f.append k v = f ++ [(k, [v])]
  | [], _ => rfl
  | (k', vs) :: f, h => by
    simp only [Field.append]
    rw [if_neg (h (k', vs) (by simp)), append_new fun p hp => h p (by simp [hp])]
    rfl

theorem append_keys {k v : Str} : ∀ {f : Field}, ∀ p ∈ f.append k v, p.1 = k ∨ ∃ q ∈ f, q.1 = p.1
  | [], p, hp => by
    simp only [Field.append, List.mem_singleton] at hp
    exact .inl (by rw [hp])
  | (k', vs) :: f, p, hp => by
    simp only [Field.append] at hp
    split at hp
    · rename_i e
      rcases List.mem_cons.1 hp with rfl | hp
      · exact .inl e
      · exact .inr ⟨p, by simp [hp], rfl⟩
    · rcases List.mem_cons.1 hp with rfl | hp
      · exact .inr ⟨(k', vs), by simp, rfl⟩
      · rcases append_keys p hp with e | ⟨q, hq, e⟩
        · exact .inl e
        · exact .inr ⟨q, by simp [hq], e⟩

theorem addAll_keys : ∀ {l : List (Str × Val)} {f : Field}, ∀ p ∈ addAll f l, (∃ q ∈ l, q.1 = p.1) ∨ ∃ q ∈ f, q.1 = p.1
  | [], f, p, hp => .inr ⟨p, hp, rfl⟩
  | x :: l, f, p, hp => by
    have e : addAll f (x :: l) = addAll (addSubfield f x.1 x.2) l := rfl
    rw [e] at hp
    rcases addAll_keys p hp with ⟨q, hq, e⟩ | ⟨q, hq, e⟩
    · exact .inl ⟨q, by simp [hq], e⟩
    · unfold addSubfield at hq
      split at hq
      · exact .inr ⟨q, hq, e⟩
      · split at hq
        · rcases append_keys q hq with e' | ⟨q', hq', e'⟩
          · exact .inl ⟨x, by simp, by rw [← e, e']⟩
          · exact .inr ⟨q', hq', e'.trans e⟩
        · exact .inr ⟨q, hq, e⟩

theorem emits_noRecid (fmt : List FmtPart) (e : El) (he : e.ty ≠ .recid) (p : Str × Val) (h : p ∈ elEmits fmt e) : p.1 ≠ py! "recid" := by
  unfold elEmits at h
  rcases List.mem_append.1 h with h | h
  · unfold miscEmit at h
    split at h
    · simp at h; subst h; dsimp only; decide
    · cases h
  · unfold emits at h
    cases ht : e.ty <;> simp only [ht] at h
    case journal =>
      simp only [List.mem_cons, List.not_mem_nil, or_false] at h
      rcases h with rfl | rfl | rfl | rfl | rfl <;> (dsimp only; decide)
    case url =>
      split at h
      · simp at h; subst h; dsimp only; decide
      · simp only [List.mem_cons, List.not_mem_nil, or_false] at h
        rcases h with rfl | rfl <;> (dsimp only; decide)
    case misc => cases h
    case recid => exact absurd ht he
    all_goals
      simp only [List.mem_cons, List.not_mem_nil, or_false] at h
      subst h; dsimp only; decide

theorem init_keys (m raw : Str) : OnlyLine ((createReferenceField m).set (py! "raw_ref") [raw]) := by
  rw [create_eq]
  intro p hp
  split at hp
  · simp [Field.set] at hp
    rcases hp with rfl | rfl <;> simp
  · simp [Field.set] at hp
    rw [hp]; simp

theorem build_unlinked {fmt : List FmtPart} {els : List El} {m raw : Str} {g : Field} (hr : ∀ e ∈ els, e.ty ≠ .recid)
    (h : buildReferenceFields els m raw fmt = .ok g) : Unlinked g := by
  obtain ⟨rfl, -⟩ := build_emits h
  intro p hp
  rcases addAll_keys p hp with ⟨q, hq, e⟩ | ⟨q, hq, e⟩
  · obtain ⟨x, hx, hq⟩ := List.mem_flatMap.1 hq
    rw [← e]
    exact emits_noRecid fmt x (hr x hx) q hq
  · rw [← e]
    rcases init_keys m raw q hq with e | e <;> rw [e] <;> decide

theorem formatRef_bare (e : El) : ∀ fmt : List FmtPart, formatRef e.bare fmt = formatRef e fmt
  | [] => rfl
  | .lit s :: r => by simp only [formatRef, formatRef_bare e r]
  | .key k :: r => by
    simp only [formatRef, formatRef_bare e r]
    have : fmtKey e.bare k = fmtKey e k := by cases k <;> rfl
    rw [this]

theorem addTyped_bare {fmt : List FmtPart} {f : Field} {e : El} (h : e.ty ≠ .recid) : addTyped fmt f e.bare = addTyped fmt f e := by
  unfold addTyped
  have : e.bare.ty = e.ty := rfl
  rw [this]
  cases ht : e.ty <;> simp only
  case journal =>
    unfold addJournalSubfield
    rw [formatRef_bare]
    rfl
  case recid => exact absurd ht h
  all_goals rfl

theorem buildLoop_bare {fmt : List FmtPart} : ∀ {els : List El} {f : Field}, (∀ e ∈ els, e.ty ≠ .recid) → buildLoop fmt f (els.map El.bare) = buildLoop fmt f els
  | [], f, _ => rfl
  | e :: els, f, h => by
    simp only [List.map_cons, buildLoop]
    have : e.bare.misc = e.misc := rfl
    rw [this, addTyped_bare (h e (by simp))]
    cases addTyped fmt (addMisc f e.misc) e with
    | error x => rfl
    | ok f' => exact buildLoop_bare fun e he => h e (by simp [he])

theorem buildLoop_snoc {fmt : List FmtPart} (x : El) : ∀ (els : List El) (f : Field),
    buildLoop fmt f (els ++ [x]) = buildLoop fmt f els >>= fun f => addTyped fmt (addMisc f x.misc) x
  | [], f => by
    change (addTyped fmt (addMisc f x.misc) x >>= fun f => .ok f) = addTyped fmt (addMisc f x.misc) x
    cases addTyped fmt (addMisc f x.misc) x <;> rfl
  | e :: els, f => by
    simp only [List.cons_append, buildLoop]
    cases addTyped fmt (addMisc f e.misc) e with
    | error x => rfl
    | ok f' => exact buildLoop_snoc x els f'

/-- What is shown of two records. -/
def Rec2 (link : Linker) (r r' : Field) : Prop :=
  Unlinked r ∧ SameButLinked link r r' ∧ (Finds link → r' = r → OnlyLine r)

theorem answer_some {link : Linker} {x : El} {id : RecId} (h : answer link x = some id) : link x = .ok (some id) := by
  unfold answer at h
  cases hl : link x with
  | ok r => rw [hl] at h; simp only at h; rw [h]
  | error e => rw [hl] at h; cases h

theorem build_twin {link : Linker} {fmt : List FmtPart} {a b : List El} (h : Twin link a b) (m raw : Str) :
    Both (Rec2 link) (buildReferenceFields a m raw fmt) (buildReferenceFields b m raw fmt) := by
  obtain ⟨l, rfl, hl, hr⟩ := h
  have e0 : buildReferenceFields (l.map El.bare) m raw fmt = buildReferenceFields l m raw fmt := buildLoop_bare fun e he => (hl e he).2
  rw [e0]
  rcases hr with ⟨p, e, q, rfl, hlk, -, rfl⟩ | ⟨hn, rfl⟩
  · have e1 : buildReferenceFields ((p ++ e :: q) ++ [{ ty := .recid, misc := [], recid := e.recid }]) m raw fmt
        = buildReferenceFields (p ++ e :: q) m raw fmt >>= fun f => addTyped fmt (addMisc f []) { ty := .recid, misc := [], recid := e.recid } := buildLoop_snoc _ _ _
    rw [e1]
    cases hb : buildReferenceFields (p ++ e :: q) m raw fmt with
    | error x => exact .error x
    | ok f =>
      have hu := build_unlinked (fun e he => (hl e he).2) hb
      obtain ⟨id, h1, h2⟩ := hlk
      obtain ⟨x, hx⟩ := (hl e (by simp)).1.1
      rw [h1] at hx
      have ha := answer_some (Option.some.inj hx).symm
      have e2 : addTyped fmt (addMisc f []) { ty := .recid, misc := [], recid := e.recid } = .ok (addSubfield f (py! "recid") (some id.txt)) := by
        rw [h1]; rfl
      change Both (Rec2 link) (.ok f) (addTyped fmt (addMisc f []) { ty := .recid, misc := [], recid := e.recid })
      rw [e2]
      refine .ok ⟨hu, ?_, ?_⟩
      · unfold addSubfield
        simp only
        split
        · exact .inr ⟨x, id, ha, h2, append_new hu⟩
        · exact .inl rfl
      · intro hf heq
        obtain ⟨id', k1, k2, k3⟩ := hf x
        rw [ha] at k1
        obtain rfl := Option.some.inj (Except.ok.inj k1)
        unfold addSubfield at heq
        simp only [truthy_iff.2 k3, if_true] at heq
        rw [append_new hu] at heq
        have := congrArg List.length heq
        simp at this
  · cases hb : buildReferenceFields b m raw fmt with
    | error x => exact .error x
    | ok f =>
      refine .ok ⟨build_unlinked (fun e he => (hl e he).2) hb, .inl rfl, fun hf _ => ?_⟩
      have : b = [] := by
        cases b with
        | nil => rfl
        | cons e b =>
          obtain ⟨x, hx⟩ := (hl e (by simp)).1.1
          obtain ⟨id, k1, k2, -⟩ := hf x
          refine absurd ⟨id, ?_, k2⟩ (hn e (by simp))
          rw [hx]
          unfold answer
          rw [k1]
      subst this
      cases hb
      exact init_keys m raw

/-! ### Several lines -/

theorem Both.mapM {α β γ δ : Type} {R : α → β → Prop} {S : γ → δ → Prop} {f : α → Py γ} {g : β → Py δ} (hf : ∀ a b, R a b → Both S (f a) (g b)) :
    ∀ {l : List α} {l' : List β}, All2 R l l' → Both (All2 S) (l.mapM f) (l'.mapM g) := by
  intro l l' h
  induction h with
  | nil => exact .ok .nil
  | cons r _ ih =>
    rw [List.mapM_cons, List.mapM_cons]
    refine (hf _ _ r).bind fun a b hab => ih.bind fun x y hxy => .ok (.cons hab hxy)

/-- Two parsed lines. -/
def Line2 (link : Linker) (a b : ParsedLine) : Prop := a.marker = b.marker ∧ a.raw = b.raw ∧ All2 (Twin link) a.elements b.elements

theorem both_join {α β : Type} {R : α → β → Prop} {l : List (List α)} {l' : List (List β)} (h : All2 (All2 R) l l') : All2 R l.flatten l'.flatten := by
  induction h with
  | nil => exact .nil
  | cons r _ ih =>
    simp only [List.flatten_cons]
    exact all2_append r ih

theorem buildReferences_twin {link : Linker} {fmt : List FmtPart} {a b : List ParsedLine} (h : All2 (Line2 link) a b) :
    Both (All2 (Rec2 link)) (buildReferences fmt a) (buildReferences fmt b) := by
  unfold buildReferences
  refine (Both.mapM (S := All2 (Rec2 link)) (fun x y hxy => ?_) h).bind fun x y hxy => .ok (both_join hxy)
  rw [hxy.1, hxy.2.1]
  exact Both.mapM (R := Twin link) (fun c d hcd => build_twin hcd _ _) hxy.2.2

theorem parseLine_twin [UnicodeDB] {lib : Lib} {kbs : Kbs} {link : Linker} (hs : Steady link) (line : Str) (bad : List (Str × Nat)) :
    Both (fun a b => All2 (Twin link) a.1 b.1 ∧ a.2 = b.2) (parseReferenceLine lib kbs none line bad) (parseReferenceLine lib kbs (some link) line bad) := by
  unfold parseReferenceLine
  dsimp only
  refine (Both.same _).bind fun x y hxy => ?_
  subst hxy
  cases hp : parseTagged x.1 (tagDois lib (removeMarker line).2).2 (tagUrls (tagDois lib (removeMarker line).2).1).2 with
  | error e => exact .error e
  | ok q =>
    obtain ⟨els, n⟩ := q
    refine (postProcess_twin hs (els := els) ?_).bind fun a b hab => .ok ⟨hab, rfl⟩
    intro e he
    have := parseTagged_parsed hp e he
    exact ⟨this.2.2, fun k => by have h2 := this.2.1; rw [k] at h2; revert h2; decide⟩

theorem parseElements_twin [UnicodeDB] {undesirable : Str → Str} {lib : Lib} {kbs : Kbs} {link : Linker} (hs : Steady link) (lines : List Str) :
    Both (fun a b => All2 (Line2 link) a.1 b.1 ∧ a.2 = b.2) (parseElements undesirable lib kbs none lines) (parseElements undesirable lib kbs (some link) lines) := by
  have key : ∀ (lines : List Str) (a b : List ParsedLine × List (Str × Nat) × List (Str × Nat)), All2 (Line2 link) a.1 b.1 ∧ a.2 = b.2 →
      Both (fun a b => All2 (Line2 link) a.1 b.1 ∧ a.2 = b.2) (lines.foldlM (elementsStep undesirable lib kbs none) a) (lines.foldlM (elementsStep undesirable lib kbs (some link)) b) := by
    intro lines
    induction lines with
    | nil => intro a b h; exact .ok h
    | cons l lines ih =>
      intro a b h
      rw [List.foldlM_cons, List.foldlM_cons]
      refine Both.bind (R := fun a b => All2 (Line2 link) a.1 b.1 ∧ a.2 = b.2) ?_ fun x y hxy => ih x y hxy
      unfold elementsStep
      rw [h.2]
      refine (parseLine_twin hs _ _).bind fun x y hxy => ?_
      obtain ⟨c1, mk1, n1, bad1⟩ := x
      obtain ⟨c2, r2⟩ := y
      obtain ⟨h1, h2⟩ := hxy
      simp only at h1 h2
      subst h2
      dsimp only
      refine (Both.same _).bind fun x y hxy => ?_
      subst hxy
      exact .ok ⟨all2_append h.1 (.cons ⟨rfl, rfl, h1⟩ .nil), rfl⟩
  exact key lines _ _ ⟨.nil, rfl⟩

theorem parse_twin [UnicodeDB] {undesirable : Str → Str} {lib : Lib} {kbs : Kbs} {fmt : List FmtPart} {link : Linker} (hs : Steady link) (lines : List Str) :
    Both (fun a b => All2 (Rec2 link) a.1 b.1 ∧ a.2 = b.2) (parseReferences undesirable lib kbs fmt none lines) (parseReferences undesirable lib kbs fmt (some link) lines) := by
  unfold parseReferences
  refine (parseElements_twin hs lines).bind fun x y hxy => ?_
  obtain ⟨x1, x2⟩ := x
  obtain ⟨y1, y2⟩ := y
  obtain ⟨h1, h2⟩ := hxy
  simp only at h1 h2
  subst h2
  dsimp only
  refine (buildReferences_twin h1).bind fun a b hab => ?_
  refine (Both.same _).bind fun x y hxy => ?_
  subst hxy
  exact .ok ⟨hab, rfl⟩

end Py
