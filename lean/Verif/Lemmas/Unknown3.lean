import Verif.Lemmas.Unknown2

/-!
# Helper lemmas: a line of which nothing is known, from the line to the reference
-/

namespace Py
open Spec
open scoped List

variable [UnicodeDB]

omit [UnicodeDB] in
theorem calm_noSpaceFirst {n : Nat} {s : Str} (h : Calm (bracketed n ++ ' ' :: s)) [UnicodeDB] : NoSpaceFirst s := by
  have hX : Calm s := calm_suffix (a := bracketed n ++ [' ']) (by simpa using h)
  intro c hc
  cases hs : isSpace c with
  | false => rfl
  | true =>
    exfalso
    have hcc : c = ' ' := (by decide : ∀ c ∈ calmChars, isSpace c = true → c = ' ') c (hX.chars c (List.mem_of_head? hc)) hs
    subst hcc
    obtain ⟨r, hr⟩ : ∃ r, s = ' ' :: r := by
      cases s with
      | nil => cases hc
      | cons d r => cases hc; exact ⟨r, rfl⟩
    exact h.tidy (py! "  ") (by decide) ⟨bracketed n, r, by rw [hr]; simp⟩

/-- From the line to the elements. -/
theorem parse_plain {lib : Lib} {kbs : Kbs} {n : Nat} {s : Str} (hl : PlainLine n s) (h : NothingKnown kbs s)
    (hu : ∀ s, (∀ c ∈ s, isAscii c = true) → lib.unidecode s = s) :
    (NoYear s ∧ parseReferenceLine lib kbs none (bracketed n ++ ' ' :: s) [] = .ok ([[textEl s]], bracketed n, { misc := 1 }, [])) ∨
    ∃ y u, FirstYear s y ∧ y ≠ [] ∧ YearErased y s u ∧
      parseReferenceLine lib kbs none (bracketed n ++ ' ' :: s) [] = .ok ([[textEl u, yearEl y]], bracketed n, { misc := 1 }, []) := by
  have hX : Calm s := calm_suffix (a := bracketed n ++ [' ']) (by simpa using hl.calm)
  have hparse := Props.C19 (toks := []) (last := s) (by simp) (noTags_of fun h => absurd (hl.quiet _ h) (by decide)) [] []
  have hparse' : parseTagged s [] [] = .ok ([textEl s], { misc := 1 }) := by
    refine Eq.trans (by simpa [renderLine] using hparse) ?_
    simp [lineEls, hl.text, howMany, textEl]
  have hh : finditer Rx.re_hdl s = [] := barren_finditer (A := quietChars) (by decide) (by decide +kernel) hl.quiet
  have hp := post_text (special := kbs.special) (books := kbs.books) hh (fun h => absurd (hl.quiet _ h) (by decide)) h.books
  have key : ∀ cs, postProcess kbs.special kbs.books none [textEl s] = .ok cs →
      parseReferenceLine lib kbs none (bracketed n ++ ' ' :: s) [] = .ok (cs, bracketed n, { misc := 1 }, []) := by
    intro cs hcs
    unfold parseReferenceLine
    rw [removeMarker_numbered n (calm_noSpaceFirst hl.calm)]
    dsimp only
    rw [calm_dois lib hX]
    dsimp only
    rw [calm_urls hX]
    dsimp only
    rw [tag_plain hX hl.quiet h hu, okBind]
    dsimp only
    rw [hparse', okBind]
    dsimp only
    rw [hcs, okBind]
    rfl
  rcases hp with ⟨h1, h2⟩ | ⟨y, u, h1, h2, h3, h4⟩
  · exact .inl ⟨h1, key _ h2⟩
  · exact .inr ⟨y, u, h1, h2, h3, key _ h4⟩

theorem references_of {undesirable : Str → Str} {lib : Lib} {kbs : Kbs} {fmt : List FmtPart} {link : Option Linker} {n : Nat} {raw : Str} {els : List El} {c : Counts}
    {count : List (Str × Nat)} {r : Field} (hrep : washRepair undesirable raw = raw)
    (hp : parseReferenceLine lib kbs link raw [] = .ok ([els], bracketed n, c, count)) (hr : buildReferenceFields els (bracketed n) raw fmt = .ok r) :
    parseReferences undesirable lib kbs fmt link [raw] = .ok ([r], [0, c.reportnum, c.title, c.auth, c.url, c.doi, c.misc]) := by
  unfold parseReferences parseElements
  have hstep : [raw].foldlM (elementsStep undesirable lib kbs link) ([], ({} : Counts).dict, []) = .ok ([⟨[els], bracketed n, raw⟩], c.dict, count) := by
    rw [List.foldlM_cons]
    unfold elementsStep
    rw [hrep, hp, okBind]
    dsimp only
    rw [sum_counts, okBind]
    simp [pure, Except.pure, bind, Except.bind, List.foldlM]
  rw [hstep, okBind]
  dsimp only
  have hbuild : buildReferences fmt [⟨[els], bracketed n, raw⟩] = .ok [r] := by
    unfold buildReferences
    simp only [List.mapM_cons, List.mapM_nil, hr, okBind]
    rfl
  rw [hbuild, okBind, stats_dict, okBind]
  rfl

theorem references_plain {undesirable : Str → Str} {lib : Lib} {kbs : Kbs} {fmt : List FmtPart} {n : Nat} {s : Str} (hl : PlainLine n s) (h : NothingKnown kbs s)
    (hu : ∀ s, (∀ c ∈ s, isAscii c = true) → lib.unidecode s = s) (hw : undesirable (bracketed n ++ ' ' :: s) = bracketed n ++ ' ' :: s) :
    ∃ r table, parseReferences undesirable lib kbs fmt none [bracketed n ++ ' ' :: s] = .ok ([r], [0, 0, 0, 0, 0, 0, 1]) ∧
      PlainRecord n (bracketed n ++ ' ' :: s) s table ∧ ∀ k, vals r k = under k table := by
  rcases parse_plain hl h hu with ⟨h1, h2⟩ | ⟨y, u, h1, h2, h3, h4⟩
  · have hb : ∃ r, buildReferenceFields [textEl s] (bracketed n) (bracketed n ++ ' ' :: s) fmt = .ok r := ⟨_, rfl⟩
    obtain ⟨r, hr⟩ := hb
    refine ⟨r, _, references_of (calm_repair hl.calm hw) h2 hr, .undated h1, build_table hr ?_ (reported_ne s)⟩
    rw [List.flatMap_singleton, elEmits, ← miscEmit_eq]
    exact List.append_nil _
  · have hb : ∃ r, buildReferenceFields [textEl u, yearEl y] (bracketed n) (bracketed n ++ ' ' :: s) fmt = .ok r := ⟨_, rfl⟩
    obtain ⟨r, hr⟩ := hb
    refine ⟨r, _, references_of (calm_repair hl.calm hw) h4 hr, .dated h1 h3, ?_⟩
    rw [List.append_assoc]
    refine build_table hr ?_ ?_
    · rw [List.map_append, ← miscEmit_eq]
      show elEmits fmt (textEl u) ++ (elEmits fmt (yearEl y) ++ []) = _
      have e1 : elEmits fmt (yearEl y) = [(py! "year", some y)] := rfl
      have e2 : elEmits fmt (textEl u) = miscEmit u := by rw [elEmits]; exact List.append_nil _
      rw [e1, e2]
      rfl
    · intro q hq
      rcases List.mem_append.1 hq with hq | hq
      · exact reported_ne _ q hq
      · rw [List.mem_singleton.1 hq]; exact h2

end Py
