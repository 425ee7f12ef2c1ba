import Verif.Model.Parse
import Verif.Lemmas.Pipeline
import Verif.Lemmas.Split2
import Verif.Lemmas.Split
import Verif.Lemmas.Record2

/-!
# Helper lemmas: lists of reference lines
-/

namespace Py
open Spec

theorem eachCit_length {f : Heap → List Nat → Py (Heap × List Nat)} {h h' : Heap} {cs cs' : List (List Nat)}
    (e : eachCit f h cs = .ok (h', cs')) : cs'.length = cs.length := by
  induction cs generalizing h h' cs' with
  | nil => cases e; rfl
  | cons c cs ih =>
    simp only [eachCit] at e
    obtain ⟨⟨h1, c1⟩, -, e⟩ := bind_ok e
    dsimp only at e
    obtain ⟨⟨h2, c2⟩, e2, e⟩ := bind_ok e
    cases pure_ok e
    simp [ih e2]

theorem impliedIbids_length [UnicodeDB] {cur : Option Nat} {h h' : Heap} {cs cs' : List (List Nat)}
    (e : impliedIbids cur h cs = .ok (h', cs')) : cs'.length = cs.length := by
  induction cs generalizing cur h h' cs' with
  | nil => cases e; rfl
  | cons c cs ih =>
    simp only [impliedIbids] at e
    obtain ⟨⟨h1, c1⟩, -, e⟩ := bind_ok e
    dsimp only at e
    obtain ⟨⟨h2, c2⟩, e2, e⟩ := bind_ok e
    cases pure_ok e
    simp [ih e2]

theorem enrich_length [UnicodeDB] {books : Books} {link : Option Linker} {h h' : Heap} {cs cs' : List (List Nat)}
    (e : enrich books link h cs = .ok (h', cs')) : cs'.length = cs.length := by
  unfold enrich at e
  obtain ⟨⟨h1, c1⟩, e1, e⟩ := bind_ok e
  dsimp only at e
  obtain ⟨⟨h2, c2⟩, e2, e⟩ := bind_ok e
  dsimp only at e
  obtain ⟨⟨h3, c3⟩, e3, e⟩ := bind_ok e
  dsimp only at e
  have l := (eachCit_length e3).trans ((eachCit_length e2).trans (impliedIbids_length e1))
  cases link with
  | none => cases pure_ok e; exact l
  | some k => exact (eachCit_length e).trans l

theorem dedupe_length {h h' : Heap} {cs cs' : List (List Nat)} (e : dedupe h cs = .ok (h', cs')) : cs'.length = cs.length := by
  unfold dedupe at e
  obtain ⟨⟨h1, c1⟩, e1, e⟩ := bind_ok e
  dsimp only at e
  obtain ⟨⟨h2, c2⟩, e2, e⟩ := bind_ok e
  dsimp only at e
  obtain ⟨⟨h3, c3⟩, e3, e⟩ := bind_ok e
  dsimp only at e
  rw [eachCit_length e, eachCit_length e3, eachCit_length e2, eachCit_length e1]

theorem postProcess_ne [UnicodeDB] {special : List Str} {books : Books} {link : Option Linker} {els : List El}
    {cs : List (List El)} (e : postProcess special books link els = .ok cs) : cs ≠ [] := by
  unfold postProcess at e
  obtain ⟨els', e1, e⟩ := bind_ok e
  dsimp only at e
  obtain ⟨⟨h, c1⟩, e2, e⟩ := bind_ok e
  dsimp only at e
  obtain ⟨⟨h', c2⟩, e3, e⟩ := bind_ok e
  cases pure_ok e
  have l := (dedupe_length e3).trans (enrich_length e2)
  intro h
  have h0 : c2.length = 0 := by simpa using congrArg List.length h
  rw [h0] at l
  have : splitCitations els' ≠ [] := split_length _ _
  apply this
  simpa using l.symm

theorem parseReferenceLine_ok [UnicodeDB] {lib : Lib} {kbs : Kbs} {link : Option Linker} {line : Str} {bad bad' : List (Str × Nat)}
    {cs : List (List El)} {marker : Str} {n : Counts} (e : parseReferenceLine lib kbs link line bad = .ok (cs, marker, n, bad')) :
    cs ≠ [] ∧ marker = (removeMarker line).1 ∧ ∃ tagged dois urls els, parseTagged tagged dois urls = .ok (els, n) ∧
      postProcess kbs.special kbs.books link els = .ok cs := by
  unfold parseReferenceLine at e
  dsimp only at e
  obtain ⟨⟨t, b⟩, e1, e⟩ := bind_ok e
  dsimp only at e
  obtain ⟨⟨els, k⟩, e2, e⟩ := bind_ok e
  dsimp only at e
  obtain ⟨c, e3, e⟩ := bind_ok e
  cases pure_ok e
  exact ⟨postProcess_ne e3, rfl, _, _, _, _, e2, e3⟩

theorem sum_counts (a n : Counts) : sumDicts a.dict n.dict = .ok n.dict := by
  rfl

theorem all2_append {α β : Type} {R : α → β → Prop} {as as' : List α} {bs bs' : List β} (h : All2 R as bs) (h' : All2 R as' bs') :
    All2 R (as ++ as') (bs ++ bs') := by
  induction h with
  | nil => exact h'
  | cons h1 _ ih => exact .cons h1 ih

/-- What one line becomes. -/
def LineResult [UnicodeDB] (undesirable : Str → Str) (lib : Lib) (kbs : Kbs) (link : Option Linker) (line : Str) (p : ParsedLine × Counts) : Prop :=
  p.1.raw = line ∧ ∃ bad bad', parseReferenceLine lib kbs link (washRepair undesirable line) bad = .ok (p.1.elements, p.1.marker, p.2, bad')

theorem elements_fold [UnicodeDB] {undesirable : Str → Str} {lib : Lib} {kbs : Kbs} {link : Option Linker} {lines : List Str}
    {pls pls' : List ParsedLine} {a : Counts} {counts bad bad' : List (Str × Nat)}
    (e : lines.foldlM (elementsStep undesirable lib kbs link) (pls, a.dict, bad) = .ok (pls', counts, bad')) :
    ∃ ps : List (ParsedLine × Counts), pls' = pls ++ ps.map (·.1) ∧ All2 (LineResult undesirable lib kbs link) lines ps ∧
      counts = ((ps.map (·.2)).getLast?.getD a).dict := by
  induction lines generalizing pls a bad with
  | nil =>
    cases pure_ok e
    exact ⟨[], by simp, .nil, rfl⟩
  | cons l ls ih =>
    rw [List.foldlM_cons] at e
    obtain ⟨⟨p1, c1, b1⟩, e1, e⟩ := bind_ok e
    unfold elementsStep at e1
    obtain ⟨⟨cs, m, n, b2⟩, e2, e1⟩ := bind_ok e1
    dsimp only at e1
    rw [sum_counts] at e1
    obtain ⟨_, h, e1⟩ := bind_ok e1
    cases h
    cases pure_ok e1
    obtain ⟨ps, h1, h2, h3⟩ := ih e
    refine ⟨(⟨cs, m, l⟩, n) :: ps, by simp [h1], .cons ⟨rfl, _, _, e2⟩ h2, ?_⟩
    rw [h3]
    simp only [List.map_cons]
    cases ps with
    | nil => rfl
    | cons p ps => simp [List.getLast?_cons]

theorem mapM_ok {α β : Type} {f : α → Py β} {as : List α} {bs : List β} (e : as.mapM f = .ok bs) :
    All2 (fun a b => f a = .ok b) as bs := by
  induction as generalizing bs with
  | nil => cases pure_ok e; exact .nil
  | cons a as ih =>
    rw [List.mapM_cons] at e
    obtain ⟨b, e1, e⟩ := bind_ok e
    obtain ⟨bs', e2, e⟩ := bind_ok e
    cases pure_ok e
    exact .cons e1 (ih e2)

theorem all2_mem {α β : Type} {R : α → β → Prop} {as : List α} {bs : List β} (h : All2 R as bs) {b : β} (hb : b ∈ bs) :
    ∃ a ∈ as, R a b := by
  induction h with
  | nil => cases hb
  | cons h1 _ ih =>
    rcases List.mem_cons.1 hb with rfl | hb
    · exact ⟨_, by simp, h1⟩
    · obtain ⟨a, h2, h3⟩ := ih hb
      exact ⟨a, by simp [h2], h3⟩

theorem all2_ne {α β : Type} {R : α → β → Prop} {as : List α} {bs : List β} (h : All2 R as bs) (ha : as ≠ []) : bs ≠ [] := by
  cases h with
  | nil => exact absurd rfl ha
  | cons => simp

theorem stats_dict (n : Counts) : buildStats n.dict = .ok [0, n.reportnum, n.title, n.auth, n.url, n.doi, n.misc] := rfl

theorem all2_imp {α β : Type} {R S : α → β → Prop} (hrs : ∀ a b, R a b → S a b) {as : List α} {bs : List β} (h : All2 R as bs) :
    All2 S as bs := by
  induction h with
  | nil => exact .nil
  | cons h1 _ ih => exact .cons (hrs _ _ h1) ih

theorem all2_trans {α β γ : Type} {R : α → β → Prop} {S : β → γ → Prop} {as : List α} {bs : List β} {cs : List γ}
    (h : All2 R as bs) (h' : All2 S bs cs) : All2 (fun a c => ∃ b, R a b ∧ S b c) as cs := by
  induction h generalizing cs with
  | nil => cases h'; exact .nil
  | cons h1 _ ih =>
    cases h' with
    | cons h2 h3 => exact .cons ⟨_, h1, h2⟩ (ih h3)

theorem all2_map_left {α β γ : Type} {R : β → γ → Prop} {f : α → β} {as : List α} {cs : List γ} (h : All2 R (as.map f) cs) :
    All2 (fun a c => R (f a) c) as cs := by
  induction as generalizing cs with
  | nil => cases h; exact .nil
  | cons a as ih =>
    cases h with
    | cons h1 h2 => exact .cons h1 (ih h2)

theorem parseReferences_ok [UnicodeDB] {undesirable : Str → Str} {lib : Lib} {kbs : Kbs} {fmt : List FmtPart} {link : Option Linker}
    {lines : List Str} {refs : List Field} {stats : List Nat}
    (e : parseReferences undesirable lib kbs fmt link lines = .ok (refs, stats)) :
    ∃ (ps : List (ParsedLine × Counts)) (blocks : List (List Field)), All2 (LineResult undesirable lib kbs link) lines ps ∧
      refs = blocks.flatten ∧
      All2 (fun p b => All2 (fun els f => buildReferenceFields els p.1.marker p.1.raw fmt = .ok f) p.1.elements b) ps blocks ∧
      buildStats ((ps.map (fun p => p.2)).getLast?.getD ({} : Counts)).dict = .ok stats := by
  unfold parseReferences at e
  obtain ⟨⟨pls, counts, bad⟩, e1, e⟩ := bind_ok e
  dsimp only at e
  obtain ⟨fs, e2, e⟩ := bind_ok e
  obtain ⟨st, e3, e⟩ := bind_ok e
  cases pure_ok e
  obtain ⟨ps, h1, h2, h3⟩ := elements_fold e1
  unfold buildReferences at e2
  obtain ⟨blocks, e4, e2⟩ := bind_ok e2
  cases pure_ok e2
  refine ⟨ps, blocks, h2, rfl, ?_, by rw [← h3]; exact e3⟩
  have := mapM_ok e4
  rw [h1, List.nil_append] at this
  exact all2_imp (fun _ _ h => mapM_ok h) (all2_map_left this)

end Py
