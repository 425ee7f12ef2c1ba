import Verif.Lemmas.Find
import Verif.Lemmas.Rebuild2
import Verif.Model.Strings
import Verif.Lemmas.Marker
import Verif.Spec.Strings

/-!
# Lemmas about the references of a string
-/

open Py Spec
open scoped List

namespace Py

theorem splitOn_ne (c : Char) (s : Str) : splitOn c s ≠ [] := by
  induction s with
  | nil => simp [splitOn]
  | cons x xs ih =>
    unfold splitOn
    split
    · simp
    · split <;> simp

theorem splitOn_free (c : Char) (s : Str) : ∀ l ∈ splitOn c s, c ∉ l := by
  induction s with
  | nil => simp [splitOn]
  | cons x xs ih =>
    unfold splitOn
    split
    · intro l hl
      rcases List.mem_cons.1 hl with rfl | hl
      · simp
      · exact ih l hl
    · next hx =>
      split
      · next h => exact absurd h (splitOn_ne c xs)
      · next y ys h =>
        rw [h] at ih
        intro l hl
        rcases List.mem_cons.1 hl with rfl | hl
        · have := ih y (by simp)
          simp only [List.mem_cons, not_or]
          exact ⟨fun e => hx e.symm, this⟩
        · exact ih l (by simp [hl])

theorem splitOn_join (c : Char) (s : Str) : join [c] (splitOn c s) = s := by
  induction s with
  | nil => rfl
  | cons x xs ih =>
    unfold splitOn
    split
    · next hx =>
      subst hx
      cases h : splitOn x xs with
      | nil => exact absurd h (splitOn_ne x xs)
      | cons y ys =>
        rw [h] at ih
        simp only [join, List.nil_append, ih, List.singleton_append]
    · split
      · next h => exact absurd h (splitOn_ne c xs)
      · next y ys h =>
        rw [h] at ih
        cases ys with
        | nil => simpa [join] using ih
        | cons z zs => simpa [join] using ih

theorem splitOn_linesOf (s : Str) : LinesOf s (splitOn '\n' s) :=
  ⟨splitOn_ne _ _, splitOn_free _ _, (splitOn_join _ _).symm⟩

theorem splitOn_length (c : Char) (s : Str) : (splitOn c s).length = s.count c + 1 := by
  induction s with
  | nil => rfl
  | cons x xs ih =>
    unfold splitOn
    split
    · next hx => subst hx; simp [ih]
    · next hx =>
      split
      · next h => exact absurd h (splitOn_ne c xs)
      · next y ys h =>
        rw [h] at ih
        rw [List.count_cons_of_ne (by simpa using hx)]
        simpa using ih

theorem body_append (a b : Str) : body (a ++ b) = body a ++ body b := by simp [body]

theorem body_ink (s : Str) : body s = (ink s).filter (· != '-') := by
  simp [body, ink, List.filter_filter, Bool.and_comm]

theorem body_join (ls : List Str) : body (join ['\n'] ls) = body ls.flatten := by
  induction ls with
  | nil => rfl
  | cons l ls ih =>
    cases ls with
    | nil => simp [join]
    | cons m ls =>
      rw [join, body_append, body_append, ih, List.flatten_cons, body_append,
        show body ['\n'] = [] by decide]
      simp [body_append]

theorem body_sublist {a b : Str} (h : a <+ b) : body a <+ body b := h.filter _

theorem body_ref {ps : List Str} {ref : Str} (h : RefOf ps ref) : body ref = body (ps.take 25).flatten := by
  obtain ⟨-, x, b, h1, rfl, h2, -⟩ := h
  obtain ⟨⟨qs, a1, a2⟩, -⟩ := joins_ink h1
  rw [ink_append, ink_spaces h2, List.append_nil] at a2
  rw [body_ink, a2]
  generalize ps.take 25 = ps at a1
  clear h1 a2 h2
  induction a1 with
  | nil => rfl
  | cons hab _ ih =>
    obtain ⟨k, hk⟩ := hab
    rw [List.flatten_cons, List.flatten_cons, body_append, ← ih, List.filter_append, body_ink, hk, List.filter_append]
    have : (List.replicate k '-').filter (· != '-') = [] := by
      rw [List.filter_eq_nil_iff]
      intro c hc
      simp [(List.mem_replicate.1 hc).2]
    rw [this, List.append_nil]

theorem body_refs {groups : List (List Str)} {refs : List Str} (h : All2 RefOf groups refs) :
    body refs.flatten <+ body groups.flatten.flatten := by
  induction h with
  | nil => exact List.Sublist.refl _
  | @cons g r gs rs hab _ ih =>
    rw [List.flatten_cons, List.flatten_cons, List.flatten_append, body_append, body_append, body_ref hab]
    refine List.Sublist.append (body_sublist ?_) ih
    have := List.take_append_drop 25 g
    conv => rhs; rw [← this]
    rw [List.flatten_append]
    exact List.sublist_append_left _ _

theorem cut_flatten {ls : List Str} {pss : List (List Str)} (h : All2 Spec.Cut ls pss) : pss.flatten.flatten = ls.flatten := by
  induction h with
  | nil => rfl
  | cons hab _ ih => rw [List.flatten_cons, List.flatten_append, ih, hab.1, List.flatten_cons]

theorem finish_body {w : List Str} (h : w.length ≤ 25) : body (finish w).flatten = body w.flatten := by
  unfold finish
  split
  · next e => simp at e; rw [e]
  · next e =>
    have := body_ref (refOf_prepare (ps := w) (by intro h; simp [h] at e))
    rw [List.take_of_length_le h] at this
    simpa using this

variable [UnicodeDB]

theorem step_body {mk : Marker} {ind : Bool} {s s' : Reb} {line : Str} (h : rebuildStep mk ind s line = .ok s')
    (hw : s.work.length + 1 ≤ 25) :
    s'.work.length ≤ s.work.length + 1 ∧
      body s'.refs.flatten ++ body s'.work.flatten = body s.refs.flatten ++ body s.work.flatten ++ body line := by
  unfold rebuildStep at h
  split at h
  · cases h
    refine ⟨by have := length_unlessEmpty line; simp; omega, ?_⟩
    rw [List.flatten_append, flatten_unlessEmpty, body_append, List.append_assoc]
  · next m hm =>
    obtain ⟨num, h1, h⟩ := bind_ok h
    obtain ⟨new, h2, h⟩ := bind_ok h
    cases h
    split
    · refine ⟨by have := length_unlessEmpty (line.drop m.start); simp only [newRef]; omega, ?_⟩
      simp only [newRef]
      rw [List.flatten_append, body_append, finish_body, flatten_unlessEmpty, List.flatten_append, body_append, flatten_unlessEmpty,
        List.append_assoc, List.append_assoc, List.append_assoc, ← body_append, List.take_append_drop]
      have := length_unlessEmpty (line.take m.start)
      simp
      omega
    · refine ⟨by simp, ?_⟩
      simp only [List.flatten_append, body_append, List.flatten_singleton, List.append_assoc]

theorem loop_body {mk : Marker} {ind : Bool} {s s' : Reb} {ls : List Str} (h : rebuildLoop mk ind s ls = .ok s')
    (hw : s.work.length + ls.length ≤ 25) :
    s'.work.length ≤ 25 ∧ body s'.refs.flatten ++ body s'.work.flatten = body s.refs.flatten ++ body s.work.flatten ++ body ls.flatten := by
  induction ls generalizing s with
  | nil => cases h; exact ⟨by simpa using hw, by simp [body]⟩
  | cons l ls ih =>
    obtain ⟨s1, h1, h⟩ := bind_ok h
    simp only [List.length_cons] at hw
    obtain ⟨a1, a2⟩ := step_body h1 (by omega)
    obtain ⟨b1, b2⟩ := ih h (by omega)
    refine ⟨b1, ?_⟩
    rw [b2, a2, List.flatten_cons, body_append, List.append_assoc]

theorem rebuild_body {sect : List Str} {mk : Option Marker} {refs : List Str} (h : rebuild sect mk = .ok refs)
    (hl : sect.length ≤ 25) : body refs.flatten = body sect.flatten := by
  obtain ⟨s, h1, h⟩ := bind_ok h
  cases h
  obtain ⟨a, b⟩ := loop_body h1 (by simpa using hl)
  rw [List.flatten_append, body_append, finish_body a, b]
  simp [body]

theorem rebuild_body_sub {sect : List Str} {mk : Option Marker} {refs : List Str} (h : rebuild sect mk = .ok refs) :
    body refs.flatten <+ body sect.flatten := by
  obtain ⟨pss, groups, a, b, c⟩ := rebuild_groups h
  have := body_refs c
  rwa [b, cut_flatten a] at this

omit [UnicodeDB] in
theorem dropOnly_sublist {α : Type} {P : α → Prop} {as bs : List α} (h : DropOnly P as bs) : bs <+ as := by
  induction h with
  | nil => exact .slnil
  | keep _ ih => exact .cons_cons _ ih
  | drop _ _ ih => exact .cons _ ih

omit [UnicodeDB] in
theorem flatten_sublist {as bs : List Str} (h : as <+ bs) : as.flatten <+ bs.flatten := by
  induction h with
  | slnil => exact .slnil
  | cons a _ ih => exact ih.trans (List.sublist_append_right _ _)
  | cons_cons a _ ih => exact (List.Sublist.refl _).append ih

theorem section_sublist {doc : List Str} {start stop : Nat} {title : Option Str} {same : Bool} {lines : List Str}
    (h : SectionOf doc start stop title same lines) : lines.flatten <+ doc.flatten := by
  obtain ⟨raw, h1, h2⟩ := h
  refine (flatten_sublist (dropOnly_sublist h2)).trans ?_
  have sub : ∀ n, (doc.take stop).drop n <+ doc := fun n => (List.drop_sublist _ _).trans (List.take_sublist _ _)
  cases h1 with
  | noTitle => exact flatten_sublist (sub _)
  | title => exact flatten_sublist (sub _)
  | @sameLine t l r h3 h4 h5 =>
    obtain ⟨u, e, -⟩ := h4
    have hl : start < doc.length := by
      rcases Nat.lt_or_ge start doc.length with h | h
      · exact h
      · rw [List.getElem?_eq_none h] at h3; cases h3
    have hd : doc.drop start = l :: doc.drop (start + 1) := by
      rw [List.drop_eq_getElem_cons hl]
      rw [List.getElem?_eq_getElem hl] at h3
      cases h3
      rfl
    refine List.Sublist.trans ?_ (flatten_sublist (List.drop_sublist start doc))
    rw [hd, List.flatten_cons, List.flatten_cons]
    refine List.Sublist.append ?_ (flatten_sublist ?_)
    · rw [e]; exact List.sublist_append_right _ _
    · rw [List.drop_take]
      exact List.take_sublist _ _
  | empty => exact List.nil_sublist _

theorem stringMarker_known {doc : List Str} : ∀ k, stringMarker doc = some k →
    ∃ pfx r, pfx.groups = [] ∧ r ∈ knownMarkers pfx ∧ k = Marker.of r := by
  intro k hk
  unfold stringMarker at hk
  split at hk
  · next d hd =>
    rcases (sectionBeginning_found hd).pattern with ⟨h, -⟩ | ⟨r, pfx, mk, h1, -, h2, h3⟩
    · rw [h] at hk; cases hk
    · rw [h1] at hk
      cases hk
      exact ⟨pfx, r, h3, h2, rfl⟩
  · cases hn : numerationInBody doc with
    | none => rw [hn] at hk; cases hk
    | some p =>
      rw [hn] at hk
      cases hk
      exact ⟨.eps, p.2, rfl, marker_known (numerationInBody_known (mk := p.1) hn), rfl⟩

/-! ### A single line -/

theorem search_of_match {r : Re} {s : Str} {m : Match} (h : reMatch r s = some m) : search r s = some m := by
  simp only [search, finditer, scan]
  unfold reMatch at h
  cases s with
  | nil => simp [scanGo, h, Piece.match?]
  | cons c t =>
    simp only [scanGo, h]
    split <;> simp [Piece.match?]

theorem match_zero {r : Re} {s : Str} {m : Match} (h : reMatch r s = some m) : m.start = 0 :=
  (reMatch_ok h).1

/-- Expressions that look neither behind nor ahead. -/
def _root_.Py.Re.blind : Re → Bool
  | .eps => true
  | .fail => true
  | .set _ => true
  | .str _ => true
  | .seq a b => a.blind && b.blind
  | .alt a b => a.blind && b.blind
  | .star _ a => a.blind
  | .group _ a => a.blind
  | .look _ _ => false
  | .behind _ _ => false
  | .bos => false
  | .eos => false
  | .wordb => false

theorem sem_blind {r : Re} : ∀ {pre w post : Str}, r.blind = true → Sem r pre w post → ∀ pre' post', Sem r pre' w post' := by
  induction r with
  | eps => intro pre w post _ h _ _; exact h
  | fail => intro pre w post _ h _ _; exact h
  | set k => intro pre w post _ h _ _; exact h
  | str v => intro pre w post _ h _ _; exact h
  | seq a b iha ihb =>
    intro pre w post hb h pre' post'
    simp only [Re.blind, Bool.and_eq_true] at hb
    obtain ⟨u, v, e, h1, h2⟩ := h
    exact ⟨u, v, e, iha hb.1 h1 _ _, ihb hb.2 h2 _ _⟩
  | alt a b iha ihb =>
    intro pre w post hb h pre' post'
    simp only [Re.blind, Bool.and_eq_true] at hb
    exact h.imp (fun h => iha hb.1 h _ _) (fun h => ihb hb.2 h _ _)
  | star g a iha =>
    intro pre w post hb h pre' post'
    obtain ⟨ws, e, h⟩ := h
    refine ⟨ws, e, ?_⟩
    clear e
    induction ws generalizing pre pre' with
    | nil => trivial
    | cons x xs ih => exact ⟨h.1, iha hb h.2.1 _ _, ih _ h.2.2⟩
  | group g a iha => intro pre w post hb h pre' post'; exact iha (by simpa [Re.blind] using hb) h _ _
  | look neg a _ => intro pre w post hb; cases hb
  | behind neg cs => intro pre w post hb; cases hb
  | bos => intro pre w post hb; cases hb
  | eos => intro pre w post hb; cases hb
  | wordb => intro pre w post hb; cases hb

theorem match_more {r : Re} (hr : r.blind = true) {s : Str} {m : Match} (h : reMatch r s = some m) (t : Str) :
    ∃ m, reMatch r (s ++ t) = some m := by
  obtain ⟨w, v, rfl, hs⟩ := (matchHere_isSome r [] s).1 ⟨m, h⟩
  refine (matchHere_isSome r [] (w ++ v ++ t)).2 ⟨w, v ++ t, by simp, sem_blind hr hs _ _⟩

omit [UnicodeDB] in
theorem lstrip_first {line : Str} (h : NoSpaceFirst line) : lstrip line = line := by
  cases line with
  | nil => rfl
  | cons c l =>
    have : isSpace c = false := h c rfl
    simp [lstrip, lstripP, this]

omit [UnicodeDB] in
theorem strip_prefix {line : Str} (h : NoSpaceFirst line) : ∃ t, line = strip line ++ t := by
  have e : strip line = rstrip line := by
    have := lstrip_first h
    unfold lstrip at this
    simp [strip, stripP, rstrip, this]
  rw [e]
  refine ⟨(line.reverse.takeWhile isSpace).reverse, ?_⟩
  unfold rstrip rstripP
  rw [← List.reverse_append, List.takeWhile_append_dropWhile, List.reverse_reverse]

theorem numerationInBody_one {line mk : Str} {r : Re} (h : numerationInBody [line] = some (mk, r)) : ∃ m, reMatch r line = some m := by
  unfold numerationInBody at h
  split at h
  · cases h
  · split at h
    · cases h
    · next r' m hm =>
      split at h
      · cases h
      · cases h; exact ⟨m, (matchList_some hm).2⟩

theorem findNumeration_one {line t : Str} {n : Nat} {r : Re} (h : (findSectionNumeration [line] n t).1.pattern = some r) :
    ∃ m, reMatch r line = some m := by
  unfold findSectionNumeration at h
  split at h
  · next mk r' f hn =>
    cases h
    unfold numerationInTitle at hn
    dsimp only at hn
    split at hn
    · cases hn
    · next hm => cases hn; exact ⟨_, (matchList_some hm).2⟩
  · split at h
    · next hn => cases h; exact numerationInBody_one hn
    · cases h

theorem sectionOuter_one {line : Str} {d : Details} {r : Re} : ∀ {rs : List Re}, sectionOuter [line] rs = some d → d.pattern = some r →
    ∃ m, reMatch r line = some m
  | [], h, _ => by cases h
  | a :: rs, h, hp => by
    unfold sectionOuter at h
    split at h
    · next d' hi =>
      cases h
      simp only [sectionInner, List.length_singleton, List.getElem?_cons_zero] at hi
      split at hi
      · cases hi
      · next m hm =>
        have e : ([line].drop 0).take 6 = [line] := rfl
        rw [e] at hi
        simp only [Bool.false_eq_true, if_false] at hi
        have : d = (findSectionNumeration [line] 0 ((m.group G.title).getD [])).1 := by
          split at hi <;> cases hi <;> rfl
        subst this
        exact findNumeration_one hp
    · exact sectionOuter_one h hp

theorem noTitle_one {line : Str} (hl : NoSpaceFirst line) {r : Re} (hr : r.blind = true) {d : Details} (h : noTitleLoop [line] r 1 = some d) :
    d.pattern = some r ∧ ∃ m, reMatch r line = some m := by
  simp only [noTitleLoop, List.getElem?_cons_zero] at h
  split at h
  · cases h
  · next m hm =>
    refine ⟨?_, ?_⟩
    · split at h <;> cases h
      rfl
    · unfold hasNumber at hm
      split at hm
      · cases hm
      · next m' hm' =>
        obtain ⟨t, e⟩ := strip_prefix hl
        obtain ⟨m2, h2⟩ := match_more hr hm' t
        exact ⟨m2, by rw [← e] at h2; exact h2⟩

theorem stringMarker_one {line : Str} (hl : NoSpaceFirst line) {k : Marker} (h : stringMarker [line] = some k) :
    ∃ m, reMatch k.re line = some m := by
  unfold stringMarker at h
  split at h
  · next d hd =>
    cases hp : d.pattern with
    | none => rw [hp] at h; cases h
    | some r =>
      rw [hp] at h
      cases h
      show ∃ m, reMatch r line = some m
      unfold sectionBeginning at hd
      split at hd
      · next d' hf => cases hd; exact sectionOuter_one hf hp
      · simp only [List.length_singleton] at hd
        split at hd
        · next hf =>
          cases hd
          obtain ⟨e, hm⟩ := noTitle_one hl (by decide) hf
          rw [hp] at e; cases e; exact hm
        · split at hd
          · next hf =>
            cases hd
            obtain ⟨e, hm⟩ := noTitle_one hl (by decide) hf
            rw [hp] at e; cases e; exact hm
          · obtain ⟨e, hm⟩ := noTitle_one hl (by decide) hd
            rw [hp] at e; cases e; exact hm
  · cases hn : numerationInBody [line] with
    | none => rw [hn] at h; cases h
    | some p =>
      rw [hn] at h
      cases h
      exact numerationInBody_one (mk := p.1) hn

omit [UnicodeDB] in
theorem splitOn_one {c : Char} : ∀ {s : Str}, c ∉ s → splitOn c s = [s]
  | [], _ => rfl
  | x :: xs, h => by
    simp only [List.mem_cons, not_or] at h
    simp [splitOn, Ne.symm h.1, splitOn_one h.2]

/-- A line that does not begin with white space is a single reference. -/
theorem stringLines_one {line : Str} (hl : NoSpaceFirst line) (hne : line ≠ []) (hn : '\n' ∉ line) (h4 : line.length ≤ 4300) :
    stringLines true line = .ok [strip line] := by
  have e : splitOn '\n' line = [line] := splitOn_one hn
  unfold stringLines
  simp only [e, if_true]
  obtain ⟨refs, hr⟩ := rebuild_total (mk := stringMarker [line]) (sect := [line]) (fun k hk => by
    obtain ⟨pfx, r, h1, h2, rfl⟩ := stringMarker_known k hk
    exact known_good h1 h2) (by simpa using h4)
  rw [hr]
  have hp : prepareRef [line] = strip line := by
    show rstrip (strip line) = strip line
    have : (line.dropWhile isSpace).reverse.dropWhile isSpace = ((line.dropWhile isSpace).reverse.dropWhile isSpace).dropWhile isSpace := by
      generalize (line.dropWhile isSpace).reverse = t
      induction t with
      | nil => rfl
      | cons c t ih =>
        by_cases hc : isSpace c = true
        · simpa [hc] using ih
        · simp [List.dropWhile_cons, hc]
    simp only [strip, stripP, rstrip, rstripP, lstripP, List.reverse_reverse]
    rw [← this]
  have start : ∀ m, search (chooseMarker [line] (stringMarker [line])).1.re line = some m → m.start = 0 := by
    intro m hm
    cases hk : stringMarker [line] with
    | none =>
      have hb : blankSeparated [line] = false := by
        unfold blankSeparated
        simp only [List.length_singleton, blankLoop, List.dropWhile_nil]
        split <;> simp
      rw [hk] at hm
      simp only [chooseMarker, hb, Bool.false_eq_true, if_false, indentMarker, search_bos] at hm
      exact match_zero hm
    | some k =>
      rw [hk] at hm
      obtain ⟨m', hm'⟩ := stringMarker_one hl hk
      simp only [chooseMarker] at hm
      rw [search_of_match hm'] at hm
      cases hm
      exact match_zero hm'
  obtain ⟨s, h1, h2⟩ := bind_ok hr
  simp only [rebuildLoop] at h1
  obtain ⟨s', h3, h1⟩ := bind_ok h1
  cases h1
  cases h2
  unfold rebuildStep at h3
  have hf : finish [line] = [strip line] := by simp [finish, hp]
  split at h3
  · cases h3
    simp [unlessEmpty, hne, hf]
  · next m hm =>
    obtain ⟨num, -, h3⟩ := bind_ok h3
    obtain ⟨new, -, h3⟩ := bind_ok h3
    cases h3
    split
    · rw [newRef, start m hm]
      show Except.ok (([] ++ finish ([] ++ unlessEmpty [])) ++ finish (unlessEmpty line)) = .ok [strip line]
      simp [unlessEmpty, hne, hf]
      rfl
    · simp [hf]

end Py
