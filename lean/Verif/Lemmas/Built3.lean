import Verif.Lemmas.Built2
import Verif.Lemmas.Ident5
import Verif.Lemmas.Url2
import Verif.Lemmas.Lines

/-!
# Tagging identifiers of fixed shape, DOIs and URLs keeps tags whole
-/

open Py Spec
open scoped List

namespace Py

variable [UnicodeDB] {uni : Str → Str} {spell : Char → Str}

/-! ### Washing -/

omit [UnicodeDB] in
theorem zip_infix {x y : Char} {t : Str} (h : [x, y] <:+: t) : (x, y) ∈ t.zip t.tail := by
  obtain ⟨a, b, rfl⟩ := h
  induction a with
  | nil => simp
  | cons c a ih =>
    cases a with
    | nil => simp
    | cons d a =>
      simp only [List.cons_append, List.tail_cons, List.zip_cons_cons, List.mem_cons] at ih ⊢
      exact .inr ih

omit [UnicodeDB] in
theorem foreign_char {w : Str} {c : Char} (hc : c ∈ w) (h : ∀ t ∈ wholeTags, c ∉ t) : ∀ t ∈ wholeTags, ¬ w <:+: t :=
  fun t ht hi => h t ht (hi.subset hc)

omit [UnicodeDB] in
theorem clean_space1 {c : Char} (h : isSpace c = true) : Clean [c] := clean_spaces (by simpa [Spaces] using h)

omit [UnicodeDB] in
theorem Built.replaceC {d u : Nat} {a w r x : Str} (h : Built spell d u (a ++ w ++ r)) (hc : Clean w)
    (hin : ∀ t ∈ wholeTags, ¬ w <:+: t) (hx : NoAngle spell w → NoAngle spell x) : Built spell d u (a ++ x ++ r) :=
  h.replace (fun h => (hc _ h).1 rfl) (fun h => (hc _ h).2 rfl) hin (fun h => built_text (hx h))

theorem built_washes (S : Spelled uni spell) {d u : Nat} {s t : Str} (h : Washes s t) : Built spell d u s → Built spell d u t := by
  induction h with
  | refl => exact id
  | trans _ _ ih1 ih2 => exact fun h => ih2 (ih1 h)
  | @before a b w p hw hp =>
    intro hb
    have := Built.replaceC (a := a) (w := [w, p]) (r := b) (x := [p]) (by simpa using hb)
      ((clean_space1 hw).append (clean_in hp (by decide) (by decide)))
      (fun t ht hi => by
        have h1 : ∀ t ∈ wholeTags, ∀ q ∈ t.zip t.tail, isSpace q.1 = true → q.2 = '/' := by decide
        have h2 := h1 t ht _ (zip_infix hi) hw
        simp only at h2
        subst h2
        exact absurd hp (by decide))
      (fun h => h.of_sub (by simp +contextual))
    simpa using this
  | @after a b w hw =>
    intro hb
    have := Built.replaceC (a := a) (w := ['[', w]) (r := b) (x := ['[']) (by simpa using hb)
      ((Clean.one (by decide) (by decide)).append (clean_space1 hw))
      (foreign_char (c := '[') (by simp) (by decide))
      (fun h => h.of_sub (by simp +contextual))
    simpa using this
  | @run a b w v hw hv =>
    intro hb
    have := Built.replaceC (a := a) (w := [w, v]) (r := b) (x := [' ']) (by simpa using hb)
      ((clean_space1 hw).append (clean_space1 hv))
      (piece_of_char (p := isSpace) 1 (by simp [hw, hv]) (by decide))
      (fun _ => plain_ascii S (by decide) (by decide))
    simpa using this
  | @colon a b w p hw hp =>
    intro hb
    have := Built.replaceC (a := a) (w := [p, w, ':']) (r := b) (x := [':']) (by simpa using hb)
      ((clean_in hp (by decide) (by decide)).append ((clean_space1 hw).append (Clean.one (by decide) (by decide))))
      (foreign_char (c := ':') (by simp) (by decide))
      (fun h => h.of_sub (by simp +contextual))
    simpa using this
  | @hyphen a b h hh =>
    intro hb
    have := Built.replaceC (a := a) (w := [h]) (r := b) (x := ['-']) (by simpa using hb)
      (clean_in hh (by decide) (by decide))
      (foreign_char (c := h) (by simp) (by
        have : ∀ h ∈ hyphens, ∀ t ∈ wholeTags, h ∉ t := by decide
        exact this h hh))
      (fun _ => plain_ascii S (by decide) (by decide))
    simpa using this
  | @code a b =>
    intro hb
    have := Built.replaceC (a := a) (w := py! "\\255") (r := b) (x := ['-']) (by simpa using hb)
      (clean_all (by decide))
      (foreign_char (c := '\\') (by simp) (by decide))
      (fun _ => plain_ascii S (by decide) (by decide))
    simpa using this

/-! ### Identifiers of fixed shape -/

theorem built_fixed {lib : Lib} (S : Spelled uni spell) {ys ys5 : List Str} (h : lib.years = Re.alts (ys.map Re.str))
    (h5 : lib.years5 = Re.alts (ys5.map Re.str)) (hy : ∀ y ∈ ys, Clean y) (hy5 : ∀ y ∈ ys5, Clean y) {line : Str} {d u : Nat}
    (hl : Built spell d u line) : ∃ t, tagFixed lib line = .ok t ∧ Built spell d u t := by
  obtain ⟨a, t, ht, h1, h2⟩ := tagFixed_rewritten h h5 line
  refine ⟨t, ht, ?_⟩
  have hpos : ∀ P ∈ [PosYearFirst, PosYearMiddle, PosYearLast, PosBrackets], Fits spell P := by
    intro P hP
    simp only [List.mem_cons, List.not_mem_nil, or_false] at hP
    rcases hP with rfl | rfl | rfl | rfl
    · exact fits_posFirst S
    · exact fits_posMiddle S
    · exact fits_posLast S
    · exact fits_posBrackets S
  have ha : Built spell d u a := rewrittenBy_built (fun P hP => hpos P hP) h1 (built_washes S (washLine_washes line) hl)
  refine rewrittenBy_built (fun P hP => ?_) h2 (built_washes S (washLine_washes a) ha)
  show Fits spell P
  simp only [List.mem_append, List.mem_cons, List.not_mem_nil, or_false, List.mem_map] at hP
  rcases hP with (((hP | hP) | hP) | hP) | hP
  · rcases hP with rfl | rfl
    · exact fits_quoted
    · exact fits_isbn
  · rcases hP with rfl | rfl | rfl | rfl
    · exact fits_named S clean_year13 clean_month
    · exact fits_named S clean_digits clean_digits
    · exact fits_bare S (hy5 _)
    · exact fits_bare S (hy _)
  · rcases hP with rfl | ⟨x, hx, rfl⟩
    · exact fits_catchup S
    · have : ∀ x ∈ arxivArchives, x.1.all (fun c => c != '<' && c != '>') = true ∧ (x.2.2.getD []).all (fun c => isAscii c && c != '<') = true := by
        decide +kernel
      exact @fits_old _ uni spell S _ _ _ (this x hx).1 (this x hx).2
  · exact hpos P (by simpa using hP)
  · rcases hP with rfl | rfl
    · exact fits_atlas S code_before (by decide)
    · exact fits_atlas S code_since (by decide)

/-! ### DOIs -/

omit [UnicodeDB] in
theorem built_one {t : Str} : t = py! "<cds.DOI />" → Built spell 1 0 t := by
  rintro rfl
  exact ⟨[.tag (py! "<cds.DOI />")], by decide, by simp [PartOk, wholeTags], by decide, by decide⟩

omit [UnicodeDB] in
theorem built_oneUrl {t : Str} : t = py! "<cds.URL />" → Built spell 0 1 t := by
  rintro rfl
  exact ⟨[.tag (py! "<cds.URL />")], by decide, by simp [PartOk, wholeTags], by decide, by decide⟩

theorem built_dois {lib : Lib} {line : Str} (hl : NoAngle spell line) :
    Built spell (tagDois lib line).2.length 0 (tagDois lib line).1 := by
  rw [tagDois_eq]
  simp only [List.length_map, finditer, sub]
  have key : ∀ {pre s ps}, Scanned Rx.re_doi pre s ps → NoAngle spell s →
      Built spell (ps.filterMap Piece.match?).length 0 (ps.flatMap (Piece.out fun _ => py! "<cds.DOI />")) := by
    intro pre s ps h
    induction h with
    | nil => intro _; exact built_text (by intro c hc; cases hc)
    | @ch pre c t ps _ _ ih =>
      intro hn
      have h1 := Built.append (built_text (spell := spell) (x := [c]) (hn.of_sub (by simp))) (ih (hn.of_sub (by simp +contextual)))
      rw [Nat.zero_add, Nat.zero_add] at h1
      exact h1
    | @hit pre t ps m _ _ _ ih =>
      intro hn
      have h1 := Built.append (built_one (spell := spell) rfl) (ih (hn.of_sub (by simp +contextual)))
      have e : 1 + (ps.filterMap Piece.match?).length = (Piece.hit m :: ps |>.filterMap Piece.match?).length := by
        simp [Piece.match?]; omega
      rw [e] at h1
      simpa [Piece.out] using h1
  exact key (scan_scanned' doi_minLen line) hl

/-! ### URLs -/

theorem built_angle (S : Spelled uni spell) {d u : Nat} {a b : Str} (h : Built spell d u (a ++ '<' :: b)) :
    ∃ t ∈ wholeTags, ∃ r, '<' :: b = t ++ r := by
  obtain ⟨ps, e, hok, -, -⟩ := h.parts
  rcases render_cut e with ⟨pa, pb, rfl, -, e2⟩ | ⟨pa, t, pb, x, y, rfl, rfl, hx, hy, -, e2⟩
  · cases pb with
    | nil => cases e2
    | cons p pb =>
      have e3 : renderParts (p :: pb) = p.txt ++ renderParts pb := rfl
      have hp := hok p (by simp)
      cases p with
      | ch c =>
        rw [e3] at e2
        simp only [Part.txt, List.singleton_append, List.cons.injEq] at e2
        exfalso
        rw [e2.1, PartOk, S.ascii '<' (by decide)] at hp
        simp at hp
      | tag t => exact ⟨t, hp, renderParts pb, by rw [← e2, e3]; rfl⟩
  · exfalso
    have ht : x ++ y ∈ wholeTags := hok (.tag (x ++ y)) (by simp)
    have h1 : ∀ t ∈ wholeTags, '<' ∉ t.tail := by decide
    cases x with
    | nil => exact hx rfl
    | cons c x =>
      apply h1 _ ht
      cases y with
      | nil => exact absurd rfl hy
      | cons c' y =>
        simp only [List.cons_append, List.cons.injEq] at e2
        rw [e2.1]; simp

theorem built_no_anchor (S : Spelled uni spell) {d u : Nat} {a w b x y : Str} (h : Built spell d u (a ++ w ++ b)) : ¬ Anchor w x y := by
  rintro ⟨t1, s1, t2, s2, s3, q, q', s4, t3, rfl, h1, -⟩
  generalize e : (py! "<a") = z at h1
  cases h1 with
  | nil => cases e
  | @cons c _ _ _ hc h1 =>
    cases e
    cases h1 with
    | @cons c' _ _ _ hc' h1 =>
      cases h1
      have := caseVariants_plain (by decide) (by decide) hc
      subst this
      obtain ⟨t, ht, r, e⟩ := built_angle S (a := a) (b := c' :: _) (by simpa using h)
      have h2 : ∀ t ∈ wholeTags, ∃ c r, t = '<' :: c :: r ∧ c ∈ ['c', '/'] := by
        have : ∀ t ∈ wholeTags, t.head? = some '<' ∧ (t.tail.head? = some 'c' ∨ t.tail.head? = some '/') := by decide
        intro t ht
        obtain ⟨h1, h2⟩ := this t ht
        match t, h1, h2 with
        | c :: c' :: r, h1, h2 => 
          simp only [List.head?_cons, Option.some.injEq, List.tail_cons] at h1 h2
          exact ⟨c', r, by rw [h1], by simpa using h2⟩
        | [c], _, h2 => simp at h2
      obtain ⟨c'', r', rfl, h3⟩ := h2 t ht
      simp only [List.cons_append, List.cons.injEq, true_and] at e
      obtain ⟨rfl, -⟩ := e
      rcases caseVariants_ascii (by decide) (by decide) hc' with rfl | rfl <;> revert h3 <;> decide

theorem all2_mem_tag {x y : Str} (h : FoldsTo x y) {d : Char} (hd : d ∈ y) : ∃ c ∈ x, d ∈ caseVariants c := by
  induction h with
  | nil => cases hd
  | @cons c e x y h _ ih =>
    rcases List.mem_cons.1 hd with rfl | hd
    · exact ⟨c, by simp, h⟩
    · obtain ⟨c', h1, h2⟩ := ih hd
      exact ⟨c', by simp [h1], h2⟩

theorem clean_host {c : Char} {l : Str} (h : isWord c = true ∨ c ∈ l) (h1 : '<' ∉ l) (h2 : '>' ∉ l) : c ≠ '<' ∧ c ≠ '>' := by
  rcases h with h | h
  · refine ⟨?_, ?_⟩ <;> rintro rfl <;> cases h
  · refine ⟨?_, ?_⟩ <;> rintro rfl
    · exact h1 h
    · exact h2 h

theorem clean_url {x : Str} (h : UrlText x) : Clean x ∧ ':' ∈ x := by
  obtain ⟨sch, host, port, segs, sl, rfl, ⟨y, hy, hs⟩, -, h2, h3, h4, h5⟩ := h
  have hy' : ∀ y ∈ [py! "http://", py! "https://", py! "ftp://", py! "sftp://"], y.all (fun c => c != '<' && c != '>') = true ∧ ':' ∈ y := by decide
  refine ⟨((((clean_fold hs (hy' y hy).1).append ?_).append ?_).append ?_).append ?_, ?_⟩
  · exact fun c hc => clean_host (h2 c hc) (by decide) (by decide)
  · rcases h3 with rfl | ⟨ds, rfl, -, -, h3⟩
    · exact Clean.nil
    · exact Clean.cons (by decide) (by decide) (clean_of h3 isDec_lt isDec_gt)
  · intro c hc
    obtain ⟨p, hp, hc⟩ := List.mem_flatMap.1 hc
    rcases List.mem_cons.1 hc with rfl | hc
    · decide
    · exact clean_host ((h4 p hp).2 c hc) (by decide) (by decide)
  · rcases h5 with rfl | rfl <;> exact clean_all (by decide)
  · obtain ⟨c, h6, h7⟩ := all2_mem_tag hs (hy' y hy).2
    have := caseVariants_plain (by decide) (by decide) h7
    subst this
    simp [h6]

theorem clean_raw {w x : Str} (h : RawUrl w x) : Clean w ∧ ':' ∈ w := by
  obtain ⟨q, full, q', rfl, hq, hq', hu, -⟩ := h
  obtain ⟨h1, h2⟩ := clean_url hu
  refine ⟨(Clean.append ?_ h1).append ?_, by simp [h2]⟩
  · rcases hq with rfl | rfl | rfl <;> exact clean_all (by decide)
  · rcases hq' with rfl | rfl | rfl <;> exact clean_all (by decide)

theorem built_urls (S : Spelled uni spell) {d u : Nat} {line : Str} (hl : Built spell d u line) :
    Built spell d (u + (tagUrls line).2.length) (tagUrls line).1 := by
  have hla : LinksApart line := by
    intro a c w b x y e ha
    exact absurd ha (built_no_anchor S (a := a ++ [c]) (w := w) (b := b) (by simpa [e] using hl))
  obtain ⟨ws, ht, h2⟩ := tagUrls_cut hla
  have key : ∀ {s t ws}, Tagged (fun w => ∃ ud, CitesUrl w ud) (py! "<cds.URL />") s t ws → ∀ {u : Nat} (a : Str), Built spell d u (a ++ s) →
      Built spell d (u + ws.length) (a ++ t) := by
    intro s t ws h
    induction h with
    | nil => intro u a h; exact h
    | @ch c s t ws _ _ ih =>
      intro u a h
      have := ih (a ++ [c]) (by simpa using h)
      simpa using this
    | @hit w s t ws hp _ ih =>
      intro u a h
      obtain ⟨ud, hc | ⟨hc, -⟩⟩ := hp
      · exact absurd hc (built_no_anchor S (by simpa using h))
      · obtain ⟨c1, c2⟩ := clean_raw hc
        have h1 := Built.swap (a := a) (w := w) (r := s) (by simpa using h) (fun h => (c1 _ h).1 rfl) (fun h => (c1 _ h).2 rfl)
          (foreign_char c2 (by decide)) (fun _ => built_oneUrl (spell := spell) rfl)
        have := ih (a ++ py! "<cds.URL />") h1
        have e : u + (w :: ws).length = u + 1 + ws.length := by simp; omega
        rw [e]
        simpa using this
  have hlen : ∀ {ws : List Str} {us : List (Str × Str)}, All2 CitesUrl ws us → us.length = ws.length := by
    intro ws us h
    induction h with
    | nil => rfl
    | cons _ _ ih => simp [ih]
  have := key ht [] hl
  rw [hlen h2]
  exact this

/-! ### Counting -/

theorem built_tame (S : Spelled uni spell) {d u : Nat} {s : Str} (h : Built spell d u s) : Tame spell s := by
  obtain ⟨ps, rfl, hok, -, -⟩ := h.parts
  intro c hc
  obtain ⟨p, hp, hc⟩ := List.mem_flatMap.1 hc
  have := hok p hp
  cases p with
  | ch c' =>
    simp only [Part.txt, List.mem_singleton] at hc
    subst hc
    exact .inr this
  | tag t =>
    have h1 : ∀ t ∈ wholeTags, t.all isAscii = true := by decide
    exact tame_ascii S (h1 t this) c hc

theorem built_count (S : Spelled uni spell) {w T : Str} (hT : shape spell T = '<' :: (w ++ py! "/>")) (hw : '<' ∉ w)
    (hs : ∀ t ∈ wholeTags, t ≠ T → shut w (ink t) = true) {ps : List Part} (hok : ∀ p ∈ ps, PartOk spell p) :
    occurs ('<' :: w) (shape spell (renderParts ps)) ≤ tally T ps := by
  induction ps with
  | nil => simp [renderParts, shape, ink, occurs]
  | cons p ps ih =>
    have ih := ih fun q hq => hok q (by simp [hq])
    have hp := hok p (by simp)
    have e : renderParts (p :: ps) = p.txt ++ renderParts ps := rfl
    have et : tally T (p :: ps) = tally T [p] + tally T ps := tally_append T [p] ps
    rw [e, shape_append, et]
    cases p with
    | ch c =>
      have hn : NoAngle spell [c] := by
        intro c' hc'
        rw [List.mem_singleton.1 hc']
        exact hp
      simp only [Part.txt]
      rw [shut_occurs (shut_free hn.shape)]
      omega
    | tag t =>
      by_cases ht : t = T
      · subst ht
        have h1 : tally t [.tag t] = 1 := by simp [tally]
        simp only [Part.txt]
        rw [hT, List.cons_append, occurs, shut_occurs (shut_free (by simp [hw])), h1]
        split <;> omega
      · have h1 : ∀ t ∈ wholeTags, t.all isAscii = true := by decide
        have h2 : shape spell t = ink t := by rw [shape, spell_ascii S (h1 t hp)]
        simp only [Part.txt]
        rw [h2, shut_occurs (hs t hp ht)]
        omega

theorem built_occurs_doi (S : Spelled uni spell) {d u : Nat} {s : Str} (h : Built spell d u s) : occurs (py! "<cds.DOI") (shape spell s) ≤ d := by
  obtain ⟨ps, rfl, hok, rfl, -⟩ := h.parts
  refine built_count S (w := py! "cds.DOI") ?_ (by decide) (by decide) hok
  rw [shape, spell_ascii S (by decide)]
  decide

theorem built_occurs_url (S : Spelled uni spell) {d u : Nat} {s : Str} (h : Built spell d u s) : occurs (py! "<cds.URL") (shape spell s) ≤ u := by
  obtain ⟨ps, rfl, hok, -, rfl⟩ := h.parts
  refine built_count S (w := py! "cds.URL") ?_ (by decide) (by decide) hok
  rw [shape, spell_ascii S (by decide)]
  decide

end Py
