import Verif.Lemmas.Known

/-!
# The title of a known journal is the only thing recognised
-/

open Py Spec
open scoped List

namespace Py

theorem atPos_split {l t : Str} {i : Nat} (h : AtPos l i t) (ht : t ≠ []) : ∃ a c, l = a ++ t ++ c ∧ a.length = i := atPos_stands h ht

theorem infix_around {x a d : Str} {u : Char} (hx : u ∉ x) (h : x <:+: a ++ u :: d) : x <:+: a ∨ x <:+: d := by
  obtain ⟨p, q, e⟩ := h
  rw [List.append_assoc] at e
  rcases List.append_eq_append_iff.1 e with ⟨y, e1, e2⟩ | ⟨y, e1, e2⟩
  · -- a = p ++ y, x ++ q = y ++ u :: d
    rcases List.append_eq_append_iff.1 e2 with ⟨z, e3, e4⟩ | ⟨z, e3, e4⟩
    · left; rw [e1, e3]; exact ⟨p, z, by simp⟩
    · cases z with
      | nil => left; rw [e1, e3]; exact ⟨p, [], by simp⟩
      | cons v z =>
        injection e4 with e4 e5
        subst e4
        exact absurd (by rw [e3]; simp) hx
  · cases y with
    | nil => right; simp at e2; cases x with
      | nil => exact List.nil_infix
      | cons v x => injection e2 with e3 e4; subst e3; simp at hx
    | cons v y =>
      injection e2 with e3 e4
      right; rw [e4]; exact ⟨y, q, by simp⟩

theorem infix_masked {x : Str} (hx : '_' ∉ x) : ∀ {n : Nat} {a d : Str}, 0 < n → x <:+: a ++ underscores n ++ d → x <:+: a ∨ x <:+: d
  | 0, _, _, h, _ => absurd h (Nat.lt_irrefl 0)
  | n + 1, a, d, _, h => by
    have e : a ++ underscores (n + 1) ++ d = a ++ '_' :: (underscores n ++ d) := by simp [underscores, List.replicate_succ]
    rw [e] at h
    rcases infix_around hx h with h | h
    · exact .inl h
    · cases n with
      | zero => right; simpa [underscores] using h
      | succ n =>
        rcases infix_masked (n := n + 1) (a := []) hx (Nat.succ_pos n) (by simpa using h) with h | h
        · left
          obtain rfl : x = [] := by simpa using h
          exact List.nil_infix
        · exact .inr h

variable [UnicodeDB]

theorem titleRe_hit {t : Str} {r : Re} (h : TitleRe t r) {l : Str} {m : Match} (hm : m ∈ finditer r l) : AtPos l m.start t ∧ m.txt.length = t.length + 1 := by
  have hsc := scan_scanned' (titleRe_minLen h) l
  obtain ⟨hh, -⟩ := scanned_hits hsc
  obtain ⟨-, -, a, b, e, hs, hsem, -⟩ := hh m hm
  obtain ⟨c, hc⟩ := sem_titleRe h hsem
  refine ⟨?_, by simp [hc]⟩
  rw [hc] at e
  have : m.start = a.length := by simpa using hs
  rw [this, e]
  have := atPos_append a t ([c] ++ b)
  simpa using this

/-- A pattern of titles finds the one place where its title stands alone. -/
theorem titleRe_single {t : Str} {r : Re} (h : TitleRe t r) (htw : ∃ x t', t = x :: t' ∧ isWord x = true) {a b : Str} {c : Char}
    (ha : ∀ x, a.getLast? = some x → isWord x = false ∧ x ≠ '/') (hc : isWord c = false)
    (hone : ∀ i, AtPos (a ++ t ++ c :: b) i t → i = a.length) :
    ∃ m, finditer r (a ++ t ++ c :: b) = [m] ∧ m.start = a.length := by
  have hsc := scan_scanned' (titleRe_minLen h) (a ++ t ++ c :: b)
  obtain ⟨-, hpw⟩ := scanned_hits hsc
  have hsem := alone_sem (b := b) h htw ha hc
  obtain ⟨m, hm, -, -⟩ := scanned_covers hsc (a := a) (b := t ++ c :: b) (by simp) (by simp)
    ((matchHere_isSome _ _ _).2 ⟨t ++ [c], b, by simp, by simpa using hsem⟩)
  have hmem : m ∈ finditer r (a ++ t ++ c :: b) := List.mem_filterMap.2 ⟨.hit m, hm, rfl⟩
  have hall : ∀ m ∈ finditer r (a ++ t ++ c :: b), m.start = a.length := fun m hm => hone _ (titleRe_hit h hm).1
  have hlen : ∀ m ∈ finditer r (a ++ t ++ c :: b), m.txt.length = t.length + 1 := fun m hm => (titleRe_hit h hm).2
  have hpw' : (finditer r (a ++ t ++ c :: b)).Pairwise (fun m n => m.start + m.txt.length ≤ n.start) := hpw
  generalize finditer r (a ++ t ++ c :: b) = ms at *
  match ms, hmem, hall, hlen, hpw' with
  | [], hmem, _, _, _ => cases hmem
  | [m], _, hall, _, _ => exact ⟨m, rfl, hall m (by simp)⟩
  | m :: n :: ms, _, hall, hlen, hpw =>
    exfalso
    have h1 := List.rel_of_pairwise_cons hpw (show n ∈ n :: ms by simp)
    have h2 := hall m (by simp)
    have h3 := hall n (by simp)
    have h4 := hlen m (by simp)
    omega

theorem titleLoop_none {pats : List (Str × Re)} {st : Titles} {t : Str} {r : Re} (hr : dget pats t = some r) (hre : TitleRe t r)
    (hn : ∀ i, ¬ AtPos st.line i t) : titleLoop pats st t = .ok st := by
  have : finditer r st.line = [] := by
    rw [List.eq_nil_iff_forall_not_mem]
    exact fun m hm => hn _ (titleRe_hit hre hm).1
  simp [titleLoop, hr, getKey, this, bind, Except.bind, pure, Except.pure]

theorem titleLoops_none {pats : List (Str × Re)} {st : Titles} : ∀ {keys : List Str}, (∀ t ∈ keys, ∃ r, dget pats t = some r ∧ TitleRe t r) →
    (∀ t ∈ keys, ∀ i, ¬ AtPos st.line i t) → keys.foldlM (titleLoop pats) st = .ok st
  | [], _, _ => rfl
  | t :: keys, h1, h2 => by
    obtain ⟨r, hr, hre⟩ := h1 t (by simp)
    rw [List.foldlM_cons, titleLoop_none hr hre (h2 t (by simp))]
    exact titleLoops_none (fun t ht => h1 t (by simp [ht])) (fun t ht => h2 t (by simp [ht]))

omit [UnicodeDB] in
theorem first_of_mem {α : Type} {K : α} : ∀ {ks : List α}, K ∈ ks → ∃ k1 k2, ks = k1 ++ K :: k2 ∧ K ∉ k1
  | x :: ks, h => by
    by_cases hx : K = x
    · exact ⟨[], ks, by rw [hx]; rfl, by simp⟩
    · obtain ⟨k1, k2, e, h1⟩ := first_of_mem (ks := ks) ((List.mem_cons.1 h).resolve_left hx)
      exact ⟨x :: k1, k2, by rw [e]; rfl, by simp [h1, hx]⟩

/-- A title that stands alone, with no other title outside of it, is all that is found. -/
theorem identifyJournals_single {pats : List (Str × Re)} {keys : List Str} {K a b : Str} {c : Char}
    (hk : ∀ t ∈ keys, t ≠ [] ∧ '_' ∉ t ∧ ∃ r, dget pats t = some r ∧ TitleRe t r) (hs : keys.Pairwise (fun a b => b.length ≤ a.length))
    (hK : K ∈ keys) (htw : ∃ x t', K = x :: t' ∧ isWord x = true)
    (ha : ∀ x, a.getLast? = some x → isWord x = false ∧ x ≠ '/') (hc : isWord c = false)
    (hno : ∀ t ∈ keys, ∀ i, AtPos (a ++ K ++ c :: b) i t → a.length ≤ i ∧ i + t.length ≤ a.length + K.length) :
    identifyJournals (a ++ K ++ c :: b) pats keys = .ok ⟨[(a.length, K)], a ++ underscores K.length ++ c :: b, [(K, 1)]⟩ := by
  obtain ⟨k1, k2, rfl, hk1⟩ := first_of_mem hK
  have hKne := (hk K hK).1
  obtain ⟨-, hK_, r, hr, hre⟩ := hk K hK
  unfold identifyJournals
  rw [List.foldlM_append]
  have h1 : ∀ t ∈ k1, ∀ i, ¬ AtPos (a ++ K ++ c :: b) i t := by
    intro t ht i hat
    have hlen : K.length ≤ t.length := (List.pairwise_append.1 hs).2.2 t ht K (by simp)
    obtain ⟨h2, h3⟩ := hno t (by simp [ht]) i hat
    have hi : i = a.length := by omega
    have hl : t.length = K.length := by omega
    have : t = K := by
      apply List.ext_getElem?
      intro k
      by_cases hk : k < t.length
      · rw [← hat k hk, hi, List.append_assoc]
        exact (atPos_append a K (c :: b)) k (by omega)
      · rw [List.getElem?_eq_none (by omega), List.getElem?_eq_none (by omega)]
    exact hk1 (this ▸ ht)
  rw [titleLoops_none (fun t ht => (hk t (by simp [ht])).2.2) h1]
  show (K :: k2).foldlM (titleLoop pats) _ = _
  rw [List.foldlM_cons]
  obtain ⟨m, hm, hms⟩ := titleRe_single hre htw ha hc (b := b) (fun i hi => by have := hno K hK i hi; omega)
  have hstep : titleLoop pats ⟨[], a ++ K ++ c :: b, []⟩ K = .ok ⟨[(a.length, K)], a ++ underscores K.length ++ c :: b, [(K, 1)]⟩ := by
    simp only [titleLoop, hr, getKey, bind, Except.bind, pure, Except.pure, hm, List.foldl_cons, List.foldl_nil, titleStep, hms]
    congr 2
    simp [splice]
  rw [hstep]
  refine titleLoops_none (fun t ht => (hk t (by simp [ht])).2.2) ?_
  intro t ht i hat
  obtain ⟨hne, h_, -⟩ := hk t (by simp [ht])
  have hpos := List.length_pos_iff.2 hne
  have hKpos := List.length_pos_iff.2 hKne
  have hout : ∀ k, k < t.length → ¬ (a.length ≤ i + k ∧ i + k < a.length + K.length) := by
    intro k hk hr
    have := hat k hk
    rw [List.append_assoc, List.getElem?_append_right (by omega), List.getElem?_append_left (by simp [underscores]; omega), underscores,
      List.getElem?_replicate, if_pos (by omega)] at this
    exact h_ (List.mem_of_getElem? this.symm)
  have hat' : AtPos (a ++ K ++ c :: b) i t := by
    intro k hk
    rw [← hat k hk]
    have := hout k hk
    dsimp only
    by_cases h1 : i + k < a.length
    · rw [List.append_assoc, List.append_assoc, List.getElem?_append_left h1, List.getElem?_append_left h1]
    · rw [List.getElem?_append_right (by simp; omega), List.getElem?_append_right (by simp [underscores]; omega)]
      simp [underscores]
  have := hno t (by simp [ht]) i hat'
  exact hout 0 hpos ⟨by omega, by omega⟩

/-- No report number is found. -/
theorem identifyRepnums_none {kbs : TagKbs} {w : Str} (hsl : '/' ∉ w)
    (h : ∀ p ∈ kbs.reportStd, ∃ r, dget kbs.reportPats p.1 = some r ∧ finditer r w = []) :
    identifyRepnums w kbs = .ok ⟨[], [], w⟩ := by
  unfold identifyRepnums
  have hw : replace w ['/'] [' '] = w := by
    rw [replace_char]
    refine (List.map_congr_left fun c hc => ?_).trans (List.map_id w)
    rw [if_neg]; rfl
    rintro rfl; exact hsl hc
  rw [hw]
  have : ∀ cs : List (Nat × Str), (∀ c ∈ cs, ∃ p ∈ kbs.reportStd, p.1 = c) → cs.foldlM (repnumCateg kbs.reportPats kbs.reportStd) ⟨[], [], w⟩ = .ok ⟨[], [], w⟩ := by
    intro cs
    induction cs with
    | nil => intro _; rfl
    | cons c cs ih =>
      intro hc
      obtain ⟨p, hp, rfl⟩ := hc c (by simp)
      obtain ⟨r, h1, h2⟩ := h p hp
      obtain ⟨s, h3⟩ := Option.isSome_iff_exists.1 ((dget_isSome kbs.reportStd p.1).2 (List.mem_map.2 ⟨p, hp, rfl⟩))
      rw [List.foldlM_cons]
      have : repnumCateg kbs.reportPats kbs.reportStd ⟨[], [], w⟩ p.1 = .ok ⟨[], [], w⟩ := by
        simp [repnumCateg, h1, h3, getKey, bind, Except.bind, h2, pure, Except.pure]
      rw [this]
      exact ih fun c hc' => hc c (by simp [hc'])
  exact this _ (by
    intro c hc
    have := (sortBy_perm _).mem_iff.1 hc
    obtain ⟨p, hp, rfl⟩ := List.mem_map.1 this
    exact ⟨p, hp, rfl⟩)

/-! ### The working line -/

omit [UnicodeDB] in
/-- A character as it is compared. -/
def rd (c : Char) : Char := unpunct (if isAsciiLower c then swapCase c else c)

omit [UnicodeDB] in
/-- Characters of the working line. -/
abbrev readChars : List Char := py! "ABCDEFGHIJKLMNOPQRSTUVWXYZ0123456789 :[]"

theorem upper_rd {s : Str} (h : ∀ c ∈ s, c ∈ calmChars) : (upper s).map unpunct = s.map rd := by
  have ha : ∀ c ∈ calmChars, isAscii c = true := by decide
  induction s with
  | nil => rfl
  | cons c s ih =>
    have := ih fun c hc => h c (by simp [hc])
    simp only [upper, List.flatMap_cons, List.map_append, List.map_cons] at this ⊢
    rw [this, upperC, if_pos (ha c (h c (by simp)))]
    rfl

omit [UnicodeDB] in
theorem rd_chars {c : Char} (h : c ∈ calmChars) : rd c ∈ readChars := by
  have : ∀ c ∈ calmChars, rd c ∈ readChars := by decide
  exact this c h

omit [UnicodeDB] in
theorem readChars_space {c : Char} (h : c ∈ readChars) (hs : isSpace c = true) : c = ' ' := by
  have : ∀ c ∈ readChars, isSpace c = true → c = ' ' := by decide
  exact this c h hs

theorem reading_chars {s : Str} (h : ∀ c ∈ s, c ∈ calmChars) : ∀ c ∈ reading s, c ∈ readChars := by
  intro c hc
  have := squeezed_mem hc
  rw [upper_rd h] at this
  obtain ⟨d, hd, rfl⟩ := List.mem_map.1 this
  exact rd_chars (h d hd)

theorem upper_read {s : Str} (h : ∀ c ∈ s, c ∈ readChars ∨ c = '_') : upper s = s := by
  have ha : ∀ c ∈ readChars, isAscii c = true ∧ isAsciiLower c = false := by decide
  induction s with
  | nil => rfl
  | cons c s ih =>
    rw [upper, List.flatMap_cons]
    have e : upperC c = [c] := by
      rcases h c (by simp) with h | rfl
      · rw [upperC, if_pos (ha c h).1, (ha c h).2]; rfl
      · rfl
    rw [e]
    exact congrArg (c :: ·) (ih fun c hc => h c (by simp [hc]))

theorem solid_word {c : Char} (h : c ∈ solidChars) : isWord (rd c) = true ∧ isSpace (rd c) = false := by
  have : (solidChars.all fun c => isWord (rd c) && !isSpace (rd c)) = true := rfl
  simpa using List.all_eq_true.1 this c h

/-- What is recognised in a line with the title of one known journal. -/
theorem recognise_single {kbs : TagKbs} {pre b rest K : Str} (hX : Calm (pre ++ b ++ rest)) (hkb : TitleKb kbs)
    (hp : pre = [] ∨ pre.getLast? = some ' ') (hb1 : ∃ x ∈ solidChars, b.head? = some x) (hb2 : ∃ x ∈ solidChars, b.getLast? = some x)
    (hr : ∃ x ∈ py! " .,;:()-", rest.head? = some x) (hK : reading b = K) (hmem : K ∈ kbs.journalKeys)
    (hno : ∀ k ∈ kbs.journalKeys, ∀ i ≤ (reading (pre ++ b ++ rest)).length, k.isPrefixOf ((reading (pre ++ b ++ rest)).drop i) = true →
      (reading pre).length ≤ i ∧ i + k.length ≤ (reading pre).length + K.length)
    (hrep : ∀ p ∈ kbs.reportStd, ∃ r, dget kbs.reportPats p.1 = some r ∧ finditer r (reading (pre ++ b ++ rest)) = [])
    (hib : ¬ py! "IBID" <:+: reading (pre ++ b ++ rest))
    (hpub : ∀ p ∈ kbs.publishers, finditer p.2.1 (reading pre ++ underscores K.length ++ reading rest) = [])
    (hre : ∀ p ∈ kbs.journalsRe, search p.2.1 (pre ++ b ++ rest) = none) :
    ∃ f n, recognise (pre ++ b ++ rest) kbs = .ok (f, [(K, n)]) ∧ reading (pre ++ b ++ rest) = reading pre ++ K ++ reading rest ∧
      f.journals = [((reading pre).length, K)] ∧ f.repLens = [] ∧ f.repTexts = [] ∧ f.publishers = [] ∧
      f.std = dupdate kbs.journalStd (kbs.journalsRe.map fun p => (p.1, p.2.2)) ∧
      accountSpaces f.spaces (some K.length) (reading pre).length = (pre.length, b.length - K.length) ∧ K.length ≤ b.length := by
  have hc := hX.chars
  obtain ⟨x, hx1, hx2⟩ := hb1
  obtain ⟨y, hy1, hy2⟩ := hb2
  obtain ⟨z, hz1, hz2⟩ := hr
  have hcp : ∀ c ∈ pre, c ∈ calmChars := fun c h => hc c (by simp [h])
  have hcb : ∀ c ∈ b, c ∈ calmChars := fun c h => hc c (by simp [h])
  have hcr : ∀ c ∈ rest, c ∈ calmChars := fun c h => hc c (by simp [h])
  have hcl : cleanedLine (pre ++ b ++ rest) = pre.map rd ++ b.map rd ++ rest.map rd := by
    rw [cleaned_eq, calm_strip hX, upper_rd hc, List.map_append, List.map_append]
  have hsp : ∀ c ∈ pre.map rd ++ b.map rd ++ rest.map rd, isSpace c = true → c = ' ' := by
    intro c h
    rw [← List.map_append, ← List.map_append] at h
    obtain ⟨d, hd, rfl⟩ := List.mem_map.1 h
    exact readChars_space (rd_chars (hc d hd))
  obtain ⟨w1, w2, w3⟩ := squeezed_place hsp ⟨rd x, by rw [List.head?_map, hx2]; rfl, (solid_word hx1).2⟩
    ⟨rd y, by rw [List.getLast?_map, hy2]; rfl, (solid_word hy1).2⟩
  have e1 : squeezed (pre.map rd) = reading pre := by rw [reading, upper_rd hcp]
  have e2 : squeezed (b.map rd) = K := by rw [← hK, reading, upper_rd hcb]
  have e3 : squeezed (rest.map rd) = reading rest := by rw [reading, upper_rd hcr]
  rw [e1, e2, e3] at w1
  rw [e1, e2, List.length_map, List.length_map] at w2
  rw [e2, List.length_map] at w3
  have e4 : reading (pre ++ b ++ rest) = reading pre ++ K ++ reading rest := by
    rw [reading, upper_rd hc, ← compress_squeezed (by simpa using hsp)]
    simpa using w1
  have hrc := reading_chars hc
  have hsl : '/' ∉ reading (pre ++ b ++ rest) := fun h => absurd (hrc _ h) (by decide)
  obtain ⟨pairs, j1, j2, j3⟩ := hkb
  obtain ⟨d, rest', hd⟩ : ∃ d r, reading rest = d :: r := by
    have : (reading rest).head? = some (rd z) := by rw [← e3, squeezed_head, List.head?_map, hz2]; rfl
    cases h : reading rest with
    | nil => rw [h] at this; cases this
    | cons d r => exact ⟨d, r, rfl⟩
  have hdz : d = rd z := by
    have : (reading rest).head? = some (rd z) := by rw [← e3, squeezed_head, List.head?_map, hz2]; rfl
    rw [hd] at this; exact Option.some.inj this
  have hdw : isWord d = false := by
    have : ((py! " .,;:()-").all fun c => !isWord (rd c)) = true := rfl
    rw [hdz]
    simpa using List.all_eq_true.1 this z hz1
  have hKhead : ∃ x t', K = x :: t' ∧ isWord x = true := by
    have : K.head? = some (rd x) := by rw [← e2, squeezed_head, List.head?_map, hx2]; rfl
    cases h : K with
    | nil => rw [h] at this; cases this
    | cons k K' =>
      rw [h] at this
      exact ⟨k, K', rfl, by rw [Option.some.inj this]; exact (solid_word hx1).1⟩
  have hlast : ∀ x, (reading pre).getLast? = some x → isWord x = false ∧ x ≠ '/' := by
    intro c h
    rw [← e1, squeezed_last, List.getLast?_map] at h
    rcases hp with rfl | hp
    · cases h
    · rw [hp] at h
      have : c = ' ' := (Option.some.inj h.symm).trans (by decide)
      subst this
      exact ⟨rfl, by decide⟩
  have htit := identifyJournals_single (pats := kbs.journalPats) (keys := kbs.journalKeys) (K := K) (a := reading pre) (b := rest') (c := d)
    (fun t ht => ⟨(j3 t ht).1, (j3 t ht).2, by rw [j1]; exact buildJournals_pats pairs t (by rw [← j2]; exact ht)⟩)
    (by rw [j2]; exact buildJournals_sorted pairs) hmem hKhead hlast hdw (by
      intro t ht i hat
      obtain ⟨u, v, e, rfl⟩ := atPos_split hat (j3 t ht).1
      rw [← hd, ← e4] at e
      have h1 := hno t ht u.length (by rw [e]; simp) (by
        rw [e, List.append_assoc, List.drop_left]; exact List.isPrefixOf_iff_prefix.2 (List.prefix_append t v))
      have := congrArg List.length e
      rw [e4] at this
      simp at this
      omega)
  rw [← hd, ← e4] at htit
  have hby : identifyJournalsRe (pre ++ b ++ rest) kbs.journalsRe = [] := by
    unfold identifyJournalsRe
    have : ∀ l : List (Str × Re × Str), (∀ p ∈ l, search p.2.1 (pre ++ b ++ rest) = none) →
        l.foldl (fun d p => match search p.2.1 (pre ++ b ++ rest) with | some m => dset d m.start m.txt | none => d) ([] : List (Nat × Str)) = [] := by
      intro l
      induction l with
      | nil => intro _; rfl
      | cons p l ih =>
        intro h
        rw [List.foldl_cons, h p (by simp)]
        exact ih fun p hp => h p (by simp [hp])
    exact this _ hre
  have hpu : identifyPublishers (reading pre ++ underscores K.length ++ reading rest) kbs.publishers = [] := by
    rw [List.eq_nil_iff_forall_not_mem]
    intro q hq
    obtain ⟨p, hp, -, m, hm, -⟩ := publishers_mem hq
    rw [hpub p hp] at hm
    cases hm
  have hKpos : 0 < K.length := by
    obtain ⟨x, t', rfl, -⟩ := hKhead
    simp
  have hfind : (find (py! "IBID") (upper (reading pre ++ underscores K.length ++ reading rest))).isSome = false := by
    rw [upper_read]
    · cases h : find (py! "IBID") (reading pre ++ underscores K.length ++ reading rest) with
      | none => rfl
      | some i =>
        exfalso
        have hinf : py! "IBID" <:+: reading pre ++ underscores K.length ++ reading rest := by
          obtain ⟨u, v, e⟩ := find_isSome_iff.1 (by rw [h]; rfl)
          exact ⟨u, v, e.symm⟩
        rcases infix_masked (by decide) hKpos hinf with h | h
        · exact hib (h.trans ⟨[], K ++ reading rest, by rw [e4]; simp⟩)
        · exact hib (h.trans ⟨reading pre ++ K, [], by rw [e4]; simp⟩)
    · intro c h
      rw [List.mem_append, List.mem_append] at h
      rcases h with (h | h) | h
      · exact .inl (reading_chars hcp c h)
      · exact .inr (List.eq_of_mem_replicate h)
      · exact .inl (reading_chars hcr c h)
  refine ⟨⟨[((reading pre).length, K)], [], [], [], sortBy (fun x y => decide (x.1 ≤ y.1)) (compressSpaces (pre.map rd ++ b.map rd ++ rest.map rd)).1,
    dupdate kbs.journalStd (kbs.journalsRe.map fun p => (p.1, p.2.2))⟩, 1, ?_, e4, rfl, rfl, rfl, rfl, rfl, w2, w3⟩
  unfold recognise
  rw [hby, hcl]
  have hw : (compressSpaces (pre.map rd ++ b.map rd ++ rest.map rd)).2 = reading (pre ++ b ++ rest) := by rw [w1, e4]
  generalize hC : compressSpaces (pre.map rd ++ b.map rd ++ rest.map rd) = C at hw
  obtain ⟨spaces, w⟩ := C
  dsimp only at hw ⊢
  subst hw
  rw [identifyRepnums_none hsl hrep, okBind]
  dsimp only
  rw [htit, okBind]
  dsimp only
  rw [hfind]
  simp only [Bool.false_eq_true, if_false, ← hd, hpu]
  rfl

end Py
