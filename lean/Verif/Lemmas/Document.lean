import Verif.Lemmas.Section3
import Verif.Model.Document
import Verif.Spec.Document

/-!
# Lemmas about documents in files
-/

open Py Spec
open scoped List

namespace Py

/-! ### Reading lines -/

/-- A line with its end. -/
def ended (l : Str) : Str := l ++ ['\n']

theorem newlines_line {l s : Str} (h : '\r' ∉ l) : newlines (l ++ s) = l ++ newlines s := by
  induction l with
  | nil => rfl
  | cons c l ih =>
    simp only [List.mem_cons, not_or] at h
    rw [List.cons_append, newlines, if_neg fun e => h.1 e.symm, ih h.2]
    rfl

theorem readLines_line {l s : Str} (h : '\n' ∉ l) : readLines (l ++ '\n' :: s) = ended l :: readLines s := by
  induction l with
  | nil => simp [readLines, ended]
  | cons c l ih =>
    simp only [List.mem_cons, not_or] at h
    rw [List.cons_append, readLines, if_neg fun e => h.1 e.symm, ih h.2]
    rfl

/-- A text file does not begin with a line feed unless its first line is empty and ended by one. -/
theorem newlines_file {nl : Str} (hl : nl ∈ lineEnds) {ls : List Str} (h : ∀ l ∈ ls, OneLine l) :
    newlines (fileText nl ls) = fileText ['\n'] ls := by
  induction ls with
  | nil => rfl
  | cons l ls ih =>
    have ih := ih fun x hx => h x (by simp [hx])
    have e : ∀ nl : Str, fileText nl (l :: ls) = l ++ (nl ++ fileText nl ls) := fun nl => by simp [fileText]
    rw [e, e, newlines_line (h l (by simp)).2]
    refine congrArg (l ++ ·) ?_
    simp only [lineEnds, List.mem_cons, List.not_mem_nil, or_false] at hl
    rcases hl with rfl | rfl | rfl
    · show newlines ('\n' :: fileText _ ls) = _
      rw [newlines, if_neg (by decide), ih]
      rfl
    · show newlines ('\r' :: '\n' :: fileText _ ls) = _
      rw [newlines, if_pos rfl, List.head?_cons, if_pos rfl, newlines, if_neg (by decide), ih]
      rfl
    · show newlines ('\r' :: fileText _ ls) = _
      have : (fileText ['\r'] ls).head? ≠ some '\n' := by
        cases ls with
        | nil => simp [fileText]
        | cons l' ls =>
          have hn := (h l' (by simp)).1
          cases l' with
          | nil => simp [fileText]
          | cons c l' =>
            simp only [List.mem_cons, not_or] at hn
            simpa [fileText] using fun e => hn.1 e.symm
      rw [newlines, if_pos rfl, if_neg this, ih]
      rfl

theorem readLines_file {ls : List Str} (h : ∀ l ∈ ls, OneLine l) : readLines (fileText ['\n'] ls) = ls.map ended := by
  induction ls with
  | nil => rfl
  | cons l ls ih =>
    have e : fileText ['\n'] (l :: ls) = l ++ '\n' :: fileText ['\n'] ls := by simp [fileText]
    rw [e, readLines_line (h l (by simp)).1, ih fun x hx => h x (by simp [hx])]
    rfl

theorem splitOn_ended [UnicodeDB] {ls : List Str} (hn : ls ≠ []) (h : ∀ l ∈ ls, '\n' ∉ l) : splitOn '\n' (fileText ['\n'] ls) = ls ++ [[]] := by
  have : fileText ['\n'] ls = join ['\n'] (ls ++ [[]]) := by
    clear h
    induction ls with
    | nil => exact absurd rfl hn
    | cons l ls ih =>
      cases ls with
      | nil => simp [join, fileText]
      | cons l' ls =>
        have := ih (by simp)
        rw [List.cons_append, List.cons_append] at *
        rw [join, ← this]
        simp [fileText]
  rw [this]
  exact splitOn_lines (by simp) (by
    intro l hl
    rcases List.mem_append.1 hl with hl | hl
    · exact h l hl
    · rw [List.mem_singleton.1 hl]; simp)

theorem strip_ended (l : Str) : strip (ended l) = strip l := by
  have h1 : ∀ l : Str, (l ++ ['\n']).dropWhile isSpace = if (l.dropWhile isSpace).isEmpty then [] else l.dropWhile isSpace ++ ['\n'] := by
    intro l
    induction l with
    | nil => rfl
    | cons c l ih =>
      simp only [List.cons_append, List.dropWhile_cons]
      cases isSpace c <;> simp [ih]
  unfold strip stripP rstripP lstripP ended
  rw [h1]
  split
  · next h =>
    rw [List.isEmpty_iff.1 h]
  · have : isSpace '\n' = true := rfl
    rw [List.reverse_append]
    simp [this]

/-! ### Lines with ends are like lines without -/

variable [UnicodeDB]

theorem spelt_ended {t : Str} (ht : '\n' ∉ t) (l : Str) : spelt t (l ++ ['\n']) = spelt t l := by
  induction l generalizing t with
  | nil =>
    cases t with
    | nil => rfl
    | cons c t =>
      simp only [List.mem_cons, not_or] at ht
      have : c ∉ caseVariants '\n' := by
        have e : caseVariants '\n' = ['\n', '\n'] := rfl
        rw [e]
        simpa using fun e => ht.1 e.symm
      simp [spelt, this]
  | cons x l ih =>
    cases t with
    | nil => rfl
    | cons c t =>
      have ht' := ht
      simp only [List.mem_cons, not_or] at ht
      simp only [List.cons_append, spelt, ih ht', ih ht.2]

theorem opensWith_ended {t : Str} (ht : '\n' ∉ t) (h0 : t ≠ []) (l : Str) : ∀ k, opensWith t (l ++ ['\n']) k = opensWith t l k := by
  have nl : ∀ k, opensWith t ['\n'] k = opensWith t [] k := by
    intro k
    have := spelt_ended ht []
    simp only [List.nil_append] at this
    have e : isSpace '\n' = true := rfl
    simp [opensWith, this, e]
  induction l with
  | nil => exact nl
  | cons x l ih =>
    intro k
    have := spelt_ended ht (x :: l)
    simp only [List.cons_append] at this
    simp only [List.cons_append, opensWith, this, ih]

theorem free_ended {l : Str} (h : NoBracketNumber l) : NoBracketNumber (ended l) := by
  intro a n b ha hn hb hi
  refine h a n b ha hn hb ?_
  obtain ⟨x, y, e⟩ := hi
  rcases List.eq_nil_or_concat y with rfl | ⟨y', c, rfl⟩
  · have := congrArg List.getLast? e
    rw [List.append_nil, ended, List.getLast?_concat, ← List.append_assoc, List.getLast?_concat] at this
    cases this
  · have e2 : x ++ ('[' :: a ++ n ++ b ++ [']']) ++ y' ++ [c] = l ++ ['\n'] := by rw [← ended, ← e]; simp
    have := (List.append_inj' e2 rfl).1
    exact ⟨x, y', this⟩

omit [UnicodeDB] in
theorem break_ended {l : Str} (h : ¬ BreakLine l) : ¬ BreakLine (ended l) := by
  rintro ⟨h1, h2⟩
  refine h ⟨fun c hc => h1 c (List.mem_append_left _ hc), ?_⟩
  rcases List.mem_append.1 h2 with h2 | h2
  · exact h2
  · rw [List.mem_singleton] at h2
    cases h2

theorem axis_ended {l : Str} (h : ¬ AxisLine l) : ¬ AxisLine (ended l) := by
  rintro ⟨h1, h2⟩
  refine h ⟨fun c hc => h1 c (List.mem_append_left _ hc), ?_⟩
  have : isDigitC '\n' = false := rfl
  simpa [ended, List.filter_append, this] using h2

/-- A reference in a file. -/
def endedEntry (e : Entry) : Entry := ⟨ended e.text, e.more.map ended⟩

omit [UnicodeDB] in
theorem numbered_map (f : Entry → Entry) : ∀ (es : List Entry) (n : Nat), numbered n (es.map f) = (numbered n es).map fun p => (p.1, f p.2)
  | [], _ => rfl
  | e :: es, n => by simp [numbered, numbered_map f es]

omit [UnicodeDB] in
theorem entryLines_ended (n : Nat) (e : Entry) : entryLines (n, endedEntry e) = (entryLines (n, e)).map ended := by
  simp [entryLines, endedEntry, ended]

omit [UnicodeDB] in
theorem listLines_ended (es : List Entry) : listLines (es.map endedEntry) = (listLines es).map ended := by
  unfold listLines
  generalize 1 = n
  induction es generalizing n with
  | nil => rfl
  | cons e es ih =>
    simp only [List.map_cons, numbered, List.flatMap_cons, List.map_append, ih, entryLines_ended]

omit [UnicodeDB] in
theorem documentLines_ended (body : List Str) (heading : Str) (es : List Entry) (after : List Str) :
    documentLines (body.map ended) (ended heading) 0 (es.map endedEntry) (after.map ended) = (documentLines body heading 0 es after).map ended := by
  simp [documentLines, listLines_ended]

omit [UnicodeDB] in
theorem titles_lines : (∀ t ∈ sectionTitles, '\n' ∉ t ∧ t ≠ []) ∧ ∀ t ∈ closingWords, '\n' ∉ t ∧ t ≠ [] := by decide

theorem plain_ended {body : List Str} {heading : Str} {es : List Entry} {after : List Str} (h : PlainDocument body heading 0 es after)
    (hs : ∀ l ∈ listLines es, l.length < 4300) : PlainDocument (body.map ended) (ended heading) 0 (es.map endedEntry) (after.map ended) where
  heading := by rw [Heading, strip_ended]; exact h.heading
  gap := Nat.zero_le _
  nonempty := by simpa using h.nonempty
  short := by
    rw [listLines_ended]
    intro l hl
    obtain ⟨x, hx, rfl⟩ := List.mem_map.1 hl
    have := hs x hx
    simp [ended]; omega
  free := by
    intro b hb l hl
    obtain ⟨b', hb', rfl⟩ := List.mem_map.1 hb
    obtain ⟨x, hx, rfl⟩ := List.mem_map.1 hl
    exact free_ended (h.free b' hb' x hx)
  untitled := by
    rw [listLines_ended, ← List.map_append, ← List.map_append]
    intro l hl t ht
    obtain ⟨x, hx, rfl⟩ := List.mem_map.1 hl
    obtain ⟨h1, h2⟩ := titles_lines.1 t ht
    rw [ended, opensWith_ended h1 h2]
    exact h.untitled x hx t ht
  unbroken := by
    rw [listLines_ended, ← List.map_append, ← List.map_append]
    intro l hl
    obtain ⟨x, hx, rfl⟩ := List.mem_map.1 hl
    exact break_ended (h.unbroken x hx)
  near := by
    rw [← List.map_dropLast]
    intro b hb
    obtain ⟨b', hb', rfl⟩ := List.mem_map.1 hb
    simpa [endedEntry] using h.near b' hb'
  worded := by
    intro b hb l hl
    obtain ⟨b', hb', rfl⟩ := List.mem_map.1 hb
    obtain ⟨x, hx, rfl⟩ := List.mem_map.1 hl
    exact axis_ended (h.worded b' hb' x hx)
  last := by
    intro b hb l hl t ht
    rw [List.getLast?_map] at hb
    obtain ⟨b', hb', rfl⟩ := Option.map_eq_some_iff.1 hb
    rw [List.length_map, entryLines_ended] at hl
    obtain ⟨x, hx, rfl⟩ := List.mem_map.1 hl
    obtain ⟨h1, h2⟩ := titles_lines.2 t ht
    rw [ended, opensWith_ended h1 h2]
    exact h.last b' hb' x hx t ht
  closed := by
    intro l rest e
    cases after with
    | nil => cases e
    | cons x xs =>
      simp only [List.map_cons, List.cons.injEq] at e
      obtain ⟨rfl, rfl⟩ := e
      obtain ⟨h1, h2⟩ := h.closed x xs rfl
      refine ⟨by rw [Closing, strip_ended]; exact h1, fun y hy => ?_⟩
      obtain ⟨z, hz, rfl⟩ := List.mem_map.1 hy
      exact free_ended (h2 z hz)

/-! ### An empty line at the end -/

omit [UnicodeDB] in
theorem numbered_append : ∀ (es fs : List Entry) (n : Nat), numbered n (es ++ fs) = numbered n es ++ numbered (n + es.length) fs
  | [], _, _ => by simp [numbered]
  | e :: es, fs, n => by
    simp [numbered, numbered_append es fs, Nat.add_assoc, Nat.add_comm 1]

theorem empty_untitled : (∀ t ∈ sectionTitles, opensWith t [] 13 = false) ∧ ∀ t ∈ closingWords, opensWith t [] 3 = false := by
  constructor
  · simp [sectionTitles, opensWith, spelt]
  · simp [closingWords, opensWith, spelt]

theorem empty_worded : ¬ AxisLine [] := by
  rintro ⟨-, h2⟩
  simp at h2

omit [UnicodeDB] in
theorem empty_unbroken : ¬ BreakLine [] := by rintro ⟨-, h2⟩; cases h2

theorem plain_trailing {body : List Str} {heading : Str} {g : Nat} {es : List Entry} {after : List Str} (h : PlainDocument body heading g es after) :
    ∃ es' after', PlainDocument body heading g es' after' ∧ documentLines body heading g es' after' = documentLines body heading g es after ++ [[]] ∧
      ((numbered 1 es').map fun p => prepareRef (solidPieces (entryLines p))) = (numbered 1 es).map fun p => prepareRef (solidPieces (entryLines p)) := by
  cases after with
  | cons x xs =>
    refine ⟨es, x :: xs ++ [[]], { h with untitled := ?_, unbroken := ?_, closed := ?_ }, by simp [documentLines], rfl⟩
    · intro l hl
      rw [← List.append_assoc, List.mem_append] at hl
      rcases hl with hl | hl
      · exact h.untitled l hl
      · rw [List.mem_singleton.1 hl]; exact empty_untitled.1
    · intro l hl
      rw [← List.append_assoc, List.mem_append] at hl
      rcases hl with hl | hl
      · exact h.unbroken l hl
      · rw [List.mem_singleton.1 hl]; exact empty_unbroken
    · rintro l rest ⟨⟩
      obtain ⟨h1, h2⟩ := h.closed x xs rfl
      refine ⟨h1, fun y hy => ?_⟩
      rcases List.mem_append.1 hy with hy | hy
      · exact h2 y hy
      · rw [List.mem_singleton.1 hy]; exact empty_free
  | nil =>
    rcases List.eq_nil_or_concat es with rfl | ⟨fs, e, rfl⟩
    · exact absurd rfl h.nonempty
    rw [List.concat_eq_append] at *
    have hl : listLines (fs ++ [⟨e.text, e.more ++ [[]]⟩]) = listLines (fs ++ [e]) ++ [[]] := by
      simp [listLines, numbered_append, numbered, entryLines]
    refine ⟨fs ++ [⟨e.text, e.more ++ [[]]⟩], [], ⟨h.heading, h.gap, by simp, ?_, ?_, ?_, ?_, ?_, ?_, ?_, by simp⟩, ?_, ?_⟩
    · rw [hl]
      intro l hm
      rcases List.mem_append.1 hm with hm | hm
      · exact h.short l hm
      · rw [List.mem_singleton.1 hm]; simp
    · intro b hb l hm
      rcases List.mem_append.1 hb with hb | hb
      · exact h.free b (by simp [hb]) l hm
      · rw [List.mem_singleton.1 hb] at hm
        rcases List.mem_append.1 hm with hm | hm
        · exact h.free e (by simp) l hm
        · rw [List.mem_singleton.1 hm]; exact empty_free
    · rw [hl]
      intro l hm
      simp only [List.append_nil, ← List.append_assoc] at hm
      rcases List.mem_append.1 hm with hm | hm
      · exact h.untitled l (by simpa using hm)
      · rw [List.mem_singleton.1 hm]; exact empty_untitled.1
    · rw [hl]
      intro l hm
      simp only [List.append_nil, ← List.append_assoc] at hm
      rcases List.mem_append.1 hm with hm | hm
      · exact h.unbroken l (by simpa using hm)
      · rw [List.mem_singleton.1 hm]; exact empty_unbroken
    · have := h.near
      simpa using this
    · intro b hb l hm
      rcases List.mem_append.1 hb with hb | hb
      · exact h.worded b (by simp [hb]) l hm
      · rw [List.mem_singleton.1 hb] at hm
        rcases List.mem_append.1 hm with hm | hm
        · exact h.worded e (by simp) l hm
        · rw [List.mem_singleton.1 hm]; exact empty_worded
    · intro b hb l hm t ht
      have : b = ⟨e.text, e.more ++ [[]]⟩ := by simpa using hb.symm
      subst this
      have e2 : entryLines ((fs ++ [(⟨e.text, e.more ++ [[]]⟩ : Entry)]).length, (⟨e.text, e.more ++ [[]]⟩ : Entry)) = entryLines ((fs ++ [e]).length, e) ++ [[]] := by
        simp [entryLines]
      rw [e2] at hm
      rcases List.mem_append.1 hm with hm | hm
      · exact h.last e (by simp) l hm t ht
      · rw [List.mem_singleton.1 hm]; exact empty_untitled.2 t ht
    · simp [documentLines, hl]
    · have : solidPieces (entryLines (1 + fs.length, (⟨e.text, e.more ++ [[]]⟩ : Entry))) = solidPieces (entryLines (1 + fs.length, e)) := by
        simp [entryLines, solidPieces, List.filter_append, List.filter_cons]
      simp [numbered_append, numbered, this]

/-! ### The same references -/

omit [UnicodeDB] in
theorem prepareRef_strip {ps qs : List Str} (h : ps.map strip = qs.map strip) : prepareRef ps = prepareRef qs := by
  have key : ∀ (ps : List Str), (ps.take maxLines).foldl (fun w l => joinLines w (strip l)) [] =
      ((ps.map strip).take maxLines).foldl joinLines [] := by
    intro ps
    rw [← List.map_take, List.foldl_map]
  rw [prepareRef, prepareRef, key, key, h]

omit [UnicodeDB] in
theorem joinLines_last {w q : Str} {c : Char} (h : q.getLast? = some c) : (joinLines w q).getLast? = some c := by
  unfold joinLines
  split
  · exact h
  · split
    · rw [List.getLast?_append, h]; rfl
    · split
      · rw [List.getLast?_append, List.getLast?_cons, h]; rfl
      · rw [List.getLast?_append, h]; rfl

omit [UnicodeDB] in
theorem joinLines_space {w q : Str} {c : Char} (h : w.getLast? = some c) (h1 : c ≠ '-') (h2 : c ≠ ' ') :
    joinLines (w ++ [' ']) q = joinLines w q := by
  have e1 : joinLines w q = w ++ ' ' :: q := by
    unfold joinLines
    rw [h]
    simp [h1, h2]
  have e2 : (w ++ [' ']).getLast? = some ' ' := by simp
  rw [e1]
  unfold joinLines
  rw [e2]
  simp

omit [UnicodeDB] in
/-- Joining with and without empty pieces. -/
theorem join_blanks : ∀ (qs : List Str) (w v : Str),
    (v = w ∨ (v = w ++ [' '] ∧ ∃ c, w.getLast? = some c ∧ c ≠ '-' ∧ c ≠ ' ')) →
    (qs.head? = some [] → ∃ c, w.getLast? = some c ∧ c ≠ '-' ∧ c ≠ ' ') →
    (∀ q ∈ qs, ∀ c, q.getLast? = some c → c ≠ ' ') → Unhyphenated qs → (∀ q ∈ qs, strip q = q) →
    (qs.foldl joinLines v = (qs.filter fun q => !q.isEmpty).foldl joinLines w ∨
      qs.foldl joinLines v = (qs.filter fun q => !q.isEmpty).foldl joinLines w ++ [' '])
  | [], w, v, hr, _, _, _, _ => by
    rcases hr with rfl | ⟨rfl, -⟩
    · exact .inl rfl
    · exact .inr rfl
  | q :: qs, w, v, hr, hh, hs, hu, ht => by
    have hu' : Unhyphenated qs := by
      cases qs with
      | nil => trivial
      | cons b ls => exact hu.2
    by_cases hq : q = []
    · subst hq
      obtain ⟨c, h1, h2, h3⟩ := hh rfl
      have : joinLines v [] = w ++ [' '] := by
        rcases hr with rfl | ⟨rfl, -⟩
        · unfold joinLines
          rw [h1]
          simp [h2, h3]
        · rw [joinLines_space h1 h2 h3]
          unfold joinLines
          rw [h1]
          simp [h2, h3]
      have e : (([] : Str) :: qs).filter (fun q => !q.isEmpty) = qs.filter fun q => !q.isEmpty := rfl
      rw [e, List.foldl_cons, this]
      exact join_blanks qs w _ (.inr ⟨rfl, c, h1, h2, h3⟩) (fun _ => ⟨c, h1, h2, h3⟩) (fun x hx => hs x (by simp [hx])) hu'
        fun x hx => ht x (by simp [hx])
    · have : joinLines v q = joinLines w q := by
        rcases hr with rfl | ⟨rfl, c, h1, h2, h3⟩
        · rfl
        · exact joinLines_space h1 h2 h3
      have e : (q :: qs).filter (fun q => !q.isEmpty) = q :: qs.filter fun q => !q.isEmpty := by
        simp [hq]
      rw [e, List.foldl_cons, List.foldl_cons, this]
      refine join_blanks qs _ _ (.inl rfl) ?_ (fun x hx => hs x (by simp [hx])) hu' fun x hx => ht x (by simp [hx])
      intro hn
      cases hl : q.getLast? with
      | none => exact absurd (List.getLast?_eq_none_iff.1 hl) hq
      | some c =>
        refine ⟨c, joinLines_last hl, ?_, hs q (by simp) c hl⟩
        rintro rfl
        cases qs with
        | nil => cases hn
        | cons b ls =>
          simp only [List.head?_cons, Option.some.injEq] at hn
          have := hu.1 hn
          rw [ht q (by simp)] at this
          exact this hl

omit [UnicodeDB] in
theorem strip_last {l : Str} {c : Char} (h : (strip l).getLast? = some c) : isSpace c = false := by
  obtain ⟨a, b, h1, h2, h3, h4, h5⟩ := stripP_split isSpace l
  exact h5 c h

omit [UnicodeDB] in
theorem strip_strip (l : Str) : strip (strip l) = strip l := by
  obtain ⟨a, b, h1, h2, h3, h4, h5⟩ := stripP_split isSpace l
  change ∀ c ∈ (strip l).head?, isSpace c = false at h4
  change ∀ c ∈ (strip l).getLast?, isSpace c = false at h5
  generalize strip l = s at h4 h5
  have e1 : lstripP isSpace s = s := by
    cases s with
    | nil => rfl
    | cons c s =>
      have := h4 c rfl
      simp [lstripP, this]
  show rstripP isSpace (lstripP isSpace s) = s
  rw [e1]
  rcases List.eq_nil_or_concat s with rfl | ⟨s', c, rfl⟩
  · rfl
  · have := h5 c (by simp)
    simp [rstripP, this]

omit [UnicodeDB] in
theorem unhyphenated_strip : ∀ {ls : List Str}, (∀ l ∈ ls, strip l = [] → l = []) → Unhyphenated ls → Unhyphenated (ls.map strip)
  | [], _, _ => trivial
  | [_], _, _ => trivial
  | a :: b :: ls, h, hu => by
    refine ⟨fun hb => ?_, unhyphenated_strip (fun l hl => h l (by simp [hl])) hu.2⟩
    rw [strip_strip]
    exact hu.1 (h b (by simp) hb)

omit [UnicodeDB] in
theorem rstrip_space (s : Str) : rstrip (s ++ [' ']) = rstrip s := by
  have : isSpace ' ' = true := rfl
  simp [rstrip, rstripP, this]

omit [UnicodeDB] in
theorem prepare_ended {p : Nat × Entry} (h : Airy (entryLines p)) :
    prepareRef (solidPieces (entryLines (p.1, endedEntry p.2))) = prepareRef (solidPieces (entryLines p)) := by
  have e2 : solidPieces ((entryLines p).map ended) = (entryLines p).map ended := by
    rw [solidPieces, List.filter_eq_self]
    intro l hl
    obtain ⟨x, -, rfl⟩ := List.mem_map.1 hl
    simp [ended]
  have e3 : ((entryLines p).map ended).map strip = (entryLines p).map strip := by
    rw [List.map_map]
    exact List.map_congr_left fun l _ => strip_ended l
  rw [entryLines_ended, e2]
  rcases h with h1 | ⟨h1, h2, h3⟩
  · have e1 : solidPieces (entryLines p) = entryLines p := by
      rw [solidPieces, List.filter_eq_self]
      intro l hl
      simpa using h1 l hl
    rw [e1]
    exact prepareRef_strip e3
  · have key : ∀ (ps : List Str), ps.length ≤ 25 → prepareRef ps = rstrip ((ps.map strip).foldl joinLines []) := by
      intro ps hl
      rw [prepareRef, maxLines, List.take_of_length_le hl, List.foldl_map]
    have hf : (solidPieces (entryLines p)).map strip = ((entryLines p).map strip).filter fun q => !q.isEmpty := by
      rw [solidPieces, List.filter_map]
      congr 1
      refine List.filter_congr fun l hl => ?_
      by_cases hn : l = []
      · subst hn; rfl
      · have : strip l ≠ [] := fun e => hn (h2 l hl e)
        simp [List.isEmpty_eq_false_iff.2 hn, List.isEmpty_eq_false_iff.2 this]
    have hl : (solidPieces (entryLines p)).length ≤ 25 := Nat.le_trans (List.length_filter_le _ _) h1
    rw [key _ (by simpa using h1), key _ hl, e3, hf]
    have := join_blanks ((entryLines p).map strip) [] [] (.inl rfl) (by
        intro e
        have : strip (bracketed p.1 ++ p.2.text) = [] := by simpa [entryLines] using e
        have h0 := h2 (bracketed p.1 ++ p.2.text) (by simp [entryLines]) this
        simp [bracketed] at h0) (by
        intro q hq c hc
        obtain ⟨l, -, rfl⟩ := List.mem_map.1 hq
        have := strip_last hc
        rintro rfl
        cases this) (unhyphenated_strip h2 h3) (by
        intro q hq
        obtain ⟨l, -, rfl⟩ := List.mem_map.1 hq
        exact strip_strip l)
    rcases this with e | e
    · rw [e]
    · rw [e, rstrip_space]

theorem plainDocument_file {body : List Str} {heading : Str} {es : List Entry} {after : List Str} (h : PlainDocument body heading 0 es after)
    (hs : ∀ l ∈ listLines es, l.length < 4300) (hn : ∀ p ∈ numbered 1 es, Airy (entryLines p)) :
    extractFulltext ((documentLines body heading 0 es after).map ended) = .ok ((numbered 1 es).map fun p => prepareRef (solidPieces (entryLines p)), 0) := by
  rw [← documentLines_ended, plainDocument_lines (plain_ended h hs), numbered_map, List.map_map]
  congr 2
  refine List.map_congr_left fun p hp => ?_
  exact prepare_ended (hn p hp)

end Py
