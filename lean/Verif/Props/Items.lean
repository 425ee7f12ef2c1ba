import Verif.Lemmas.Items4
import Verif.Props.Known

/-!
# C104, C105 and C106: links, handles and books
-/

open Py Spec
open scoped List

namespace Props

/-- The values of a key in a list of references. -/
def allVals (refs : List Field) (k : Str) : List Str := refs.flatMap (vals · k)

/-- The references that report the citations of a line. -/
def Reports (fmt : List FmtPart) (marker raw : Str) (cs : List (List El)) (refs : List Field) : Prop :=
  All2 (fun c f => buildReferenceFields c marker raw fmt = .ok f) cs refs

theorem nonEmpty_append (a b : List Str) : nonEmpty (a ++ b) = nonEmpty a ++ nonEmpty b := by simp [nonEmpty]

theorem reports_vals {fmt : List FmtPart} {marker raw k : Str} {cs : List (List El)} {refs : List Field} (h : Reports fmt marker raw cs refs)
    {p : Kind → Bool} {v : El → Option Str} (hv : ∀ e, v (bare e) = v e)
    (hk : ∀ els f, buildReferenceFields els marker raw fmt = .ok f → vals f k = nonEmpty ((els.filter fun e => p e.ty).filterMap v)) :
    allVals refs k = nonEmpty ((ofKinds p cs.flatten).filterMap v) := by
  unfold Reports at h
  induction h with
  | nil => rfl
  | cons h1 _ ih =>
    unfold allVals at ih ⊢
    rw [List.flatMap_cons, ih, hk _ _ h1, List.flatten_cons, Props.ofKinds_append, List.filterMap_append, nonEmpty_append]
    congr 2
    unfold ofKinds
    rw [List.filterMap_map]
    congr 1
    funext e
    exact (hv e).symm

theorem reports_numbers {fmt : List FmtPart} {marker raw : Str} {cs : List (List El)} {refs : List Field} (h : Reports fmt marker raw cs refs) :
    allVals refs (py! "reportnumber") = nonEmpty ((ofKinds (· == .reportnumber) cs.flatten).filterMap (·.reportNum)) := by
  refine reports_vals h (fun _ => rfl) fun els f e => ?_
  rw [(C05_values els marker raw fmt f e).2.2.2.2.2.1]
  rfl

theorem reports_urls {fmt : List FmtPart} {marker raw : Str} {cs : List (List El)} {refs : List Field} (h : Reports fmt marker raw cs refs) :
    allVals refs (py! "url") = nonEmpty ((ofKinds (· == .url) cs.flatten).filterMap (·.urlString)) := by
  refine reports_vals h (fun _ => rfl) fun els f e => ?_
  rw [(C05_values els marker raw fmt f e).2.2.2.2.2.2.1]
  rfl

/-- Titles in quotation marks and books. -/
def Titled (k : Kind) : Bool := k == .quoted || k == .book

theorem reports_titles {fmt : List FmtPart} {marker raw : Str} {cs : List (List El)} {refs : List Field} (h : Reports fmt marker raw cs refs) :
    allVals refs (py! "title") = nonEmpty ((ofKinds Titled cs.flatten).filterMap (·.title)) := by
  refine reports_vals h (fun _ => rfl) fun els f e => ?_
  obtain ⟨-, -, -, -, -, -, -, -, -, -, -, k, -⟩ := C05_values els marker raw fmt f e
  rw [k]
  congr 2
  refine List.filter_congr fun x _ => ?_
  cases x.ty <;> rfl

theorem becomes_kinds [UnicodeDB] {p : Kind → Bool} (h1 : p .reportnumber = false) (h2 : p .url = false) (h3 : p .auth = false) (h4 : p .hdl = false)
    {a b : List El} (h : All2 Becomes a b) : ofKinds p b = ofKinds p a := by
  induction h with
  | nil => rfl
  | cons k _ ih =>
    rename_i e e' es es' _
    have e1 : ofKinds p (e :: es) = ofKinds p [e] ++ ofKinds p es := Props.ofKinds_append p [e] es
    have e2 : ofKinds p (e' :: es') = ofKinds p [e'] ++ ofKinds p es' := Props.ofKinds_append p [e'] es'
    rw [e1, e2, ih]
    congr 1
    have none : ∀ x : El, p x.ty = false → ofKinds p [x] = [] := by
      intro x hx
      simp [ofKinds, hx]
    cases k with
    | reportNumber h _ _ => rw [none e (by rw [h]; exact h1), none _ (by exact h ▸ h1)]
    | author h _ _ => rw [none e (by rw [h]; exact h3), none _ (by exact h ▸ h3)]
    | eprint h _ _ => rw [none e (by rw [h]; exact h2), none _ (by exact h1)]
    | handle h _ _ _ _ => rw [none e (by rw [h]; exact h2), none _ (by exact h4)]
    | link _ _ _ _ => rfl
    | other _ => rfl

theorem withHandles_drop {p : Kind → Bool} (hp : p .hdl = false) {a b : List El} (h : WithHandles a b) : ofKinds p b = ofKinds p a := by
  induction h with
  | nil => rfl
  | both _ ih =>
    unfold ofKinds at ih ⊢
    rw [List.filter_cons, List.filter_cons]
    split
    · rw [List.map_cons, List.map_cons, ih]
    · exact ih
  | handle he _ ih =>
    unfold ofKinds at ih ⊢
    rw [List.filter_cons, if_neg (by rw [he, hp]; simp), ih]

/-- **C104**: the items of a line other than articles are those of its citations, in the same order, each as told by `Becomes`: a link to the
abstract of an e-print becomes the number of the e-print, a link to a handle becomes the handle, any other link stays. Nothing but handles
(from texts) is added. (Of authors, DOIs and collaborations the citations may have fewer or more: see C07, C09, C10.)
What is missing: addresses of abstracts beginning otherwise than with `http://arxiv.org/abs/`, see `C104_https`. -/
theorem C104_partial [UnicodeDB] (special : List Str) (books : Books) (link : Option Linker) (els : List El) (cs : List (List El))
    (h : postProcess special books link els = .ok cs) :
    ∃ mid out, Booked books (entries els) mid ∧ All2 Becomes mid out ∧ WithHandles (ofKinds Sole out) (ofKinds Sole cs.flatten) := by
  obtain ⟨els', h1, h2⟩ := C07_line special books link els cs h
  obtain ⟨mid, out, k1, k2, k3⟩ := transform_entries h1
  refine ⟨mid, out, k1, all2_impl (fun _ _ => itemSteps_becomes) k2, ?_⟩
  rw [h2, ← ofKinds_entries (p := Sole) (by intro k; cases k <;> decide) els']
  exact withHandles_kinds k3

theorem ofKinds_ofKinds {p q : Kind → Bool} (h : ∀ k, q k = true → p k = true) (es : List El) : ofKinds q (ofKinds p es) = ofKinds q es := by
  unfold ofKinds
  induction es with
  | nil => rfl
  | cons e es ih =>
    by_cases h1 : q e.ty = true
    · have h2 := h _ h1
      rw [List.filter_cons, if_pos h2, List.map_cons, List.filter_cons, if_pos (by exact h1), List.filter_cons, if_pos h1, List.map_cons, ih]
      rfl
    · by_cases h2 : p e.ty = true
      · rw [List.filter_cons, if_pos h2, List.map_cons, List.filter_cons, if_neg (by exact h1), ih, List.filter_cons, if_neg h1]
      · rw [List.filter_cons, if_neg h2, ih, List.filter_cons, if_neg h1]

/-- **C104**, as reported: the numbers and links of the references are exactly those of the items as told by `Becomes`. -/
theorem C104_reported [UnicodeDB] (special : List Str) (books : Books) (link : Option Linker) (els : List El) (cs : List (List El))
    (h : postProcess special books link els = .ok cs) (fmt : List FmtPart) (marker raw : Str) (refs : List Field) (hr : Reports fmt marker raw cs refs) :
    ∃ mid out, Booked books (entries els) mid ∧ All2 Becomes mid out ∧
      allVals refs (py! "reportnumber") = nonEmpty ((ofKinds (· == .reportnumber) out).filterMap (·.reportNum)) ∧
      allVals refs (py! "url") = nonEmpty ((ofKinds (· == .url) out).filterMap (·.urlString)) := by
  obtain ⟨mid, out, h1, h2, h3⟩ := C104_partial special books link els cs h
  refine ⟨mid, out, h1, h2, ?_, ?_⟩
  · have k := withHandles_drop (p := (· == .reportnumber)) rfl h3
    rw [ofKinds_ofKinds (by intro k; cases k <;> decide), ofKinds_ofKinds (by intro k; cases k <;> decide)] at k
    rw [reports_numbers hr, k]
  · have k := withHandles_drop (p := (· == .url)) rfl h3
    rw [ofKinds_ofKinds (by intro k; cases k <;> decide), ofKinds_ofKinds (by intro k; cases k <;> decide)] at k
    rw [reports_urls hr, k]

/-- Some values of the references. -/
def reported (ks : List Str) (r : Py (List Field × List Nat)) : List (List (List Str)) :=
  match r with
  | .ok (refs, _) => refs.map fun f => ks.map (vals f)
  | .error _ => []

set_option synthInstance.maxSize 1000 in
/-- A link to an abstract and a link to a handle. -/
example : reported [py! "reportnumber", py! "hdl", py! "url"] (@parseReferences asciiDB id plainLib knownKbs defaultFormat none
    [py! "[1] see http://arxiv.org/abs/hep-th/9901001 for this", py! "[2] see http://hdl.handle.net/10520/EJC34371 for this"]) =
      [[[py! "arXiv:hep-th/9901001"], [], []], [[], [py! "hdl:10520/EJC34371"], []]] := by
  decide +kernel

set_option synthInstance.maxSize 1000 in
/-- **C104 fails** for links to the same page that begin with `https` or `www`: no number is reported. -/
theorem C104_https : reported [py! "reportnumber", py! "url"] (@parseReferences asciiDB id plainLib knownKbs defaultFormat none
    [py! "[1] see https://arxiv.org/abs/hep-th/9901001 for this", py! "[2] see http://www.arxiv.org/abs/hep-th/9901001 for this"]) =
      [[[], [py! "https://arxiv.org/abs/hep-th/9901001"]], [[], [py! "http://www.arxiv.org/abs/hep-th/9901001"]]] := by
  decide +kernel

/-- **C105**: the first title in quotation marks is looked up among the known books; a known book takes its place, with the title, authors and
year of the knowledge base; an unknown title stays. The titles and books so told are all among those of the citations, in the same order.
What is missing: the text in front of the title, see `C105_text`, and later titles of the line, see `C105_second`. -/
theorem C105_partial [UnicodeDB] (special : List Str) (books : Books) (link : Option Linker) (els : List El) (cs : List (List El))
    (h : postProcess special books link els = .ok cs) :
    ∃ mid, Booked books (entries els) mid ∧ ofKinds Titled mid <+ ofKinds Titled cs.flatten := by
  obtain ⟨els', h1, h2⟩ := post_kept (p := Titled) ⟨rfl, rfl, rfl, rfl, rfl, rfl⟩ h
  obtain ⟨mid, out, k1, k2, k3⟩ := transform_entries h1
  refine ⟨mid, k1, ?_⟩
  rw [← ofKinds_entries (p := Titled) (by intro k; cases k <;> decide), withHandles_drop rfl k3,
    becomes_kinds rfl rfl rfl rfl (all2_impl (fun _ _ => itemSteps_becomes) k2)] at h2
  exact h2

/-- **C105**, as reported. -/
theorem C105_reported [UnicodeDB] (special : List Str) (books : Books) (link : Option Linker) (els : List El) (cs : List (List El))
    (h : postProcess special books link els = .ok cs) (fmt : List FmtPart) (marker raw : Str) (refs : List Field) (hr : Reports fmt marker raw cs refs) :
    ∃ mid, Booked books (entries els) mid ∧ nonEmpty ((ofKinds Titled mid).filterMap (·.title)) <+ allVals refs (py! "title") := by
  obtain ⟨mid, h1, h2⟩ := C105_partial special books link els cs h
  refine ⟨mid, h1, ?_⟩
  rw [reports_titles hr]
  exact List.Sublist.filter _ (h2.filterMap _)

/-- Two books. -/
def bookKbs : Kbs := { knownKbs with books := [(py! "GRAVITATION", [py! "Misner", py! "Gravitation", py! "1973;"]), (py! "OPTICS", [py! "Born", py! "Optics", py! "1999;"])] }

set_option synthInstance.maxSize 1000 in
/-- A known book, spelled otherwise. -/
example : reported [py! "title", py! "year"] (@parseReferences asciiDB id plainLib bookKbs defaultFormat none
    [py! "[1] C. Misner, \"GRAVITATION\", 1973"]) = [[[py! "Gravitation"], [py! "1973"]]] := by
  decide +kernel

set_option synthInstance.maxSize 1000 in
/-- **C105 fails** for the text in front of the title of a known book: it is not reported at all. With an unknown title it is. -/
theorem C105_text : reported [py! "misc", py! "title"] (@parseReferences asciiDB id plainLib bookKbs defaultFormat none
    [py! "[1] see the classic and long \"Gravitation\", 1973", py! "[2] see the classic and long \"Relativity\", 1973"]) =
      [[[], [py! "Gravitation"]], [[py! "see the classic and long"], [py! "Relativity"]]] := by
  decide +kernel

set_option synthInstance.maxSize 1000 in
/-- **C105 fails** for the second title of a line: it is not looked up and stays as it is spelled. -/
theorem C105_second : reported [py! "title"] (@parseReferences asciiDB id plainLib bookKbs defaultFormat none
    [py! "[1] see the new \"Relativity\" and the old \"GRAVITATION\"", py! "[2] see the old \"GRAVITATION\""]) =
      [[[py! "Relativity"]], [[py! "GRAVITATION"]], [[py! "Gravitation"]]] := by
  decide +kernel

/-- **C106**: a citation without book, article, DOI, ISBN or record, of which the year is stated, is searched for known books of that year: the
first text that names one loses the title, with everything up to the next punctuation, and the year; the book is put at the end. In any other
case nothing changes. (The search for `books` as built by `C58_books`.)
What is missing: that the title is named as words of its own, see `C106_words`. -/
theorem C106_partial [UnicodeDB] (books : Books) (hk : ∀ q ∈ books, lookup books (upper q.1) = some q.2) (h h' : Heap) (c c' : List Nat) (w : WF h c)
    (e : undetectedBooks books h c = .ok (h', c')) : Searched books (h.els c) (h'.els c') ∧ ∀ j < h.next, j ∉ c → h'.get j = h.get j :=
  undetected_searched hk w e

example : ∀ q ∈ bookKbs.books, lookup bookKbs.books (@upper asciiDB q.1) = some q.2 := by decide

set_option synthInstance.maxSize 1000 in
/-- A book in a text; the same title with another year; and the same title with an article. -/
example : reported [py! "title", py! "year", py! "misc"] (@parseReferences asciiDB id plainLib bookKbs defaultFormat none
    [py! "[1] C. Misner, the great gravitation, 1973, and more", py! "[2] C. Misner, the great gravitation, 1974, and more",
     py! "[3] C. Misner, the great gravitation, 1973, doi:10.1000/xyz"]) =
      [[[py! "Gravitation"], [py! "1973"], [py! "the great and more"]], [[], [py! "1974"], [py! "the great gravitation,, and more"]],
       [[], [py! "1973"], [py! "the great gravitation"]]] := by
  decide +kernel

set_option synthInstance.maxSize 1000 in
/-- **C106 fails** for titles that are part of longer words: a book is reported that the text does not name. -/
theorem C106_words : reported [py! "title", py! "year", py! "misc"] (@parseReferences asciiDB id plainLib bookKbs defaultFormat none
    [py! "[1] C. Misner, the study of antigravitation, 1973"]) = [[[py! "Gravitation"], [py! "1973"], [py! "the study of anti"]]] := by
  decide +kernel

end Props
