import Verif.Lemmas.UrlLine2
import Verif.Props.Doi

/-!
# A line with a URL (C114)
-/

open Py Spec
open scoped List

namespace Props

/-- **C114**, for a secure URL. A numbered line of plain text with one URL that begins with `https://`, and with nothing else that is known, is reported as exactly
one reference. The values in it are exactly the number, the line, the text in front of the URL, the URL, the text behind it, and the year when there is one in the
texts, which is taken out of them. A full stop at the end of the URL is not part of it.

The property is the same for every URL; it fails for `http://` and `ftp://`, see `C114_refuted`. -/
theorem C114_partial [UnicodeDB] (undesirable : Str → Str) (lib : Lib) (kbs : Kbs) (fmt : List FmtPart) (n : Nat) (pre w tail x : Str) (hl : UrlLine n pre w tail x)
    (ho : NothingAround kbs.tag pre urlMark tail)
    (hb : ∀ q ∈ kbs.books, ∀ u v y, YearOfTwo pre tail u v y → ¬ alnums (upper q.1) <:+: alnums (upper u) ∧ ¬ alnums (upper q.1) <:+: alnums (upper v))
    (hu : ∀ s, (∀ c ∈ s, isAscii c = true) → lib.unidecode s = s)
    (hw : undesirable (bracketed n ++ ' ' :: (pre ++ w ++ tail)) = bracketed n ++ ' ' :: (pre ++ w ++ tail)) :
    ∃ r u v y, parseReferences undesirable lib kbs fmt none [bracketed n ++ ' ' :: (pre ++ w ++ tail)] =
        .ok ([r], [0, 0, 0, 0, 1, 0, if LeftOver tail then 1 else 0]) ∧ YearOfTwo pre tail u v y ∧
      ∀ k, vals r k = under k (loneRecord n (bracketed n ++ ' ' :: (pre ++ w ++ tail)) u [(py! "url", x)] v y) :=
  references_url hl ho hb hu hw

/-- A line with a URL is changed before it is read only behind a scheme that is not secure: text without a slash behind a blank and without `:/` behind another
character than `s` is kept. -/
theorem C114_kept [UnicodeDB] (s : Str) (hs : ∀ c ∈ s, c ∈ calmChars ++ py! "/_?=&%~") (h1 : ¬ py! " /" <:+: s) (h2 : ∀ c, [c, ':', '/'] <:+: s → c = 's') :
    repairUrls s = s :=
  secure_repair (A := calmChars ++ py! "/_?=&%~") (by decide) hs h1 h2 (by decide +kernel)

example : @repairUrls asciiDB (py! "see https://www.cern.ch/a/b.html now") = py! "see https://www.cern.ch/a/b.html now" := by decide +kernel

set_option synthInstance.maxSize 1000 in
/-- **C114** fails for a URL that begins with `http://`: the word behind it is taken into it. -/
theorem C114_refuted : (@parseReferences asciiDB id plainLib emptyKbs defaultFormat none [py! "[1] see http://www.cern.ch/a/b.html now"]).map
      (fun rs => rs.1.map fun r => (vals r (py! "misc"), vals r (py! "url"))) =
    .ok [([py! "see"], [py! "http://www.cern.ch/a/b.htmlnow"])] := by
  decide +kernel

/-! ### An instance -/

attribute [local instance] asciiDB in
theorem url_line : UrlLine 4 (py! "see also a note, ") (py! "https://www.cern.ch/a_b/c.html?x=1.") (py! " with a table.") (py! "https://www.cern.ch/a_b/c.html?x=1") where
  front := calm_of (by decide +kernel)
  back := calm_of (by decide +kernel)
  quiet := by decide
  url := ⟨py! "www.cern.ch", [py! "a_b", py! "c.html?x=1."], [], rfl, by decide, by unfold HostChar; decide +kernel, by unfold PathChar; decide +kernel, .inl rfl⟩
  chars := by decide
  stop := .inl rfl
  last := fun c hc => by cases hc; exact ⟨blank_path, by decide⟩
  tidy := notIn (by decide +kernel)
  noDoi := by
    rintro x d hx ⟨lead, raw, rfl, -, ds, parts, sl, t, rfl, -⟩
    have : '0' ∈ py! "see also a note, " ++ py! "https://www.cern.ch/a_b/c.html?x=1." ++ py! " with a table." := hx.subset (by simp)
    exact absurd this (by decide)
  noHandle := by
    rintro ⟨p, i, r, e, h, -⟩
    rcases h with ⟨a, b, c, rfl, -, -, -⟩ | rfl | rfl <;> simp at e

attribute [local instance] asciiDB in
theorem url_only : NothingAround reportKbs.tag (py! "see also a note, ") urlMark (py! " with a table.") where
  kb := ⟨_, rfl, rfl, by decide +kernel⟩
  titles := by
    have : reportKbs.tag.journalKeys.all (fun k => !contains (reading (py! "see also a note, ")) k && !contains (reading (py! " with a table.")) k) = true := by decide +kernel
    intro k hk
    have := List.all_eq_true.1 this k hk
    simp only [Bool.and_eq_true, Bool.not_eq_true'] at this
    exact ⟨notIn this.1, notIn this.2⟩
  ibid := ⟨notIn (by decide +kernel), notIn (by decide +kernel)⟩
  reports := by
    intro p hp
    rcases List.mem_cons.1 hp with rfl | hp
    · exact ⟨_, rfl, by decide +kernel⟩
    · rw [List.mem_singleton.1 hp]
      exact ⟨_, rfl, by decide +kernel⟩
  publishers := by decide +kernel
  byRe := by decide +kernel
  authors := by decide +kernel
  collaborations := by decide +kernel

attribute [local instance] asciiDB in
example : ∃ r, @parseReferences asciiDB id plainLib reportKbs defaultFormat none [py! "[4] see also a note, https://www.cern.ch/a_b/c.html?x=1. with a table."] =
      .ok ([r], [0, 0, 0, 0, 1, 0, 1]) ∧
    ∀ k, vals r k = under k [(py! "linemarker", py! "4"), (py! "raw_ref", py! "[4] see also a note, https://www.cern.ch/a_b/c.html?x=1. with a table."),
      (py! "misc", py! "see also a note"), (py! "url", py! "https://www.cern.ch/a_b/c.html?x=1"), (py! "misc", py! "with a table")] := by
  have none : ∀ {u v y}, YearOfTwo (py! "see also a note, ") (py! " with a table.") u v y → _ := fun h => two_noYear (by decide) (by decide) h
  obtain ⟨r, u, v, y, h1, h3, h4⟩ := @C114_partial asciiDB id plainLib reportKbs defaultFormat 4 _ _ _ _ url_line url_only
    (by
      intro q hq u v y h
      obtain ⟨rfl, rfl, rfl⟩ := none h
      have : ∀ q ∈ reportKbs.books, contains (alnums (upper (py! "see also a note, "))) (alnums (upper q.1)) = false ∧ contains (alnums (upper (py! " with a table."))) (alnums (upper q.1)) = false := by decide +kernel
      exact ⟨notIn (this q hq).1, notIn (this q hq).2⟩) (fun _ _ => rfl) rfl
  obtain ⟨rfl, rfl, rfl⟩ := none h3
  exact ⟨r, h1, fun k => by rw [h4 k]; exact congrArg (under k) (by decide +kernel)⟩

end Props
