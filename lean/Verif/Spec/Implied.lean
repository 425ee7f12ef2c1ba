import Verif.Spec.Post
import Verif.Model.Numeration

/-!
# Specification vocabulary for numerations without a title (C101, C102)
-/

namespace Spec
open Py

/-- White space with at most one comma, colon or hyphen in it. -/
def LooseSep (w : Str) : Prop :=
  ∃ u m v, w = u ++ m ++ v ∧ Spaces u ∧ Spaces v ∧ (m = [] ∨ ∃ c ∈ [',', ':', '-'], m = [c])

/-- The volume begins with the letter of a series, as in `B12`. -/
def SeriesInFront [UnicodeDB] (v s : Str) : Prop :=
  ∃ c w d r, v = c :: w ++ d :: r ∧ Letter c ∧ LooseSep w ∧ isDec d = true ∧
    s = upper [c]

/-- The letter of a series stands behind the volume number, as in `12B`. -/
def SeriesBehind [UnicodeDB] (v s : Str) : Prop :=
  ∃ n w c r, v = n ++ w ++ c :: r ∧ Decimals n ∧ LooseSep w ∧ 'A' ≤ c ∧ c ≤ 'Z' ∧ s = upper [c]

/-- The series that a volume names. -/
def SeriesOf [UnicodeDB] (v s : Str) : Prop :=
  SeriesInFront v s ∨ ((∀ x, ¬ SeriesInFront v x) ∧ SeriesBehind v s)

/-- The volume of an article in the journal `j` of which the text gives the numeration `n`
only: the series is the one in the text or, failing that, the one of the volume of `j`. -/
def VolumeFor [UnicodeDB] (j : El) (n : Numeration) (vol : Str) : Prop :=
  ∃ v, n.volume = some v ∧
    ((∃ s, n.series = some s ∧ s ≠ [] ∧ vol = s ++ v) ∨
     ((∀ s, n.series = some s → s = []) ∧ ∃ w, j.volume = some (some w) ∧
       ((∃ s, SeriesOf w s ∧ vol = s ++ v) ∨ ((∀ s, ¬ SeriesOf w s) ∧ vol = v))))

/-- The article in the journal of `j` with the numeration `n`. -/
def ArticleIn [UnicodeDB] (j : El) (n : Numeration) (k : El) : Prop :=
  ∃ t vol, j.title = some t ∧ VolumeFor j n vol ∧
    k = { ty := .journal, misc := [], title := some t, volume := some (some vol), year := some n.year,
          page := some n.page, pageEnd := some n.pageEnd, isIbid := some true, extraIbids := some [] }

/-- The elements `es` of a citation after `j`: a text that begins with a numeration loses it, and
the articles so found are `new`. Everything else stays as it is. -/
inductive Continued [UnicodeDB] (j : El) : List El → List El → List El → Prop
  | nil : Continued j [] [] []
  | kept {e : El} {es es' new : List El} : (e.ty = .misc → findNumeration e.misc = .ok none) →
      Continued j es es' new → Continued j (e :: es) (e :: es') new
  | article {e k : El} {es es' new : List El} {n : Numeration} {d rest : Str} : e.ty = .misc →
      findNumeration e.misc = .ok (some n) → e.misc = d ++ rest → d.length = n.len → ArticleIn j n k →
      Continued j es es' new → Continued j (e :: es) ({ e with misc := rest } :: es') (k :: new)

/-- `j` is the last journal of the elements. -/
def LastJournal (es : List El) (j : El) : Prop :=
  ∃ a b, es = a ++ j :: b ∧ j.ty = .journal ∧ ∀ x ∈ b, x.ty ≠ .journal

/-- There is no journal among the elements. -/
def NoJournal (es : List El) : Prop := ∀ e ∈ es, e.ty ≠ .journal

/-- The citations of a line, `prev` being the one before: a citation without a journal that
comes right after one with a journal is completed from the last journal of that citation; the
articles found are put at its end. The other citations stay as they are. -/
inductive Completed [UnicodeDB] : List El → List (List El) → List (List El) → Prop
  | nil {prev : List El} : Completed prev [] []
  | kept {prev c : List El} {cs cs' : List (List El)} : (NoJournal prev ∨ ¬ NoJournal c) → Completed c cs cs' →
      Completed prev (c :: cs) (c :: cs')
  | completed {prev c c' new : List El} {j : El} {cs cs' : List (List El)} : LastJournal prev j → NoJournal c →
      Continued j c c' new → Completed (c' ++ new) cs cs' → Completed prev (c :: cs) ((c' ++ new) :: cs')

/-- An element apart from the text beside it and the record it is linked to. -/
def bare (e : El) : El := { e with misc := [], recid := none }

/-- The elements of some kinds, apart from texts and links. -/
def ofKinds (p : Kind → Bool) (es : List El) : List El := (es.filter fun e => p e.ty).map bare

/-- What a citation says about articles in journals. -/
def articles (es : List El) : List El := ofKinds (· == .journal) es

/-- Kinds of elements that are neither texts nor authors, that may be found once more or not at all. -/
def Lasting : Kind → Bool
  | .journal | .reportnumber | .url | .hdl | .quoted | .isbn | .publisher => true
  | _ => false

end Spec
