import Verif.Py.Basic
import Verif.Spec.Post

/-!
# Vocabulary for tagging
-/

open Py

namespace Spec

/-- `t` is `s` with the pieces `ws`, in this order, replaced by `tag`. The pieces are found from left
to right: a character is kept only when no piece described by `P` begins with it. -/
inductive Tagged (P : Str → Prop) (tag : Str) : Str → Str → List Str → Prop
  | nil : Tagged P tag [] [] []
  | ch {c : Char} {s t ws} : (¬ ∃ w r, c :: s = w ++ r ∧ P w) → Tagged P tag s t ws → Tagged P tag (c :: s) (c :: t) ws
  | hit {w : Str} {s t ws} : P w → Tagged P tag s t ws → Tagged P tag (w ++ s) (tag ++ t) (w :: ws)

/-- `g₀ w₀ g₁ w₁ … gₙ` -/
def interleave : List Str → List Str → Str
  | g :: gs, w :: ws => g ++ w ++ interleave gs ws
  | g :: _, [] => g
  | [], _ => []

/-- `x` reads as `w` up to the case of letters (in the sense of a case-insensitive pattern). -/
def FoldsTo [UnicodeDB] (x w : Str) : Prop := All2 (fun c d => d ∈ caseVariants c) x w

/-- The three letters in either case. -/
def ReadsDoi [UnicodeDB] (d : Str) : Prop :=
  ∃ x y z, FoldsTo d [x, y, z] ∧ x ∈ ['D', 'd'] ∧ y ∈ ['O', 'o'] ∧ z ∈ ['I', 'i']

/-- `doi`, `doi:`, `(doi)`, … in front of an identifier. -/
def DoiWord [UnicodeDB] (x : Str) : Prop :=
  ∃ o d s1 c k s2, x = o ++ d ++ s1 ++ c ++ k ++ s2 ∧ (o = [] ∨ o = ['(']) ∧ ReadsDoi d ∧ Spaces s1 ∧
    (c = [] ∨ c = [')']) ∧ (k = [] ∨ k = [':']) ∧ Spaces s2

/-- `http://doi.org/`, `https://dx.doi.org/`, … in front of an identifier. -/
def DoiUrl [UnicodeDB] (x : Str) : Prop :=
  ∃ y ∈ [py! "http://doi.org/", py! "https://doi.org/", py! "http://dx.doi.org/", py! "https://dx.doi.org/"], FoldsTo x y

/-- The text of a digital object identifier, and the identifier itself: `10.`, three to seven digits,
parts that begin with a full stop, a slash (plain or percent-encoded), and at least two more
characters, the last of them not a full stop. -/
def DoiText [UnicodeDB] (raw d : Str) : Prop :=
  ∃ (ds : Str) (parts : List Str) (sl t : Str), raw = py! "10." ++ ds ++ parts.flatMap ('.' :: ·) ++ sl ++ t ∧
    3 ≤ ds.length ∧ ds.length ≤ 7 ∧ (∀ c ∈ ds, isDec c = true) ∧
    (∀ p ∈ parts, p ≠ [] ∧ ∀ c ∈ p, isWord c = true) ∧ (sl = ['/'] ∨ sl = py! "%2f" ∨ sl = py! "%2F") ∧
    2 ≤ t.length ∧ (∀ c ∈ t, isWord c = true ∨ c ∈ py! "-_:;()/.<>") ∧ t.getLast? ≠ some '.' ∧
    d = py! "10." ++ ds ++ parts.flatMap ('.' :: ·) ++ ['/'] ++ t

/-- The text `w` cites the identifier `d`, with what may stand in front of it. -/
def CitesDoi [UnicodeDB] (w d : Str) : Prop :=
  ∃ lead raw, w = lead ++ raw ∧ (lead = [] ∨ DoiWord lead ∨ DoiUrl lead) ∧ DoiText raw d

/-- What is expected of percent-decoding. -/
structure Decodes (u : Str → Str) : Prop where
  plain : ∀ s, '%' ∉ s → u s = s
  slash : ∀ a x b, '%' ∉ a → '%' ∉ b → (x = py! "%2f" ∨ x = py! "%2F") → u (a ++ x ++ b) = a ++ ['/'] ++ b

/-- `t` is `s` with some runs of at least two white-space characters replaced by a blank. -/
inductive Squeezes : Str → Str → Prop
  | nil : Squeezes [] []
  | ch (c : Char) {s t} : Squeezes s t → Squeezes (c :: s) (c :: t)
  | run {w s t} : 2 ≤ w.length → (∀ c ∈ w, isSpace c = true) → Squeezes s t → Squeezes (w ++ s) (' ' :: t)

/-- A tag name: at least one capital letter, nothing else. -/
def TagName (n : Str) : Prop := n ≠ [] ∧ ∀ c ∈ n, isAsciiUpper c = true

/-- A tag that is closed: with contents that do not contain `<`, or without contents. -/
def ClosedTag (w : Str) : Prop :=
  (∃ n b n', w = py! "<cds." ++ n ++ ['>'] ++ b ++ py! "</cds." ++ n' ++ ['>'] ∧ TagName n ∧ '<' ∉ b ∧ TagName n') ∨
  ∃ n, w = py! "<cds." ++ n ++ py! " />" ∧ TagName n

/-- Every opening tag of the line is followed by a closing one, with no tag in between. -/
def NoNesting (line : Str) : Prop :=
  ∀ a n b, line = a ++ (py! "<cds." ++ n ++ ['>']) ++ b → TagName n →
    ∃ x n' c, b = x ++ py! "</cds." ++ n' ++ ['>'] ++ c ∧ '<' ∉ x ∧ TagName n'

/-- `t` is `s` with every closed tag, from left to right, replaced by as many underscores. -/
inductive Blanked : Str → Str → Prop
  | nil : Blanked [] []
  | ch {c : Char} {s t} : (¬ ∃ w r, c :: s = w ++ r ∧ ClosedTag w) → Blanked s t → Blanked (c :: s) (c :: t)
  | tag {w s t} : ClosedTag w → Blanked s t → Blanked (w ++ s) (List.replicate w.length '_' ++ t)

/-- A character of a host name. -/
def HostChar [UnicodeDB] (c : Char) : Prop := isWord c = true ∨ c ∈ py! "_.-"

/-- A character of a path. -/
def PathChar [UnicodeDB] (c : Char) : Prop := isWord c = true ∨ c ∈ py! "_.?=&%~∼-"

/-- A URL: scheme, host, port, path. -/
def UrlText [UnicodeDB] (u : Str) : Prop :=
  ∃ (sch host port : Str) (segs : List Str) (sl : Str), u = sch ++ host ++ port ++ segs.flatMap ('/' :: ·) ++ sl ∧
    (∃ y ∈ [py! "http://", py! "https://", py! "ftp://", py! "sftp://"], FoldsTo sch y) ∧
    host ≠ [] ∧ (∀ c ∈ host, HostChar c) ∧
    (port = [] ∨ ∃ ds, port = ':' :: ds ∧ 1 ≤ ds.length ∧ ds.length ≤ 5 ∧ ∀ c ∈ ds, isDec c = true) ∧
    (∀ p ∈ segs, p ≠ [] ∧ ∀ c ∈ p, PathChar c) ∧ (sl = [] ∨ sl = ['/'])

/-- A URL in running text, perhaps in quotation marks, and the URL reported: a full stop at its end
does not belong to it. -/
def RawUrl [UnicodeDB] (w u : Str) : Prop :=
  ∃ q full q', w = q ++ full ++ q' ∧ (q = [] ∨ q = ['\''] ∨ q = ['"']) ∧ (q' = [] ∨ q' = ['\''] ∨ q' = ['"']) ∧
    UrlText full ∧ (full = u ++ ['.'] ∨ (full = u ∧ full.getLast? ≠ some '.'))

/-- A link `<a href="u">d</a>`. -/
def Anchor [UnicodeDB] (w u d : Str) : Prop :=
  ∃ t1 s1 t2 s2 s3 q q' s4 t3, w = t1 ++ s1 ++ t2 ++ s2 ++ ['='] ++ s3 ++ [q] ++ u ++ [q'] ++ s4 ++ ['>'] ++ d ++ t3 ∧
    FoldsTo t1 (py! "<a") ∧ s1 ≠ [] ∧ Spaces s1 ∧ FoldsTo t2 (py! "href") ∧ Spaces s2 ∧ Spaces s3 ∧
    (q = '\'' ∨ q = '"') ∧ UrlText u ∧ (q' = '\'' ∨ q' = '"') ∧ Spaces s4 ∧ d ≠ [] ∧ '<' ∉ d ∧ FoldsTo t3 (py! "</a>")

/-- A link or a URL in running text, with the reported URL and description. -/
def CitesUrl [UnicodeDB] (w : Str) (ud : Str × Str) : Prop := Anchor w ud.1 ud.2 ∨ (RawUrl w ud.1 ∧ ud.2 = ud.1)

/-- Links do not directly follow a character that a URL may contain. -/
def LinksApart [UnicodeDB] (line : Str) : Prop :=
  ∀ a c w b u d, line = a ++ c :: w ++ b → Anchor w u d → ¬ PathChar c ∧ c ≠ '/'

end Spec
