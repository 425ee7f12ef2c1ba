import Verif.Spec.Collab

/-!
# Vocabulary for author groups
-/

open Py
open scoped List

namespace Spec

/-- What is known of a group of authors that has been recognised: whether it ends in "et al", whether it is marked as
the editors, whether there are several of them, and the names without the marks of editors. -/
structure AuthorGroup where
  etal : Bool
  ed : Bool
  several : Bool
  names : Str

/-- `x` is `y` with some characters covered by underscores. -/
def CoveredBy (x y : Str) : Prop := All2 (fun c d => c = d ∨ c = '_') x y

/-- Reading `u`, which stands between `b` and `r`, from left to right, no group is found without an underscore in it. -/
inductive NoGroup (A : Str → Str → Str → AuthorGroup → Prop) : Str → Str → Str → Prop
  | nil {b r} : NoGroup A b [] r
  | ch {b c u r} : (¬ ∃ w r' g, c :: (u ++ r) = w ++ r' ∧ A b w r' g) → NoGroup A (b ++ [c]) u r → NoGroup A b (c :: u) r
  | over {b w u r g} : A b w (u ++ r) g → '_' ∈ w → NoGroup A (b ++ w) u r → NoGroup A b (w ++ u) r

/-! ### Text inside the mark -/

/-- A way of writing "et al.", with the point or comma behind it; one way of writing is used in what is reported. -/
def EtAl (_b w r x : Str) : Prop :=
  ∃ e t s a l p, w = e :: t :: (s ++ a :: l :: p) ∧ e ∈ ['E', 'e'] ∧ t ∈ ['T', 't'] ∧ a ∈ ['A', 'a'] ∧ l ∈ ['L', 'l'] ∧
    ((∃ c k, s = c :: k ∧ c ∈ [',', '.'] ∧ ∀ d ∈ k, isSpace d = true) ∨ (s ≠ [] ∧ ∀ d ∈ s, isSpace d = true)) ∧
    (∀ c ∈ p, c ∈ [',', '.']) ∧ (p.length = 2 ∨ (p.length < 2 ∧ NotFirst (· ∈ [',', '.']) r)) ∧ x = py! "et al."

/-- Authors as reported: no points in front, no punctuation or brackets at the ends, save a bracket closing "(ed.)". -/
def AuthorText (w v : Str) : Prop :=
  ∃ w' d u v', Rewritten EtAl [] w w' ∧ w' = d ++ u ∧ (∀ c ∈ d, c = '.') ∧ NotFirst (· = '.') u ∧
    Trimmed (py! ",:;- [](") (py! ",:;- [](") u v' ∧
    (((∃ a, v' = a ++ py! "(ed.)") ∧ v = v') ∨ ((¬ ∃ a, v' = a ++ py! "(ed.)") ∧ Trimmed [')'] [')'] v' v))

/-- Editors as reported. -/
def EditorText (names v : Str) : Prop :=
  ∃ n n', Rewritten EtAl [] names n ∧ Trimmed (py! ",:;- [](") (py! ",:;- [](") n n' ∧ v = n' ++ py! " (eds.)"

/-- The mark put in the place of the text `w` of a group in front of `t`. -/
def AuthorMark (g : AuthorGroup) (w t x : Str) : Prop :=
  ∃ kind v semi, x = py! "<cds.AUTH" ++ kind ++ py! ">" ++ v ++ py! "</cds.AUTH" ++ kind ++ py! ">" ++ semi ∧
    semi = (if t.head? = some ';' then [';'] else []) ∧
    ((g.ed = true ∧ kind = py! "incl" ∧ EditorText g.names v) ∨
      (g.ed = false ∧ kind = (if g.etal then py! "etal" else py! "stnd") ∧ AuthorText w v))

/-! ### Which groups are marked -/

/-- The text before a group ends in "et al". -/
def EtAlBefore [UnicodeDB] (u : Str) : Prop :=
  ∃ e ∈ [py! " et al.,", py! " et. al.,", py! " et. al.", py! " et.al.,", py! " et al.", py! " et al"], ∃ a, lower (strip u) = a ++ e

/-- One author, and the text before ends in "and". -/
def AndBefore [UnicodeDB] (u : Str) (g : AuthorGroup) : Prop := g.several = false ∧ ∃ a, lower (strip u) = a ++ py! " and"

/-- The text before makes the group doubtful; `N` says that the weaker search finds authors in it. -/
def Doubtful [UnicodeDB] (N : Str → Prop) (u : Str) (g : AuthorGroup) : Prop := EtAlBefore u ∨ (AndBefore u g ∧ ¬ N u)

/-- The text before is taken for further authors of the group. -/
def Widened [UnicodeDB] (N : Str → Prop) (u : Str) (g : AuthorGroup) : Prop := ¬ EtAlBefore u ∧ AndBefore u g ∧ N u

/-- Reading the covered line `s` after `b` from left to right, `l` being the line itself and `t` the result. -/
inductive AuthorsMarked [UnicodeDB] (A : Str → Str → Str → AuthorGroup → Prop) (N : Str → Prop) : Str → Str → Str → Str → Prop
  | rest {b s l} : NoGroup A b s [] → CoveredBy s l → AuthorsMarked A N b s l l
  | keep {b u v w r l t g} : NoGroup A b u (w ++ r) → CoveredBy u v → A (b ++ u) w r g → '_' ∉ w → g.ed = false → Doubtful N u g →
      AuthorsMarked A N (b ++ u ++ w) r l t → AuthorsMarked A N b (u ++ (w ++ r)) (v ++ (w ++ l)) (v ++ (w ++ t))
  | mark {b u v w r l t g x} : NoGroup A b u (w ++ r) → CoveredBy u v → A (b ++ u) w r g → '_' ∉ w →
      g.ed = true ∨ ¬ Doubtful N u g → ¬ Widened N u g → AuthorMark g w t x →
      AuthorsMarked A N (b ++ u ++ w) r l t → AuthorsMarked A N b (u ++ (w ++ r)) (v ++ (w ++ l)) (v ++ (x ++ t))
  | wide {b u v w r l t g x} : NoGroup A b u (w ++ r) → CoveredBy u v → A (b ++ u) w r g → '_' ∉ w → Widened N u g →
      AuthorMark g (v ++ w) t x → AuthorsMarked A N (b ++ u ++ w) r l t →
      AuthorsMarked A N b (u ++ (w ++ r)) (v ++ (w ++ l)) (x ++ t)

/-! ### What is recognised -/

/-- What has to follow a group: white space or one of `,.;:`. -/
def Delimited (r : Str) : Prop := ∃ d k, r = d :: k ∧ (isSpace d = true ∨ d ∈ py! ",.;:")

/-- `ed`, `eds`, `edited`, and the words ending as given; a point and a blank, or one of them. -/
def EdWord (more : List Str) (x : Str) : Prop :=
  ∃ e y, x = e :: y ∧ e ∈ ['E', 'e'] ∧ (y ∈ [py! "D", py! "d", py! "Ds", py! "ds", py! "dited"] ∨ y ∈ more)

/-- A point, a blank or both. -/
def PointBlank (x : Str) : Prop := x = ['.'] ∨ (∃ c, isSpace c = true ∧ (x = [c] ∨ x = ['.', c]))

/-- The marks of editors in front of the names: `eds. `, `edited by `, `(eds.)`. -/
def EdsBefore (x : Str) : Prop :=
  (∃ e p, x = e ++ p ∧ EdWord [py! "ditor", py! "ditors"] e ∧ PointBlank p) ∨
  (∃ e p k c, x = e ++ p ++ py! "by" ++ k ++ [c] ∧ EdWord [py! "dition", py! "ditions"] e ∧ PointBlank p ∧ k ∈ [[], [':'], [',']] ∧ isSpace c = true) ∨
  ∃ k e p, x = '(' :: (k ++ e ++ p ++ [')']) ∧ (k = [] ∨ ∃ c, k = [c] ∧ isSpace c = true) ∧ EdWord [py! "ditor", py! "ditors"] e ∧ (p = [] ∨ PointBlank p)

/-- The marks of editors behind the names: `, eds.`, ` (editors)`. -/
def EdsAfter (x : Str) : Prop :=
  ∃ s o e y p c q, x = s ++ o ++ e :: (y ++ p ++ c ++ q) ∧ (∃ a d k, s = a ++ d :: k ∧ (∀ z ∈ a ++ k, isSpace z = true) ∧ (d = ',' ∨ isSpace d = true)) ∧
    o ∈ [[], ['(']] ∧ e ∈ ['E', 'e'] ∧ y ∈ [py! "Ds", py! "ds", py! "ditors"] ∧ p ∈ [[], ['.']] ∧ c ∈ [[], [')']] ∧ q.length ≤ 2 ∧ ∀ z ∈ q, z ∈ ['.', ',']

/-- The parts of a group: it stands at the beginning of the line, or with blanks or a bracket before it. -/
structure GroupShape (b w r : Str) (g : AuthorGroup) (o es ee c : Str) : Prop where
  text : w = o ++ es ++ g.names ++ ee ++ c
  lead : (o = [] ∧ b = []) ∨ (o ≠ [] ∧ ∀ z ∈ o, isSpace z = true) ∨ o = ['(']
  before : es = [] ∨ EdsBefore es
  after : ee = [] ∨ EdsAfter ee
  close : c = [] ∨ c = [')']
  behind : Delimited r
  ed : g.ed = true ↔ (es ≠ [] ∨ ee ≠ [])

/-! ### Authors written plainly -/

/-- Blanks. -/
abbrev Blanks (k : Str) : Prop := ∀ z ∈ k, isSpace z = true

/-- A capital letter. -/
abbrev Capital [U : UnicodeDB] (c : Char) : Prop := (if isAscii c then isAsciiUpper c else U.authUpper c) = true

/-- What follows the first of a number of initials, each with a point: `n` further ones. -/
inductive PointTail [UnicodeDB] : Nat → Str → Prop
  | last {k} : Blanks k → PointTail 0 ('.' :: k)
  | more {k c n w} : Blanks k → Capital c → PointTail n w → PointTail (n + 1) ('.' :: (k ++ c :: w))

/-- Words that cannot be surnames. -/
def notSurnames : List Str :=
  [py! "Supergravity", py! "Collaboration", py! "Theoretical", py! "Appendix", py! "Phys", py! "Paper", py! "Energy"]

/-- One to five initials with points, perhaps a short word such as "van", and a surname of two to 21 characters. -/
def PlainAuthor [UnicodeDB] (w : Str) : Prop :=
  ∃ n c t v d s, w = c :: (t ++ v ++ d :: s) ∧ n ≤ 4 ∧ Capital c ∧ PointTail n t ∧
    (v = [] ∨ ∃ x k, v = x ++ [k] ∧ 1 ≤ x.length ∧ x.length ≤ 3 ∧ (∀ z ∈ x, isWord z = true) ∧ x.take 2 ≠ py! "at" ∧ x ≠ py! "and" ∧ isSpace k = true) ∧
    Capital d ∧ 1 ≤ s.length ∧ s.length ≤ 20 ∧ (∀ z ∈ s, isWord z = true) ∧ ∀ x ∈ notSurnames, ¬ x <+: d :: s

end Spec
