import Verif.Spec.Tag
import Verif.Spec.Numeration

/-!
# Vocabulary for identifiers of fixed shape
-/

open Py

namespace Spec

/-- `t` is the text `s`, which stands behind `b`, with pieces replaced from left to right:
`P b w r x` says that `w`, standing between `b` and `r`, is to be replaced by `x`. A character is kept
only when no piece begins with it. -/
inductive Rewritten (P : Str → Str → Str → Str → Prop) : Str → Str → Str → Prop
  | nil {b} : Rewritten P b [] []
  | ch {b c s t} : (¬ ∃ w r x, c :: s = w ++ r ∧ P b w r x) → Rewritten P (b ++ [c]) s t → Rewritten P b (c :: s) (c :: t)
  | hit {b w r x t} : w ≠ [] → P b w r x → Rewritten P (b ++ w) r t → Rewritten P b (w ++ r) (x ++ t)

/-- At each place the description determines the piece and its replacement. -/
def Determined (P : Str → Str → Str → Str → Prop) : Prop :=
  ∀ b w r x w' r' x', w ++ r = w' ++ r' → P b w r x → P b w' r' x' → w = w' ∧ x = x'

/-- `<cds.NAME>x</cds.NAME>` -/
def tagged (name x : Str) : Str := py! "<cds." ++ name ++ ['>'] ++ x ++ py! "</cds." ++ name ++ ['>']

/-- No character of the class stands at the beginning. -/
def NotFirst (p : Char → Prop) (s : Str) : Prop := ∀ c, s.head? = some c → ¬ p c

/-- Exactly `n` decimal digits. -/
def DigitsOf [UnicodeDB] (n : Nat) (x : Str) : Prop := x.length = n ∧ ∀ c ∈ x, isDec c = true

/-! ### Quoted titles -/

/-- A title in quotation marks. -/
def QuotedTitle (_ w _ x : Str) : Prop :=
  ∃ t, w = '"' :: t ++ ['"'] ∧ t ≠ [] ∧ '"' ∉ t ∧ x = tagged (py! "QUOTED") t

/-! ### Book numbers -/

/-- A character of a book number. -/
def IsbnChar (c : Char) : Prop := c ∈ py! "-–0123456789Xx"

/-- A number can be read here: colons and blanks, then at least ten characters of a book number. -/
def IsbnHere (u : Str) : Prop :=
  ∃ k code r, u = k ++ code ++ r ∧ (∀ c ∈ k, c = ':' ∨ isSpace c = true) ∧ 10 ≤ code.length ∧ ∀ c ∈ code, IsbnChar c

/-- The label `ISBN` in front of `u`: hyphens and blanks `s`, as many as possible, and then `n`, which is
`10` or `13` only if the number cannot begin with it. -/
def IsbnLabel (s n u : Str) : Prop :=
  (∀ c ∈ s, c ∈ py! "-– ") ∧ (n = [] ∨ n = py! "10" ∨ n = py! "13") ∧
  (∀ e f, n ++ u = e ++ f → e ≠ [] → (∀ c ∈ e, c ∈ py! "-– ") → ¬ ∃ n' u', f = n' ++ u' ∧ (n' = [] ∨ n' = py! "10" ∨ n' = py! "13") ∧ IsbnHere u') ∧
  (n = [] ∨ ¬ IsbnHere (n ++ u))

/-- An announced book number: ten to twenty-five characters, as many as there are. -/
def IsbnText (_ w r x : Str) : Prop :=
  ∃ l k code, w = l ++ k ++ code ∧
    ((∃ s n, l = py! "ISBN" ++ s ++ n ∧ IsbnLabel s n (k ++ code ++ r)) ∨ l = py! "InternationalStandardBookNumber") ∧
    (∀ c ∈ k, c = ':' ∨ isSpace c = true) ∧ 10 ≤ code.length ∧ code.length ≤ 25 ∧ (∀ c ∈ code, IsbnChar c) ∧
    (code.length = 25 ∨ NotFirst IsbnChar r) ∧ x = tagged (py! "ISBN") code

/-! ### arXiv identifiers since 2007 -/

/-- A version: `v2`, perhaps after blanks and hyphens. -/
def ArxivVersion [UnicodeDB] (v : Str) : Prop :=
  ∃ g c d, v = g ++ [c, d] ∧ (∀ a ∈ g, a = '-' ∨ isSpace a = true) ∧ FoldsTo [c] (py! "V") ∧ isDec d = true

/-- The category in square brackets. -/
def ArxivCategory [UnicodeDB] (s : Str) : Prop :=
  ∃ a, s = '[' :: a ++ [']'] ∧ a ≠ [] ∧ ∀ c ∈ a, c = '.' ∨ c = '-' ∨ ∃ d ∈ caseVariants c, isAsciiUpper d = true

/-- `x` is the longest possible, or empty when impossible: `x` is a `p`, or nothing that is a `p`
begins here. -/
def Optionally (p : Str → Str → Prop) (x r : Str) : Prop := p x r ∨ (x = [] ∧ ¬ ∃ y r', x ++ r = y ++ r' ∧ p y r')

/-- Two digits for the month. -/
def Month2 (m : Str) : Prop := ∃ a b, m = [a, b] ∧ ((a = '0' ∧ b ∈ py! "123456789") ∨ (a = '1' ∧ b ∈ py! "012"))

/-- Two digits for the years 2013 to 2089. -/
def Year13 (y : Str) : Prop :=
  ∃ a b, y = [a, b] ∧ ((a = '1' ∧ b ∈ py! "3456789") ∨ (a ∈ py! "2345678" ∧ b ∈ py! "0123456789"))

/-- What is reported for an identifier. -/
def arxivId (yy mm num cat : Str) : Str :=
  tagged (py! "ARXIV") (py! "arXiv:" ++ yy ++ mm ++ ['.'] ++ num ++ (if cat = [] then [] else ' ' :: cat))

/-- The word `arXiv`, year, month and a number of `n` digits, with a version and a category if there
are any; the blanks in front of the category belong to it even if there is none. -/
def ArxivNamed [UnicodeDB] (year month : Str → Prop) (n : Nat) (_ w r x : Str) : Prop :=
  ∃ lead sep yy h mm sep2 num ver sp cat, w = lead ++ sep ++ yy ++ h ++ mm ++ sep2 ++ num ++ ver ++ sp ++ cat ∧
    FoldsTo lead (py! "ARXIV") ∧ (∀ c ∈ sep, c = ':' ∨ c = '-' ∨ isSpace c = true) ∧ year yy ∧ (h = [] ∨ h = ['-']) ∧ month mm ∧
    (∀ c ∈ sep2, c = '.' ∨ c = '-' ∨ isSpace c = true) ∧ DigitsOf n num ∧
    NotFirst (fun c => isDec c = true) (ver ++ sp ++ cat ++ r) ∧
    Optionally (fun v _ => ArxivVersion v) ver (sp ++ cat ++ r) ∧
    Spaces sp ∧ NotFirst (fun c => isSpace c = true) (cat ++ r) ∧
    Optionally (fun s _ => ArxivCategory s) cat r ∧ x = arxivId yy mm num cat

/-- Year, month, a full stop and a number of `n` digits, not behind a digit and not behind `arXiv:`. -/
def ArxivBare [UnicodeDB] (year : Str → Prop) (n : Nat) (b w r x : Str) : Prop :=
  ∃ yy mm num ver sp cat, w = yy ++ mm ++ ['.'] ++ num ++ ver ++ sp ++ cat ∧
    (¬ ∃ a v, b = a ++ v ∧ FoldsTo v (py! "ARXIV:")) ∧ NotFirst (fun c => isDec c = true) b.reverse ∧
    year yy ∧ Month2 mm ∧ DigitsOf n num ∧
    Optionally (fun v r => ArxivVersion v ∧ NotFirst (fun c => isDec c = true) r) ver (sp ++ cat ++ r) ∧
    NotFirst (fun c => isDec c = true) (sp ++ cat ++ r) ∧
    Spaces sp ∧ NotFirst (fun c => isSpace c = true) (cat ++ r) ∧
    Optionally (fun s _ => ArxivCategory s) cat r ∧ x = arxivId yy mm num cat

/-! ### arXiv identifiers before 2007 -/

/-- The archives: name, whether two letters follow it, and the name reported (`none`: as written). The
table is that of the project (`regexs.py:133-245`). -/
def arxivArchives : List (Str × Bool × Option Str) :=
  [(py! "acc-ph", false, none), (py! "astro-ph", false, none), (py! "astro-phy", false, some (py! "astro-ph")), (py! "astro-ph.", true, none),
   (py! "atom-ph", false, none), (py! "chao-dyn", false, none), (py! "chem-ph", false, none), (py! "cond-mat", false, none), (py! "cs", false, none),
   (py! "cs.", true, none), (py! "gr-qc", false, none), (py! "hep-ex", false, none), (py! "hep-lat", false, none), (py! "hep-ph", false, none),
   (py! "hepph", false, some (py! "hep-ph")), (py! "hep-th", false, none), (py! "hepth", false, some (py! "hep-th")), (py! "math", false, none),
   (py! "math.", true, none), (py! "math-ph", false, none), (py! "nlin", false, none), (py! "nlin.", true, none), (py! "nucl-ex", false, none),
   (py! "nucl-th", false, none), (py! "physics", false, none), (py! "physics.acc-ph", false, none), (py! "physics.ao-ph", false, none),
   (py! "physics.atm-clus", false, none), (py! "physics.atom-ph", false, none), (py! "physics.bio-ph", false, none),
   (py! "physics.chem-ph", false, none), (py! "physics.class-ph", false, none), (py! "physics.comp-ph", false, none),
   (py! "physics.data-an", false, none), (py! "physics.ed-ph", false, none), (py! "physics.flu-dyn", false, none),
   (py! "physics.gen-ph", false, none), (py! "physics.geo-ph", false, none), (py! "physics.hist-ph", false, none),
   (py! "physics.ins-det", false, none), (py! "physics.med-ph", false, none), (py! "physics.optics", false, none),
   (py! "physics.plasm-ph", false, none), (py! "physics.pop-ph", false, none), (py! "physics.soc-ph", false, none),
   (py! "physics.space-ph", false, none), (py! "plasm-ph", false, some (py! "physics.plasm-ph")), (py! "q-bio.", true, none),
   (py! "q-fin.", true, none), (py! "q-alg", false, none), (py! "quant-ph", false, none), (py! "quant-phys", false, some (py! "quant-ph")),
   (py! "solv-int", false, none), (py! "stat.", true, none), (py! "stat-mech", false, none), (py! "dg-ga", false, none),
   (py! "hap-ph", false, some (py! "hep-ph")), (py! "funct-an", false, none), (py! "quantph", false, some (py! "quant-ph")),
   (py! "stro-ph", false, some (py! "astro-ph")), (py! "hepex", false, some (py! "hep-ex")), (py! "math-ag", false, some (py! "math.ag")),
   (py! "math-dg", false, some (py! "math.dg")), (py! "nuc-th", false, some (py! "nucl-th")), (py! "math-ca", false, some (py! "math.ca")),
   (py! "nlin-si", false, some (py! "nlin.si")), (py! "quantum-ph", false, some (py! "quant-ph")), (py! "ep-ph", false, some (py! "hep-ph")),
   (py! "ep-th", false, some (py! "hep-ph")), (py! "ep-ex", false, some (py! "hep-ex")), (py! "hept-h", false, some (py! "hep-th")),
   (py! "hepp-h", false, some (py! "hep-ph")), (py! "physi-cs", false, some (py! "physics")), (py! "asstro-ph", false, some (py! "astro-ph")),
   (py! "hep-lt", false, some (py! "hep-lat")), (py! "he-ph", false, some (py! "hep-ph")), (py! "het-ph", false, some (py! "hep-ph")),
   (py! "mat-ph", false, some (py! "math.th")), (py! "math-th", false, some (py! "math.th")), (py! "ucl-th", false, some (py! "nucl-th")),
   (py! "nnucl-th", false, some (py! "nucl-th")), (py! "nuclt-th", false, some (py! "nucl-th")), (py! "atro-ph", false, some (py! "astro-ph")),
   (py! "qnant-ph", false, some (py! "quant-ph")), (py! "astr-ph", false, some (py! "astro-ph")), (py! "math-qa", false, some (py! "math.qa")),
   (py! "tro-ph", false, some (py! "astro-ph")), (py! "hucl-th", false, some (py! "nucl-th")), (py! "math-gt", false, some (py! "math.gt")),
   (py! "math-nt", false, some (py! "math.nt")), (py! "math-ct", false, some (py! "math.ct")), (py! "math-oa", false, some (py! "math.oa")),
   (py! "math-sg", false, some (py! "math.sg")), (py! "math-ap", false, some (py! "math.ap")), (py! "quan-ph", false, some (py! "quant-ph")),
   (py! "nlin-cd", false, some (py! "nlin.cd")), (py! "math-sp", false, some (py! "math.sp")), (py! "ast-ph", false, some (py! "astro-ph")),
   (py! "asyro-ph", false, some (py! "astro-ph")), (py! "aastro-ph", false, some (py! "astro-ph")), (py! "astrop-ph", false, some (py! "astro-ph")),
   (py! "arxivastrop-ph", false, some (py! "astro-ph")), (py! "hept-th", false, some (py! "hep-th")), (py! "quan-th", false, some (py! "quant-th")),
   (py! "asro-ph", false, some (py! "astro-ph")), (py! "castro-ph", false, some (py! "astro-ph")), (py! "asaastro-ph", false, some (py! "astro-ph")),
   (py! "hhep-ph", false, some (py! "hep-ph")), (py! "hhep-ex", false, some (py! "hep-ex")), (py! "alg-geom", false, none),
   (py! "nuclth", false, some (py! "nucl-th"))]

/-- A way of writing the name of an archive. -/
def ArchiveName [UnicodeDB] (name : Str) (two : Bool) (x : Str) : Prop :=
  ∃ u v, x = u ++ v ∧ FoldsTo u name ∧
    if two then v.length = 2 ∧ ∀ c ∈ v, ∃ d ∈ caseVariants c, isAsciiLower d = true else v = []

/-- Two digits for the years 1991 to 2007. -/
def Year91 (y : Str) : Prop :=
  ∃ a b, y = [a, b] ∧ ((a = '9' ∧ b ∈ py! "123456789") ∨ (a = '0' ∧ b ∈ py! "01234567"))

/-- A version with at most three digits. -/
def OldVersion [UnicodeDB] (v : Str) : Prop :=
  ∃ c d, v = c :: d ∧ FoldsTo [c] (py! "v") ∧ 1 ≤ d.length ∧ d.length ≤ 3 ∧ ∀ a ∈ d, isDec a = true

/-- The name of an archive, a separator, and the number; the version is dropped. -/
def OldArxiv [UnicodeDB] (name : Str) (two : Bool) (repl : Option Str) (b w r x : Str) : Prop :=
  ∃ n sep yy mm num ver, w = n ++ sep ++ yy ++ mm ++ num ++ ver ∧
    (¬ ∃ a v, b = a ++ v ∧ FoldsTo v (py! "<cds.REPORTNUMBER>")) ∧ NotFirst (fun c => isWord c = true) b.reverse ∧
    ArchiveName name two n ∧ (sep = [] ∨ ∃ c, sep = [c] ∧ (c ∈ py! "|/:-" ∨ isSpace c = true)) ∧
    Year91 yy ∧ Month2 mm ∧ DigitsOf 3 num ∧ (ver = [] ∨ OldVersion ver) ∧ NotFirst (fun c => isWord c = true) r ∧
    x = tagged (py! "ARXIV") (repl.getD n ++ ['/'] ++ yy ++ mm ++ num)

/-- The word `arXiv`, seven digits and the name of an archive in brackets. -/
def ArxivCatchup [UnicodeDB] (_ w _ x : Str) : Prop :=
  ∃ lead sep yy h mm sep2 num sp a, w = lead ++ sep ++ yy ++ h ++ mm ++ sep2 ++ num ++ sp ++ ['['] ++ a ++ [']'] ∧
    FoldsTo lead (py! "ARXIV") ∧ (∀ c ∈ sep, c = ':' ∨ c = '-' ∨ isSpace c = true) ∧ DigitsOf 2 yy ∧ (h = [] ∨ h = ['-']) ∧
    DigitsOf 2 mm ∧ (∀ c ∈ sep2, c = '.' ∨ c = '-' ∨ isSpace c = true) ∧ DigitsOf 3 num ∧ Spaces sp ∧
    ArxivCategory ('[' :: a ++ [']']) ∧ x = a ++ ['/'] ++ yy ++ mm ++ num

/-- Rewriting by several descriptions, one after the other. -/
inductive RewrittenBy : List (Str → Str → Str → Str → Prop) → Str → Str → Prop
  | nil {s} : RewrittenBy [] s s
  | cons {P Ps s t u} : Rewritten P [] s t → RewrittenBy Ps t u → RewrittenBy (P :: Ps) s u

/-! ### ATLAS notes -/

/-- A conference note of the ATLAS experiment: the year and number of a `code`. -/
def AtlasNote [UnicodeDB] (code : Str → Prop) (name : Str) (b w r x : Str) : Prop :=
  ∃ k c, w = k ++ c ∧ (¬ ∃ a u, b = a ++ [u, ':'] ∧ isWord u = true) ∧ (k = py! "ATL-CONF-" ∨ k = py! "ATLAS-CONF-") ∧ code c ∧
    NotFirst (fun c => isWord c = true) r ∧ x = tagged (py! "REPORTNUMBER") (name ++ c)

/-- `2004-012` or `99-012` -/
def CodeBefore2010 [UnicodeDB] (c : Str) : Prop :=
  ∃ y n, c = y ++ ['-'] ++ n ∧ (y = py! "99" ∨ ∃ d, y = py! "200" ++ [d] ∧ isDec d = true) ∧ DigitsOf 3 n

/-- `2012-012` -/
def CodeSince2010 [UnicodeDB] (c : Str) : Prop :=
  ∃ a d n, c = py! "20" ++ [a, d] ++ ['-'] ++ n ∧ a ∈ py! "123456789" ∧ isDec d = true ∧ DigitsOf 3 n

/-! ### Proceedings of Science -/

/-- A separator with blanks around it. -/
def PosSep (s : Str) : Prop := ∃ a c b, s = a ++ [c] ++ b ∧ Spaces a ∧ (c ∈ py! ",:-" ∨ isSpace c = true) ∧ Spaces b

/-- Blanks, perhaps with a separator. -/
def PosGap (s : Str) : Prop := PosSep s ∨ Spaces s

/-- A year of the twentieth or twenty-first century. -/
def Year4 [UnicodeDB] (y : Str) : Prop := ∃ p d, y = p ++ d ∧ (p = py! "19" ∨ p = py! "20") ∧ DigitsOf 2 d

/-- A year in brackets or between blanks. -/
def PosYear [UnicodeDB] (s y : Str) : Prop :=
  Year4 y ∧ (s = '(' :: y ++ [')'] ∨ ∃ a b, s = a :: y ++ [b] ∧ isSpace a = true ∧ isSpace b = true)

/-- A volume: a name of at most ten letters and a year. -/
def PosVolume [UnicodeDB] (s v : Str) : Prop :=
  ∃ name g y, s = name ++ g ++ y ∧ v = name ++ y ∧ 1 ≤ name.length ∧ name.length ≤ 10 ∧ (∀ c ∈ name, isWord c = true) ∧ PosGap g ∧ Year4 y

/-- A page of at most four digits, as many as there are. -/
def PosPage [UnicodeDB] (p r : Str) : Prop :=
  1 ≤ p.length ∧ p.length ≤ 4 ∧ (∀ c ∈ p, isDec c = true) ∧ (p.length = 4 ∨ NotFirst (fun c => isDec c = true) r)

/-- What is reported for a citation of the journal. -/
def posCitation (v y p : Str) : Str :=
  tagged (py! "JOURNAL") (py! "PoS") ++ [' '] ++ tagged (py! "VOL") v ++ [' '] ++ tagged (py! "YR") ('(' :: y ++ [')']) ++ [' '] ++
    tagged (py! "PG") p

/-- `PoS (2007) LAT2007 020` -/
def PosYearFirst [UnicodeDB] (_ w r x : Str) : Prop :=
  ∃ t g ys g2 vs g3 p y v, w = t ++ g ++ ys ++ g2 ++ vs ++ g3 ++ p ∧ FoldsTo t (py! "POS") ∧ PosGap g ∧ PosYear ys y ∧ PosSep g2 ∧
    PosVolume vs v ∧ PosSep g3 ∧ PosPage p r ∧ x = posCitation v y p

/-- `PoS LAT2007 (2007) 020` -/
def PosYearMiddle [UnicodeDB] (_ w r x : Str) : Prop :=
  ∃ t g vs g2 ys g3 p y v, w = t ++ g ++ vs ++ g2 ++ ys ++ g3 ++ p ∧ FoldsTo t (py! "POS") ∧ PosSep g ∧ PosVolume vs v ∧ PosGap g2 ∧
    PosYear ys y ∧ PosGap g3 ∧ PosPage p r ∧ x = posCitation v y p

/-- `PoS LAT2007 020 (2007)` -/
def PosYearLast [UnicodeDB] (_ w _ x : Str) : Prop :=
  ∃ t g vs g2 p g3 ys y v, w = t ++ g ++ vs ++ g2 ++ p ++ g3 ++ ys ∧ FoldsTo t (py! "POS") ∧ PosSep g ∧ PosVolume vs v ∧ PosSep g2 ∧
    PosPage p (g3 ++ ys) ∧ PosGap g3 ∧ PosYear ys y ∧ x = posCitation v y p

/-- `PoS(LAT2007)020`: the year is that of the volume. -/
def PosBrackets [UnicodeDB] (_ w r x : Str) : Prop :=
  ∃ t g vs g2 p name gap y, w = t ++ g ++ ['('] ++ vs ++ [')'] ++ g2 ++ p ∧ FoldsTo t (py! "POS") ∧ PosGap g ∧
    vs = name ++ gap ++ y ∧ 1 ≤ name.length ∧ name.length ≤ 10 ∧ (∀ c ∈ name, isWord c = true) ∧ PosGap gap ∧ Year4 y ∧
    PosGap g2 ∧ PosPage p r ∧ x = posCitation (name ++ y) y p

end Spec
