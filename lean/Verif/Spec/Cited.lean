import Verif.Spec.Unknown
import Verif.Spec.ArticleArxiv
import Verif.Spec.UrlLine
import Verif.Spec.DoiList
import Verif.Spec.Rebuild

/-!
# Specification vocabulary for lists of references (C121)
-/

open Py
open scoped List

namespace Spec

/-- No book is named in the texts around an item. -/
def NoBooks [UnicodeDB] (kbs : Kbs) (pre tail : Str) : Prop :=
  ∀ q ∈ kbs.books, ∀ u v y, YearOfTwo pre tail u v y → ¬ alnums (upper q.1) <:+: alnums (upper u) ∧ ¬ alnums (upper q.1) <:+: alnums (upper v)

/-- The numbered lines of which everything that is reported is known, with their records: an article, an article with its DOI or with its arXiv identifier, a report
number, one or several DOIs, an arXiv identifier, a URL, or text in which nothing is recognised. -/
inductive Cited [UnicodeDB] (kbs : Kbs) (n : Nat) : Str → List (List (Str × Str)) → Prop
  | article {pre b p ld w tail K J : Str} {t : Told} : ArticleLine n pre b p ld w tail t → reading b = K → KnownJournal kbs K J →
      NothingElse kbs.tag K pre b (p ++ (ld ++ w ++ tail)) tail →
      Cited kbs n (bracketed n ++ ' ' :: articleText pre b p ld w tail) [articleRecord n (bracketed n ++ ' ' :: articleText pre b p ld w tail) pre J tail t]
  | articleDoi {pre b p ld w mid dw d tail K J : Str} {t : Told} : ArticleDoiLine n pre b p ld w mid dw d tail t → reading b = K → KnownJournal kbs K J →
      NothingFurther kbs.tag K pre b [(p ++ (ld ++ w ++ mid), doiMark)] tail → NoCollaborations kbs.tag pre [(mid, doiMark)] tail →
      Cited kbs n (bracketed n ++ ' ' :: articleDoiText pre b p ld w mid dw d tail)
        [articleWithRecord n (bracketed n ++ ' ' :: articleDoiText pre b p ld w mid dw d tail) pre J mid (py! "doi", py! "doi:" ++ d) tail t]
  | articleArxiv {pre b p ld w mid a tail i K J : Str} {t : Told} : ArticleArxivLine n pre b p ld w mid a tail i t → reading b = K → KnownJournal kbs K J →
      NothingFurther kbs.tag K pre b [(p ++ (ld ++ w ++ mid), tagged (py! "ARXIV") i)] tail → NoCollaborations kbs.tag pre [(mid, tagged (py! "ARXIV") i)] tail →
      Cited kbs n (bracketed n ++ ' ' :: articleArxivText pre b p ld w mid a tail)
        [articleWithRecord n (bracketed n ++ ' ' :: articleArxivText pre b p ld w mid a tail) pre J mid (py! "reportnumber", i) tail t]
  | report {pre b tail S w R u v : Str} {y : Option Str} : NumberLine n pre b tail → KnownReport kbs.tag pre b tail S w → NothingBeside kbs pre b tail → S ++ w ≠ [] →
      ReportForm (S ++ hyphenated w) R → YearOfTwo pre.dropLast (unclosed tail) u v y →
      Cited kbs n (bracketed n ++ ' ' :: (pre ++ b ++ tail)) [loneRecord n (bracketed n ++ ' ' :: (pre ++ b ++ tail)) u [(py! "reportnumber", R)] v y]
  | doi {pre dw d tail u v : Str} {y : Option Str} : DoiLine n pre dw d tail → NothingAround kbs.tag pre doiMark tail → YearOfTwo pre tail u v y →
      Cited kbs n (bracketed n ++ ' ' :: (pre ++ (dw ++ d) ++ tail)) [loneRecord n (bracketed n ++ ' ' :: (pre ++ (dw ++ d) ++ tail)) u [(py! "doi", py! "doi:" ++ d)] v y]
  | dois {toks : List DoiItem} {tail : Str} : DoiList n toks tail → toks ≠ [] → NothingAmong kbs.tag (toks.map fun t => (t.pre, doiMark)) tail →
      Cited kbs n (bracketed n ++ ' ' :: inLine (toks.map DoiItem.written) tail) (doiRecords n (bracketed n ++ ' ' :: inLine (toks.map DoiItem.written) tail) toks tail)
  | arxiv {pre w tail i u v : Str} {y : Option Str} : ArxivLine n pre w tail i → NothingAround kbs.tag pre (tagged (py! "ARXIV") i) tail → NoBooks kbs pre tail →
      YearOfTwo pre tail u v y →
      Cited kbs n (bracketed n ++ ' ' :: (pre ++ w ++ tail)) [loneRecord n (bracketed n ++ ' ' :: (pre ++ w ++ tail)) u [(py! "reportnumber", i)] v y]
  | url {pre w tail x u v : Str} {y : Option Str} : UrlLine n pre w tail x → NothingAround kbs.tag pre urlMark tail → NoBooks kbs pre tail → YearOfTwo pre tail u v y →
      Cited kbs n (bracketed n ++ ' ' :: (pre ++ w ++ tail)) [loneRecord n (bracketed n ++ ' ' :: (pre ++ w ++ tail)) u [(py! "url", x)] v y]
  | text {s : Str} {table : List (Str × Str)} : PlainLine n s → NothingKnown kbs s → PlainRecord n (bracketed n ++ ' ' :: s) s table →
      Cited kbs n (bracketed n ++ ' ' :: s) [table]

/-- What is assumed of the libraries: ASCII text and text without percent signs are kept, and the years known for arXiv have two digits. -/
structure PlainLibs [UnicodeDB] (lib : Lib) : Prop where
  ascii : ∀ s, (∀ c ∈ s, isAscii c = true) → lib.unidecode s = s
  unquoted : ∀ s, '%' ∉ s → lib.unquote s = s
  years : ∃ ys : List Str, lib.years = Re.alts (ys.map Re.str) ∧ ∀ y ∈ ys, DigitsOf 2 y
  years5 : ∃ ys : List Str, lib.years5 = Re.alts (ys.map Re.str) ∧ ∀ y ∈ ys, DigitsOf 2 y

/-- All references of a list are such lines, which may be broken into several lines and are kept by the removal of characters. -/
def CitedList [UnicodeDB] (undesirable : Str → Str) (kbs : Kbs) (entries : List Entry) : Prop :=
  ∀ p ∈ numbered 1 entries, ∃ line tables, RefOf (solidPieces (entryLines p)) line ∧ undesirable line = line ∧ Cited kbs p.1 line tables

/-- The records are exactly those of the references of a list, in their order: every record has the values of its table and no others. -/
def Listed [UnicodeDB] (kbs : Kbs) (entries : List Entry) (refs : List Field) : Prop :=
  ∃ blocks : List (List (List (Str × Str))), All2 (fun p tables => ∃ line, RefOf (solidPieces (entryLines p)) line ∧ Cited kbs p.1 line tables) (numbered 1 entries) blocks ∧
    All2 (fun table r => ∀ k, vals r k = under k table) blocks.flatten refs

end Spec
