import Verif.Spec.Ident
import Verif.Spec.Record

/-!
# Vocabulary for collaborations
-/

open Py

namespace Spec

/-- As `Rewritten`, but the pieces are looked for in `s`, a copy of the line in which some characters
have been covered by underscores. -/
inductive RewrittenUnder (P : Str → Str → Str → Str → Prop) : Str → Str → Str → Str → Prop
  | nil {b} : RewrittenUnder P b [] [] []
  | ch {b c d s l t} : c = d ∨ c = '_' → (¬ ∃ w r x, c :: s = w ++ r ∧ P b w r x) → RewrittenUnder P (b ++ [c]) s l t →
      RewrittenUnder P b (c :: s) (d :: l) (d :: t)
  | hit {b w r l x t} : w ≠ [] → P b w r x → RewrittenUnder P (b ++ w) r l t → RewrittenUnder P b (w ++ r) (w ++ l) (x ++ t)

/-- One pass after the other; each looks for its pieces outside the closed tags of the line as it has become. -/
inductive MarkedBy : List (Str → Str → Str → Str → Prop) → Str → Str → Prop
  | nil {s} : MarkedBy [] s s
  | cons {P Ps s b l t} : Blanked s b → RewrittenUnder P [] b s l → MarkedBy Ps l t → MarkedBy (P :: Ps) s t

/-! ### What is recognised -/

/-- The words of a name, in upper or lower case, with any white space between them. -/
def NameText [UnicodeDB] (name g : Str) : Prop :=
  All2 (fun c d => if d = ' ' then isSpace c = true else d ∈ caseVariants c) g name

/-- `coll`, `coll.`, `collaboration` or `collaborations`. -/
def CollabWord [UnicodeDB] (x : Str) : Prop :=
  FoldsTo x (py! "coll") ∨ FoldsTo x (py! "coll.") ∨ FoldsTo x (py! "collaboration") ∨ FoldsTo x (py! "collaborations")

/-- A text standing for an entry: the name; for entries ending in `Collaboration` also a blank, and then perhaps such
a word. -/
def CollabReading [UnicodeDB] (name : Str) (coll : Bool) (g : Str) : Prop :=
  if coll then
    ∃ n c t, g = n ++ c :: t ∧ NameText name n ∧ isSpace c = true ∧
      (t = [] ∨ ∃ k x, t = k ++ x ∧ (∀ a ∈ k, isSpace a = true) ∧ CollabWord x)
  else NameText name g

/-- What may stand behind. -/
def CollabEnd (r : Str) : Prop := ∀ c, r.head? = some c → c ∈ py! "><])\".,:" ∨ isSpace c = true

/-- What is taken away in front of the name, between `b` and the name: a bracket, a quotation mark or a blank, unless no
word character stands before; more blanks; an article or `and`. -/
def CollabLead [UnicodeDB] (b lead : Str) : Prop :=
  ∃ o s t, lead = o ++ s ++ t ∧
    ((o = [] ∧ NotFirst (fun c => isWord c = true) b.reverse) ∨ ∃ c, o = [c] ∧ (c ∈ py! "(\"[" ∨ isSpace c = true)) ∧
    (∀ c ∈ s, isSpace c = true) ∧
    (t = [] ∨ ∃ a k, t = a ++ k ∧ (FoldsTo a (py! "the") ∨ FoldsTo a (py! "and")) ∧ k ≠ [] ∧ ∀ c ∈ k, isSpace c = true)

/-- A collaboration: as much as can be read as the entry, reported without punctuation at its ends. -/
def CollabText [UnicodeDB] (name : Str) (coll : Bool) (b w r x : Str) : Prop :=
  ∃ lead g v, w = lead ++ g ∧ CollabLead b lead ∧ CollabReading name coll g ∧ CollabEnd r ∧
    (∀ g' r', g ++ r = g' ++ r' → CollabReading name coll g' → CollabEnd r' → g'.length ≤ g.length) ∧
    Trimmed (py! ".,:;- [](){}") (py! ".,:;- [](){}") g v ∧ x = tagged (py! "COLLABORATION") v

/-- A name that can be looked for: not empty, and without underscores and angle brackets, which tags are made of. -/
def PlainName (name : Str) : Prop := name ≠ [] ∧ '_' ∉ name ∧ '<' ∉ name

/-- A name that cannot be mistaken for what may stand in front of it. -/
structure OwnName [UnicodeDB] (name : Str) : Prop where
  head : ∀ n, NameText name n → NotFirst (fun c => c ∈ py! "(\"[" ∨ isSpace c = true) n
  word : ∀ n a z, NameText name n → n = a ++ z → FoldsTo a (py! "the") ∨ FoldsTo a (py! "and") →
    z ≠ [] ∧ NotFirst (fun c => isSpace c = true) z

/-! ### Tables -/

/-- `r` is the last row with key `k`. -/
def LastRow {ρ κ : Type} (key : ρ → κ) (rows : List ρ) (k : κ) (r : ρ) : Prop :=
  ∃ a b, rows = a ++ r :: b ∧ key r = k ∧ ∀ q ∈ b, key q ≠ k

/-- The different elements of a list in the order of their first appearance. -/
inductive Firsts {κ : Type} : List κ → List κ → Prop
  | nil : Firsts [] []
  | old {ks ds k} : Firsts ks ds → k ∈ ds → Firsts (ks ++ [k]) ds
  | new {ks ds k} : Firsts ks ds → k ∉ ds → Firsts (ks ++ [k]) (ds ++ [k])

/-- An entry of the knowledge base of collaborations as written in the file: name, whether ` Collaboration` follows. -/
def entryText (e : Str × Bool) : Str := e.1 ++ if e.2 then py! " Collaboration" else []

end Spec
