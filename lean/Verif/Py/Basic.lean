/-!
# Python primitives

Strings, characters, exceptions and the `str` methods used by refextract.
There is no counterpart in `/repo` for this file: it models the language the
code is written in (CPython 3.11, the minimum version in `/repo/pyproject.toml`).
-/

namespace Py

/-- A Python `str`: a sequence of code points. Lone surrogates are not represented. -/
abbrev Str := List Char

/-- Python exceptions that the modelled code can raise. `other` stands for any
exception raised by external code, with an arbitrary tag. -/
inductive PyErr where
  | keyError
  | indexError
  | valueError
  | typeError
  | attributeError
  | unboundLocal
  | fullTextNotAvailable
  | unknownDocumentType
  | garbageFullText
  | httpError
  | osError
  | stopIteration
  | other (tag : Nat)
deriving DecidableEq, Repr

/-- Result of Python code that may raise. -/
abbrev Py (α : Type) := Except PyErr α

instance {ε α : Type} [DecidableEq ε] [DecidableEq α] : DecidableEq (Except ε α)
  | .ok a, .ok b => if h : a = b then .isTrue (h ▸ rfl) else .isFalse fun e => h (Except.ok.inj e)
  | .error a, .error b => if h : a = b then .isTrue (h ▸ rfl) else .isFalse fun e => h (Except.error.inj e)
  | .ok _, .error _ => .isFalse fun e => nomatch e
  | .error _, .ok _ => .isFalse fun e => nomatch e

/-- `str.isspace` on one character and `\s` in `re`: CPython's `_PyUnicode_IsWhitespace`. -/
def isSpace (c : Char) : Bool :=
  let n := c.toNat
  (9 ≤ n && n ≤ 13) || (28 ≤ n && n ≤ 32) || n == 0x85 || n == 0xA0 || n == 0x1680
    || (0x2000 ≤ n && n ≤ 0x200A) || n == 0x2028 || n == 0x2029 || n == 0x202F
    || n == 0x205F || n == 0x3000

/-- The code point is in the ASCII range. -/
def isAscii (c : Char) : Bool := c.toNat < 128

/-- ASCII digit. -/
def isAsciiDigit (c : Char) : Bool := 48 ≤ c.toNat && c.toNat ≤ 57

/-- ASCII upper-case letter. -/
def isAsciiUpper (c : Char) : Bool := 65 ≤ c.toNat && c.toNat ≤ 90

/-- ASCII lower-case letter. -/
def isAsciiLower (c : Char) : Bool := 97 ≤ c.toNat && c.toNat ≤ 122

/-- Unicode character data outside ASCII. All theorems quantify over it.

* `word`   : `\w` of `re`, i.e. `str.isalnum` (or `_`)
* `dec`    : decimal digit value (category Nd), i.e. `\d` and `int()`
* `digit`  : `str.isdigit`
* `upper`, `lower` : `str.upper`, `str.lower` (may change the length)
* `variants` : the characters considered equal to the given one by `re.IGNORECASE`
* `authUpper` : membership in the class built by `get_uppercase_re`

The laws are facts of the Unicode character database. -/
class UnicodeDB where
  word : Char → Bool
  dec : Char → Option Nat
  digit : Char → Bool
  upper : Char → Str
  lower : Char → Str
  variants : Char → List Char
  authUpper : Char → Bool
  dec_lt : ∀ c d, dec c = some d → d < 10
  dec_digit : ∀ c, (dec c).isSome → digit c = true
  digit_word : ∀ c, digit c = true → word c = true
  digit_nspace : ∀ c, digit c = true → isSpace c = false
  dec_variants : ∀ c, (dec c).isSome → variants c = []
  variants_ascii : ∀ c v, v ∈ variants c → isAscii v = true → v ∈ ['I', 'i', 'K', 'k', 'S', 's']

/-- Decimal value of a character (`int()` of one character, `\d`). -/
def decVal [U : UnicodeDB] (c : Char) : Option Nat :=
  if isAscii c then (if isAsciiDigit c then some (c.toNat - 48) else none) else U.dec c

/-- `\d` of `re` on `str` patterns. -/
def isDec [UnicodeDB] (c : Char) : Bool := (decVal c).isSome

/-- `str.isdigit` on one character. -/
def isDigitC [U : UnicodeDB] (c : Char) : Bool :=
  if isAscii c then isAsciiDigit c else U.digit c

/-- `\w` of `re` on `str` patterns. White space is never a word character. -/
def isWord [U : UnicodeDB] (c : Char) : Bool :=
  if isAscii c then
    isAsciiDigit c || isAsciiUpper c || isAsciiLower c || c == '_'
  else U.word c && !isSpace c

/-- ASCII case swap. -/
def swapCase (c : Char) : Char :=
  if isAsciiUpper c then Char.ofNat (c.toNat + 32)
  else if isAsciiLower c then Char.ofNat (c.toNat - 32)
  else c

/-- The characters a case-insensitive pattern identifies with `c`. -/
def caseVariants [U : UnicodeDB] (c : Char) : List Char :=
  if isAscii c then [c, swapCase c] else c :: U.variants c

/-- `str.upper` on one character. -/
def upperC [U : UnicodeDB] (c : Char) : Str :=
  if isAscii c then [if isAsciiLower c then swapCase c else c] else U.upper c

/-- `str.lower` on one character. -/
def lowerC [U : UnicodeDB] (c : Char) : Str :=
  if isAscii c then [if isAsciiUpper c then swapCase c else c] else U.lower c

/-- `s.upper()` -/
def upper [UnicodeDB] (s : Str) : Str := s.flatMap upperC

/-- `s.lower()` -/
def lower [UnicodeDB] (s : Str) : Str := s.flatMap lowerC

/-- `s.isspace()`: false on the empty string. -/
def isspace (s : Str) : Bool := !s.isEmpty && s.all isSpace

/-- `s.isdigit()`: false on the empty string. -/
def isdigit [UnicodeDB] (s : Str) : Bool := !s.isEmpty && s.all isDigitC

/-- `s.lstrip(chars)` with the characters given by a predicate. -/
def lstripP (p : Char → Bool) (s : Str) : Str := s.dropWhile p

/-- `s.rstrip(chars)`. -/
def rstripP (p : Char → Bool) (s : Str) : Str := (s.reverse.dropWhile p).reverse

/-- `s.strip(chars)`. -/
def stripP (p : Char → Bool) (s : Str) : Str := rstripP p (lstripP p s)

/-- Membership in an explicit set of characters, for `strip("...")`. -/
def inSet (cs : Str) (c : Char) : Bool := cs.contains c

/-- `s.lstrip()` -/
def lstrip (s : Str) : Str := lstripP isSpace s
/-- `s.rstrip()` -/
def rstrip (s : Str) : Str := rstripP isSpace s
/-- `s.strip()` -/
def strip (s : Str) : Str := stripP isSpace s

/-- `s[a:b]` for `0 ≤ a`, `0 ≤ b`. -/
def slice {α : Type} (s : List α) (a b : Nat) : List α := (s.take b).drop a

/-- `s.startswith(p)` -/
def startsWith (s p : Str) : Bool := p.isPrefixOf s

/-- `s.endswith(p)` -/
def endsWith (s p : Str) : Bool := p.reverse.isPrefixOf s.reverse

/-- `s.find(sub)`, `none` for -1. -/
def find (sub : Str) : Str → Option Nat
  | [] => if sub.isEmpty then some 0 else none
  | c :: cs => if sub.isPrefixOf (c :: cs) then some 0 else (find sub cs).map (· + 1)

/-- `sub in s` -/
def contains (s sub : Str) : Bool := (find sub s).isSome

/-- `s.find(sub, start)`; `start` not negative. -/
def findFrom (sub s : Str) (start : Nat) : Option Nat :=
  if start ≤ s.length then (find sub (s.drop start)).map (· + start) else none

/-- `s.rfind(sub)`, `none` for -1. -/
def rfind {α : Type} [BEq α] (sub : List α) : List α → Option Nat
  | [] => if sub.isEmpty then some 0 else none
  | c :: cs =>
    match rfind sub cs with
    | some i => some (i + 1)
    | none => if sub.isPrefixOf (c :: cs) then some 0 else none

/-- Worker of `replace`: `skip` characters of an occurrence remain to be dropped. -/
def replaceGo (old new : Str) : Nat → Str → Str
  | _, [] => []
  | k + 1, _ :: cs => replaceGo old new k cs
  | 0, c :: cs =>
    if old.isPrefixOf (c :: cs) then new ++ replaceGo old new (old.length - 1) cs
    else c :: replaceGo old new 0 cs

/-- `s.replace(old, new)` for non-empty `old`. -/
def replace (s old new : Str) : Str := replaceGo old new 0 s

/-- `s.split(c, 1)` when `c` occurs: text before and after the first occurrence. -/
def split1 (c : Char) : Str → Option (Str × Str)
  | [] => none
  | x :: xs => if x = c then some ([], xs) else (split1 c xs).map fun p => (x :: p.1, p.2)

/-- `s.rsplit(c, 1)` when `c` occurs: text before and after the last occurrence. -/
def rsplit1 (c : Char) (s : Str) : Option (Str × Str) :=
  (split1 c s.reverse).map fun p => (p.2.reverse, p.1.reverse)

/-- `s.split(c)` -/
def splitOn (c : Char) : Str → List Str
  | [] => [[]]
  | x :: xs =>
    if x = c then [] :: splitOn c xs
    else match splitOn c xs with
      | [] => [[x]]
      | y :: ys => (x :: y) :: ys

/-- `sep.join(parts)` -/
def join (sep : Str) : List Str → Str
  | [] => []
  | [x] => x
  | x :: y :: r => x ++ sep ++ join sep (y :: r)

/-- Value of a digit string, most significant digit first. -/
def decFold [UnicodeDB] : Nat → Str → Option Nat
  | acc, [] => some acc
  | acc, c :: cs => match decVal c with
    | some d => decFold (acc * 10 + d) cs
    | none => none

/-- `int(s)` on a string of digits, possibly surrounded by white space. `ValueError` on
the empty string, on a non-decimal character, and on more than 4300 digits (CPython's
default limit). Signs and underscores never reach `int` in the modelled code, since
every argument was matched by a digit pattern or passed `isdigit`. -/
def pyInt [UnicodeDB] (s : Str) : Py Nat :=
  let s := strip s
  if s.isEmpty then .error .valueError
  else if 4300 < s.length then .error .valueError
  else match decFold 0 s with
    | some n => .ok n
    | none => .error .valueError

/-- `str(n)` for a natural number. -/
def natStr (n : Nat) : Str := Nat.toDigits 10 n

/-- `"%0wd" % n` for a natural number. -/
def padNat (w n : Nat) : Str :=
  let s := natStr n
  List.replicate (w - s.length) '0' ++ s

/-- Python truthiness of a string. -/
def truthy (s : Str) : Bool := !s.isEmpty

/-- `d[k]` where the dictionary entry is modelled as an optional field. -/
def getKey {α : Type} (o : Option α) : Py α :=
  match o with
  | some a => .ok a
  | none => .error .keyError

/-- `py! "abc"` is the Python string `['a', 'b', 'c']`. -/
syntax (name := pyLit) "py!" str : term

macro_rules
  | `(py! $s:str) => do
    let cs := s.getString.toList.map fun c => Lean.Syntax.mkCharLit c
    `(([$(cs.toArray),*] : List Char))

end Py
