import Verif.Py.Basic

/-!
# A backtracking regular-expression engine in Python's priority order

Models the subset of CPython's `re` module used by refextract: literals, classes,
categories, ordered alternation, greedy and lazy repetition, capturing groups,
lookahead, fixed-width lookbehind, `^`, `$`, `\b`, and the drivers `match`,
`search`, `finditer`, `sub`. Repetition bodies are never nullable in refextract's
patterns (checked by `tools/gen_regex.py`), so an iteration that consumes nothing
is simply discarded.
-/

namespace Py

/-- One item of a character class. -/
inductive CItem where
  | ch (c : Char)
  | range (lo hi : Char)
  | space | nspace
  | digit | ndigit
  | word | nword
  /-- The class built by `get_uppercase_re` (`/repo/refextract/authors/regexs.py`):
  ASCII `A-Z` plus an abstract set of non-ASCII characters. -/
  | authUpper
deriving DecidableEq, Repr

/-- A character class `[...]` or `[^...]`, possibly compiled with `re.I`. -/
structure CSet where
  neg : Bool
  ic : Bool
  items : List CItem
deriving DecidableEq, Repr

/-- Membership of a character in a class item, case-sensitively. -/
def CItem.mem [U : UnicodeDB] (c : Char) : CItem → Bool
  | .ch d => c == d
  | .range lo hi => lo.toNat ≤ c.toNat && c.toNat ≤ hi.toNat
  | .space => isSpace c
  | .nspace => !isSpace c
  | .digit => isDec c
  | .ndigit => !isDec c
  | .word => isWord c
  | .nword => !isWord c
  | .authUpper => if isAscii c then isAsciiUpper c else U.authUpper c

/-- Membership of a character in a class. With `re.I` a character belongs to the
positive class if one of its case variants does. -/
def CSet.mem [UnicodeDB] (s : CSet) (c : Char) : Bool :=
  let hit := if s.ic then (caseVariants c).any fun d => s.items.any (CItem.mem d)
    else s.items.any (CItem.mem c)
  if s.neg then !hit else hit

/-- Regular expressions. Groups are identified by natural numbers. -/
inductive Re where
  | eps
  | fail
  | set (s : CSet)
  | str (w : Str)
  | seq (a b : Re)
  | alt (a b : Re)
  | star (greedy : Bool) (a : Re)
  | group (g : Nat) (a : Re)
  | look (neg : Bool) (a : Re)
  | behind (neg : Bool) (cs : List CSet)
  | bos
  | eos
  | wordb
deriving DecidableEq, Repr

infixr:65 " ⬝ " => Re.seq
infixr:60 " ∣∣ " => Re.alt

namespace Re

/-- `a?`, greedy. -/
def opt (a : Re) : Re := .alt a .eps
/-- `a??`, lazy. -/
def optL (a : Re) : Re := .alt .eps a
/-- `a+`, greedy. -/
def plus (a : Re) : Re := .seq a (.star true a)
/-- `a+?`, lazy. -/
def plusL (a : Re) : Re := .seq a (.star false a)
/-- `a{n}` -/
def times : Nat → Re → Re
  | 0, _ => .eps
  | 1, a => a
  | n + 2, a => .seq a (times (n + 1) a)
/-- `a{0,n}`, greedy. -/
def upTo : Nat → Re → Re
  | 0, _ => .eps
  | n + 1, a => .alt (.seq a (upTo n a)) .eps
/-- `a{0,n}?`, lazy. -/
def upToL : Nat → Re → Re
  | 0, _ => .eps
  | n + 1, a => .alt .eps (.seq a (upToL n a))
/-- `a{m,n}`, greedy. -/
def rep (m n : Nat) (a : Re) : Re := .seq (times m a) (upTo (n - m) a)
/-- `a{m,n}?`, lazy. -/
def repL (m n : Nat) (a : Re) : Re := .seq (times m a) (upToL (n - m) a)
/-- `a{m,}`, greedy. -/
def atLeast (m : Nat) (a : Re) : Re := .seq (times m a) (.star true a)
/-- Ordered alternation of a list. -/
def alts : List Re → Re
  | [] => .fail
  | [a] => a
  | a :: b :: r => .alt a (alts (b :: r))
/-- A single character. -/
def ch (c : Char) : Re := .set ⟨false, false, [.ch c]⟩
/-- A single character, case-insensitively. -/
def chI (c : Char) : Re := .set ⟨false, true, [.ch c]⟩
/-- A literal string, case-insensitively. -/
def strI : Str → Re
  | [] => .eps
  | [c] => chI c
  | c :: d :: r => .seq (chI c) (strI (d :: r))
/-- `.` without `re.DOTALL`. -/
def any : Re := .set ⟨true, false, [.ch '\n']⟩
/-- `\s` -/
def space : Re := .set ⟨false, false, [.space]⟩
/-- `\d` -/
def digit : Re := .set ⟨false, false, [.digit]⟩
/-- `\w` -/
def word : Re := .set ⟨false, false, [.word]⟩

end Re

/-- A capture: group, start position, captured text. -/
structure Cap where
  g : Nat
  start : Nat
  txt : Str
deriving DecidableEq, Repr

/-- Matcher state: consumed text (reversed), remaining text, captures (latest first). -/
structure St where
  pre : Str
  post : Str
  caps : List Cap
deriving DecidableEq, Repr

/-- Do the characters just consumed (reversed) match these classes (reversed)? -/
def behindOk [UnicodeDB] : List CSet → Str → Bool
  | [], _ => true
  | _ :: _, [] => false
  | k :: ks, c :: cs => k.mem c && behindOk ks cs

/-- Is the head of the text a word character? -/
def headWord [UnicodeDB] : Str → Bool
  | [] => false
  | c :: _ => isWord c

/-- Greedy or lazy iteration of a step function. `n` bounds the number of
iterations; every iteration must consume at least one character. -/
def iter (greedy : Bool) (f : St → List St) : Nat → St → List St
  | 0, s => [s]
  | n + 1, s =>
    let more := ((f s).filter fun t => t.post.length < s.post.length).flatMap (iter greedy f n)
    if greedy then more ++ [s] else s :: more

/-- All ways of matching, in the order in which a backtracking matcher finds them. -/
def run [UnicodeDB] : Re → St → List St
  | .eps, s => [s]
  | .fail, _ => []
  | .set k, s => match s.post with
    | [] => []
    | c :: t => if k.mem c then [⟨c :: s.pre, t, s.caps⟩] else []
  | .str w, s =>
    if w.isPrefixOf s.post then [⟨w.reverse ++ s.pre, s.post.drop w.length, s.caps⟩] else []
  | .seq a b, s => (run a s).flatMap (run b)
  | .alt a b, s => run a s ++ run b s
  | .star greedy a, s => iter greedy (run a) s.post.length s
  | .group g a, s => (run a s).map fun t =>
    { t with caps := ⟨g, s.pre.length, (t.pre.take (t.pre.length - s.pre.length)).reverse⟩ :: t.caps }
  | .look neg a, s => match run a s with
    | [] => if neg then [s] else []
    | t :: _ => if neg then [] else [{ s with caps := t.caps }]
  | .behind neg cs, s => if behindOk cs.reverse s.pre == neg then [] else [s]
  | .bos, s => if s.pre.isEmpty then [s] else []
  | .eos, s => if s.post.isEmpty || s.post == ['\n'] then [s] else []
  | .wordb, s => if headWord s.pre == headWord s.post then [] else [s]

/-- Continuation-passing version of `iter`. -/
def iterK (greedy : Bool) (f : St → {β : Type} → (St → Option β) → Option β) :
    Nat → St → {β : Type} → (St → Option β) → Option β
  | 0, s, _, k => k s
  | n + 1, s, _, k =>
    if greedy then
      match f s fun t => if t.post.length < s.post.length then iterK greedy f n t k else none with
      | some x => some x
      | none => k s
    else
      match k s with
      | some x => some x
      | none => f s fun t => if t.post.length < s.post.length then iterK greedy f n t k else none

/-- Continuation-passing version of `run`: the first success accepted by `k`. It
explores only what Python's matcher explores; `runK_eq` in
`Verif/Lemmas/Re.lean` shows that it agrees with `run`. -/
def runK [UnicodeDB] : Re → St → {β : Type} → (St → Option β) → Option β
  | .eps, s, _, k => k s
  | .fail, _, _, _ => none
  | .set c, s, _, k => match s.post with
    | [] => none
    | x :: t => if c.mem x then k ⟨x :: s.pre, t, s.caps⟩ else none
  | .str w, s, _, k =>
    if w.isPrefixOf s.post then k ⟨w.reverse ++ s.pre, s.post.drop w.length, s.caps⟩ else none
  | .seq a b, s, _, k => runK a s fun t => runK b t k
  | .alt a b, s, _, k => match runK a s k with
    | some x => some x
    | none => runK b s k
  | .star greedy a, s, _, k => iterK greedy (runK a) s.post.length s k
  | .group g a, s, _, k => runK a s fun t => k
    { t with caps := ⟨g, s.pre.length, (t.pre.take (t.pre.length - s.pre.length)).reverse⟩ :: t.caps }
  | .look neg a, s, _, k => match runK a s (fun t => some t) with
    | none => if neg then k s else none
    | some t => if neg then none else k { s with caps := t.caps }
  | .behind neg cs, s, _, k => if behindOk cs.reverse s.pre == neg then none else k s
  | .bos, s, _, k => if s.pre.isEmpty then k s else none
  | .eos, s, _, k => if s.post.isEmpty || s.post == ['\n'] then k s else none
  | .wordb, s, _, k => if headWord s.pre == headWord s.post then none else k s

/-- A match object: span, text and captures. -/
structure Match where
  start : Nat
  txt : Str
  caps : List Cap
deriving DecidableEq, Repr

/-- `m.end()` -/
def Match.stop (m : Match) : Nat := m.start + m.txt.length

/-- `m.group(g)`, `none` when the group took no part. -/
def Match.group (m : Match) (g : Nat) : Option Str :=
  (m.caps.find? (·.g == g)).map (·.txt)

/-- `m.start(g)` -/
def Match.gstart (m : Match) (g : Nat) : Option Nat :=
  (m.caps.find? (·.g == g)).map (·.start)

/-- `m.end(g)` -/
def Match.gstop (m : Match) (g : Nat) : Option Nat :=
  (m.caps.find? (·.g == g)).map fun c => c.start + c.txt.length

/-- The match described by a successful state. -/
def mkMatch (pre : Str) (t : St) : Match :=
  ⟨pre.length, (t.pre.take (t.pre.length - pre.length)).reverse, t.caps⟩

/-- First match starting exactly here. With `adv` the match must be non-empty. -/
def matchHere [UnicodeDB] (r : Re) (adv : Bool) (pre post : Str) : Option Match :=
  runK r ⟨pre, post, []⟩ fun t =>
    if adv && !(t.post.length < post.length) then none else some (mkMatch pre t)

/-- `pattern.match(s)` -/
def reMatch [UnicodeDB] (r : Re) (s : Str) : Option Match := matchHere r false [] s

/-- A piece of a scanned string: an unmatched character or a match. -/
inductive Piece where
  | ch (c : Char)
  | hit (x : Match)
deriving DecidableEq, Repr

/-- Left-to-right scan for non-overlapping matches (`finditer`, CPython ≥ 3.7).
The first argument counts characters of a match still to be passed over. -/
def scanGo [UnicodeDB] (r : Re) : Nat → Str → Str → List Piece
  | 0, pre, [] => match matchHere r false pre [] with
    | some m => [.hit m]
    | none => []
  | _ + 1, _, [] => []
  | k + 1, pre, c :: t => scanGo r k (c :: pre) t
  | 0, pre, c :: t => match matchHere r false pre (c :: t) with
    | some m =>
      if m.txt.isEmpty then
        .hit m :: match matchHere r true pre (c :: t) with
          | some m2 => .hit m2 :: scanGo r (m2.txt.length - 1) (c :: pre) t
          | none => .ch c :: scanGo r 0 (c :: pre) t
      else .hit m :: scanGo r (m.txt.length - 1) (c :: pre) t
    | none => .ch c :: scanGo r 0 (c :: pre) t

/-- Cut a string into unmatched characters and matches. -/
def scan [UnicodeDB] (r : Re) (s : Str) : List Piece := scanGo r 0 [] s

/-- The match in a piece, if any. -/
def Piece.match? : Piece → Option Match
  | .ch _ => none
  | .hit m => some m

/-- `list(pattern.finditer(s))` -/
def finditer [UnicodeDB] (r : Re) (s : Str) : List Match := (scan r s).filterMap Piece.match?

/-- `pattern.search(s)` -/
def search [UnicodeDB] (r : Re) (s : Str) : Option Match := (finditer r s).head?

/-- Replacement text of a piece. -/
def Piece.out (f : Match → Str) : Piece → Str
  | .ch c => [c]
  | .hit x => f x

/-- Original text of a piece. -/
def Piece.orig : Piece → Str
  | .ch c => [c]
  | .hit x => x.txt

/-- `pattern.sub(f, s)` -/
def sub [UnicodeDB] (r : Re) (f : Match → Str) (s : Str) : Str :=
  (scan r s).flatMap (Piece.out f)

/-- Replace only the first match among the pieces. -/
def subFirst (f : Match → Str) : List Piece → Str
  | [] => []
  | .ch c :: ps => c :: subFirst f ps
  | .hit x :: ps => f x ++ ps.flatMap Piece.orig

/-- `pattern.sub(f, s, count=1)` -/
def sub1 [UnicodeDB] (r : Re) (f : Match → Str) (s : Str) : Str := subFirst f (scan r s)

end Py
