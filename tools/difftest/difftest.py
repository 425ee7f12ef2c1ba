"""Compare the model's regular expression engine on the generated patterns with CPython's `re`.

Usage: difftest.py /repo /verif/lean [cases per pattern] [seed]

Texts are ASCII: outside ASCII the model's character table is abstract. In patterns with a
run-time parameter (`years`, `pfx`, `year`) the parameter is `(?:12|1|;)` on both sides
(without letters, since some of these patterns ignore case and a parameter is a finished tree).
"""
import glob
import pathlib
import random
import re
import subprocess
import sys
import tempfile

REPO, LEAN = sys.argv[1], pathlib.Path(sys.argv[2]).resolve()
COUNT = int(sys.argv[3]) if len(sys.argv) > 3 else 120
SEED = int(sys.argv[4]) if len(sys.argv) > 4 else 7
GEN = pathlib.Path(__file__).resolve().parent.parent / "gen_regex.py"
ALPHABET = "abzAZ0129 .,:;-()[]{}<>/\"'\t&_#=?%*"


def patterns(out):
    """The arguments of every `emit` of the generator, and its table of group numbers."""
    head = 'def emit(name, pattern, flags, src, keep=(), params="", body=None):\n'
    text = GEN.read_text(encoding="utf-8")
    assert head in text and "DEFS = []\n" in text
    text = text.replace("DEFS = []\n", "DEFS = []\nRECS = []\n")
    text = text.replace(head, head + "    RECS.append((name, pattern, int(flags), list(keep), params))\n")
    sys.argv = ["gen_regex.py", REPO, out]
    ns = {"__name__": "__main__"}
    exec(compile(text, "gen_regex.py", "exec"), ns)
    return ns


def sample(p, C):
    out = ""
    for op, av in p:
        if op is C.LITERAL:
            out += chr(av) if av < 127 else "X"
        elif op in (C.ANY, C.NOT_LITERAL):
            out += random.choice(ALPHABET)
        elif op is C.IN:
            neg = any(o is C.NEGATE for o, _ in av)
            o, a = random.choice([x for x in av if x[0] is not C.NEGATE])
            if neg:
                out += random.choice(ALPHABET)
            elif o is C.LITERAL:
                out += chr(a)
            elif o is C.RANGE:
                out += chr(random.randrange(a[0], a[1] + 1))
            else:
                out += {C.CATEGORY_SPACE: " ", C.CATEGORY_DIGIT: str(random.randrange(10)),
                        C.CATEGORY_WORD: random.choice("aZ9_")}.get(a, random.choice(ALPHABET))
        elif op is C.BRANCH:
            out += sample(random.choice(av[1]), C)
        elif op is C.SUBPATTERN:
            out += sample(av[3], C)
        elif op in (C.MAX_REPEAT, C.MIN_REPEAT):
            lo, hi, q = av
            for _ in range(random.randint(lo, min(int(hi), lo + random.choice([0, 1, 1, 2, 5])))):
                out += sample(q, C)
    return "".join(c if 32 <= ord(c) < 127 or c == "\t" else "y" for c in out)


def text_for(tree, texts, C):
    s = random.choice(texts)
    if random.random() < .8:
        s = random.choice(["", " ", "(", "x "]) + sample(tree, C)
        s += random.choice(["", " ", "2", " and others ", sample(tree, C)])
    if random.random() < .2 and s:
        i = random.randrange(len(s))
        s = s[i:i + random.randrange(5, 80)]
    if random.random() < .4:
        chars = list(s)
        for _ in range(random.randrange(1, 5)):
            i = random.randrange(len(chars) + 1)
            if random.random() < .5:
                chars.insert(i, random.choice(ALPHABET))
            elif chars:
                chars[i % len(chars)] = random.choice(ALPHABET)
        s = "".join(chars)
    return s.upper() if random.random() < .1 else s


def main():
    random.seed(SEED)
    texts = set()
    for f in glob.glob(REPO + "/tests/**/*.py", recursive=True):
        for m in re.finditer(r'"([^"\n]{8,160})"|\'([^\'\n]{8,160})\'', open(f, errors="replace").read()):
            s = m.group(1) or m.group(2)
            if all(32 <= ord(c) < 127 for c in s) and "\\" not in s:
                texts.add(s)
    texts = sorted(texts)
    with tempfile.TemporaryDirectory() as d:
        ns = patterns(d)
        shipped = (LEAN / "Verif/Gen/Regexs.lean").read_text(encoding="utf-8")
        same = pathlib.Path(d, "Regexs.lean").read_text(encoding="utf-8") == shipped
        print("generated file is the committed one:", same)
        C, P = ns["C"], ns["P"]
        table, cases, expected = [], [], []
        for name, p, flags, keep, params in ns["RECS"]:
            for hole in (ns["H_YEARS"], ns["H_PREFIX"], ns["H_YEAR"]):
                p = p.replace(hole, "(?:12|1|;)")
            p = p.replace(ns["H_UPPER"], "[A-Z]")
            rx, tree = re.compile(p, flags), P.parse(p, flags)
            groups = [(ns["GROUPS"][k], v) for k, v in rx.groupindex.items()] + [(k, k) for k in keep]
            table.append('("%s", Rx.%s%s)' % (name, name, " hole" if params else ""))
            for _ in range(COUNT):
                s = text_for(tree, texts, C)
                found = []
                for m in rx.finditer(s):
                    found.append("%d-%d" % m.span() + "".join(
                        "(%d:%s)" % (g, "-" if m.span(v) == (-1, -1) else "%d-%d" % m.span(v)) for g, v in groups))
                cases.append("\x01".join([name, ",".join(str(g) for g, _ in groups), s]))
                expected.append(" ".join(found))
        pathlib.Path(d, "cases").write_text("\n".join(cases) + "\n")
        pathlib.Path(d, "T.lean").write_text("""import Verif.Gen.Regexs
import Verif.Py.Sample
open Py
def hole : Re := Re.alts [.str (py! "12"), Re.ch '1', Re.ch ';']
def tab : List (String × Re) := [%s]
def main : IO Unit := do
  let ls ← IO.FS.lines "%s/cases"
  for l in ls do
    match l.splitOn "\\x01" with
    | [n, gs, s] =>
      let gl := (gs.splitOn ",").filterMap String.toNat?
      match tab.lookup n with
      | some r =>
        let ms := @finditer asciiDB r s.toList
        IO.println (" ".intercalate (ms.map fun m => s!"{m.start}-{m.stop}" ++ String.join (gl.map fun g =>
          match m.gstart g, m.gstop g with
          | some a, some b => s!"({g}:{a}-{b})"
          | _, _ => s!"({g}:-)")))
      | none => IO.println "?"
    | _ => IO.println "??"
""" % (", ".join(table), d))
        r = subprocess.run(["lake", "env", "lean", "--run", d + "/T.lean"], cwd=LEAN, capture_output=True, text=True)
    got = r.stdout.split("\n")[:-1]
    if len(got) != len(cases):
        print("output has %d lines for %d cases" % (len(got), len(cases)))
        print((r.stderr or r.stdout)[-1500:])
        return 1
    bad = [i for i in range(len(cases)) if got[i] != expected[i]]
    for i in bad[:10]:
        print("DIFFERS", repr(cases[i]), "\n  re:   ", expected[i], "\n  model:", got[i])
    print("%d patterns, %d cases, %d with a match, %d differences"
          % (len(table), len(cases), sum(1 for e in expected if e), len(bad)))
    return 1 if bad else 0


if __name__ == "__main__":
    sys.exit(main())
