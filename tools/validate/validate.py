"""Run the Lean model on the lines of the project's own tests and check the tests' assertions.

Usage: python3 tools/validate/validate.py /repo /verif/lean

The file tests/test_engine.py is read as text. For every test with a `ref_line` a Lean program calls
the model of `parse_references` on that line. The knowledge bases are the files of the project; the
journal titles and books are limited to those whose letters occur in the line, which makes no
difference to the result since a pattern of another title cannot match. The assertions of the test
are then evaluated on the result of the model. Nothing of the project is run. `undes` below stands in
for `replace_undesirable_characters` of inspire_utils (dashes, quotes and ligatures only).
This is a test of the model, not part of any proof.
"""
import ast
import csv
import json
import os
import re
import subprocess
import sys
import tempfile
import unicodedata

repo, lean = sys.argv[1], sys.argv[2]
here = os.path.dirname(os.path.abspath(__file__))
gen = open(os.path.join(here, "..", "gen_regex.py")).read()
exec(gen[: gen.index("def main():")])
K = repo + "/refextract/references/kbs/"


def q(s):
    out = ""
    for c in s:
        if c in '"\\':
            out += "\\" + c
        elif c == "\n":
            out += "\\n"
        elif 32 <= ord(c) < 127:
            out += c
        elif ord(c) < 0x10000:
            out += "\\u%04x" % ord(c)
        else:
            out += c
    return '"%s"' % out


def L(s):
    return "(py! %s)" % q(s) if s else "([] : Str)"


def pairs(name):
    res = []
    for line in open(K + name, encoding="utf-8"):
        if not line.startswith("#"):
            m = re.search(r"^\s*(?P<seek>[^\s].*)\s*---\s*(?P<repl>[^\s].*)\s*$", line.rstrip("\n"))
            res.append((m.group("seek"), m.group("repl")))
    return res


def report_patterns(path):
    repl = [("9", r"\d"), ("w+", r"\w+"), ("a", "[A-Za-z]"), ("v", "[Vv]"), ("mm", "(0[1-9]|1[0-2])"),
            ("yyyy", r"[12]\d{3}"), ("yy", r"\d\d"), ("s", r"\s*"), ("/", r"\/")]
    pats, cats, masks = [], [], []

    def flush():
        if not (cats and masks):
            return
        ordered = sorted(((len(re.sub(r"\[[^\]]+\]", "1", m)), m) for m in masks), key=lambda x: x[0], reverse=True)
        alts = []
        for _, m in ordered:
            for a, c in repl:
                m = m.replace(a, c)
            m = re.sub(r"\"([^\"]+)\"", r"\g<1>", m)
            alts.append(re.sub(r" \[([^\]]+) \]", r"( [\g<1>])?", m))
        num = "(?P<numn>" + "|".join(alts) + ")"
        for c in cats:
            pats.append(r"(?:^|[^a-zA-Z0-9\/\.\-])([\[\(]?(?P<categ>" + c.strip() + ")" + num + r"[\]\)]?)")

    for line in open(path, encoding="utf-8"):
        if line.startswith("#"):
            continue
        if re.search(r"^\*{5}\s*(.+)\s*\*{5}$", line):
            flush()
            cats, masks = [], []
            continue
        m = re.search(r"^\s*(\w.*)\s*---\s*(\w.*)\s*$", line)
        if m:
            cats.append(m.group(1))
            continue
        m = re.search(r"^\<(.+)\>$", line)
        if m:
            masks.append(m.group(1))
    flush()
    return pats


def norm(s):
    return re.sub(r"\s+", " ", re.sub(r"[\.\,\;\'\(\)\-]", " ", s.upper())).strip()


def clean(s):
    return re.sub("[^A-Z0-9]", "", s.upper())


mod = ast.parse(open(repo + "/tests/test_engine.py").read())
tests = []
for f in mod.body:
    if isinstance(f, ast.FunctionDef) and f.name.startswith("test_"):
        for st in f.body:
            if isinstance(st, ast.Assign) and getattr(st.targets[0], "id", "") == "ref_line":
                tests.append((f, ast.literal_eval(st.value)))

authors = pairs("authors.kb")
chars = set("".join(l for _, l in tests) + "".join(a + c for a, c in authors))
chars |= set("".join(c.upper() + c.lower() for c in chars))
chars = sorted(c for c in chars if ord(c) > 127)
assert not any(c.isdigit() for c in chars)


def ch(c):
    return "Char.ofNat %d" % ord(c)


def table(name, f, default, ty):
    rows = "".join("  | %d => %s\n" % (ord(c), f(c)) for c in chars)
    return "def %s (c : Char) : %s :=\n  match c.toNat with\n%s  | _ => %s\n" % (name, ty, rows, default)


def chlist(cs):
    return "[" + ", ".join(map(ch, cs)) + "]"


def b(x):
    return "true" if x else "false"


UND = {"–": "-", "−": "-", "’": "'", "‘": "'", "“": '"', "”": '"', "ﬁ": "fi", "ﬂ": "fl", "\xa0": " "}
out = "import Verif.Model.Parse\nimport Verif.Model.Kbs\nopen Py\nset_option maxRecDepth 100000\n"
out += table("uWord", lambda c: b(c.isalnum()), "false", "Bool")
out += table("uUp", lambda c: chlist(c.upper()), "[c]", "Str")
out += table("uLow", lambda c: chlist(c.lower()), "[c]", "Str")
out += table("uVar", lambda c: chlist(x for x in sorted({c.upper(), c.lower()}) if len(x) == 1 and x != c and ord(x) > 127),
             "[]", "List Char")
out += table("uAuth", lambda c: b(c.isupper()), "false", "Bool")
out += table("uAscii", lambda c: chlist(UND.get(c) or "".join(z for z in unicodedata.normalize("NFKD", c) if ord(z) < 128)),
             "[c]", "Str")
out += table("uDes", lambda c: chlist(UND.get(c, c)), "[c]", "Str")
out += """theorem var_ascii (c v : Char) (h : v ∈ uVar c) (ha : isAscii v = true) : v ∈ ['I', 'i', 'K', 'k', 'S', 's'] := by
  exfalso; revert ha; unfold uVar at h; split at h <;> simp at h <;> rw [h] <;> decide
@[reducible] def realDB : UnicodeDB where
  word := uWord
  dec _ := none
  digit _ := false
  upper := uUp
  lower := uLow
  variants := uVar
  authUpper := uAuth
  dec_lt := by intro c d h; cases h
  dec_digit := by intro c h; cases h
  digit_word := by intro c h; cases h
  digit_nspace := by intro c h; cases h
  dec_variants := by intro c h; cases h
  variants_ascii := var_ascii
attribute [instance] realDB
"""
for name, lo in (("years", 1991), ("years5", 2013)):
    out += "def %s : Re := Re.alts [%s]\n" % (name, ", ".join('.str (py! "%02d")' % (y % 100) for y in range(lo, 2027)))
out += "def lib : Lib := ⟨fun s => s.flatMap uAscii, id, years, years5⟩\n"
lines = open(K + "report-numbers.kb", encoding="utf-8").read().splitlines(keepends=True)
out += "def repLines : List Str := [%s]\n" % ",\n ".join(map(L, lines))
out += "def compTable : List (Str × Re) := [\n%s]\n" % ",\n".join(
    " (%s, %s)" % (L(p), Emit(p, re.U, (1,)).term().replace("G.categ", "1001")) for p in sorted(set(report_patterns(K + "report-numbers.kb"))))
out += "def comp (s : Str) : Py Re := match compTable.find? (·.1 = s) with | some p => .ok p.2 | none => .error .keyError\n"
coll = {}
for p, c in pairs("collaborations.kb"):
    p = p.replace(" ", r"\s").replace("Collaboration", r"(?:\s*coll(?:aborations?|\.)?)?")
    coll[c] = r"(?:^|[\(\"\[\s]|(?<=\W))\s*(?:(?:the|and)\s+)?" + "(%s)" % p + r"(?=$|[><\]\)\"\s.,:])"
out += "def collabs : List (Str × Re) := [\n%s]\n" % ",\n".join(
    " (%s, %s)" % (L(c), Emit(p, re.I | re.U, (1,)).term()) for c, p in coll.items())
out += "def pubs : List (Str × Re × Str) := [\n%s]\n" % ",\n".join(
    " (%s, %s, %s)" % (L(p), Emit(r"(\b|^)%s(\b|$)" % p, re.I | re.U, ()).term(), L(r)) for p, r in dict(pairs("publishers.kb")).items())
out += "def auths : List (Str × Str) := [%s]\n" % ", ".join("(%s, %s)" % (L(a), L(c)) for a, c in authors)
out += "def rep := match buildReports comp repLines with | .ok r => r | .error _ => ([], [])\n"
out += r"""def jesc (s : Str) : String := "\"" ++ String.join (s.map fun c =>
  if c == '"' then "\\\"" else if c == '\\' then "\\\\" else if c == '\n' then "\\n" else c.toString) ++ "\""
def jlist (l : List String) : String := "[" ++ ", ".intercalate l ++ "]"
def jfield (f : Field) : String := "{" ++ ", ".intercalate (f.map fun p => jesc p.1 ++ ": " ++ jlist (p.2.map jesc)) ++ "}"
def runOne (line : Str) (js : List (Str × Str)) (bks : List (List Str)) : IO Unit := do
  let j := buildJournals js
  let k : Kbs := ⟨⟨j.pats, j.std, j.keys, [(py! "DAN", .str (py! "DAN"), py! "Dokl.Akad.Nauk Ser.Fiz.")], rep.1, rep.2, pubs,
    auths, collabs⟩, [py! "JHEP", py! "JCAP"], (buildBooks bks).toOption.getD []⟩
  match parseReferences (fun s => s.flatMap uDes) lib k defaultFormat none [line] with
  | .ok (fs, _) => IO.println ("{\"out\": " ++ jlist (fs.map jfield) ++ "}")
  | .error e => IO.println ("{\"err\": \"" ++ toString (repr e) ++ "\"}")
def main : IO Unit := do
"""
journals = pairs("journal-titles.kb")
books = [r for r in csv.reader(open(K + "books.kb", encoding="utf-8"), delimiter="|", lineterminator=";") if len(r) > 1]
for f, line in tests:
    js = [p for p in journals if norm(p[0]) in norm(line) or norm(p[1]) in norm(line)]
    bs = [r for r in books if clean(r[1]) and clean(r[1]) in clean(line)]
    out += "  runOne %s [%s] [%s]\n" % (L(line), ", ".join("(%s, %s)" % (L(a), L(c)) for a, c in js),
                                        ", ".join("[%s]" % ", ".join(map(L, r)) for r in bs))
with tempfile.NamedTemporaryFile("w", suffix=".lean", delete=False) as tmp:
    tmp.write(out)
res = subprocess.run(["lake", "env", "lean", "--run", tmp.name], cwd=lean, capture_output=True, text=True)
rows = [json.loads(l) for l in res.stdout.splitlines() if l.startswith("{")]
if len(rows) != len(tests):
    sys.exit(res.stdout[:3000] + res.stderr[:3000])
bad = 0
for (f, line), row in zip(tests, rows):
    try:
        exec(compile(ast.Module(f.body, []), f.name, "exec"), {"get_references": lambda *a, **k: (row["out"], None)})
        print("ok  ", f.name)
    except Exception as e:
        bad += 1
        print("FAIL", f.name, repr(e), row)
print("%d tests, %d failed" % (len(tests), bad))
