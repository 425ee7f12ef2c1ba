"""Rewrite the list of axioms per theorem at the end of DESIGN.md.

Run from anywhere after `lake build`: python3 tools/axioms.py
"""
import json
import pathlib
import re
import subprocess
import tempfile

ROOT = pathlib.Path(__file__).resolve().parent.parent
MARK = "<!-- axioms: generated by tools/axioms.py -->\n"

claims = json.loads((ROOT / "MANIFEST.json").read_text())["claims"]
names = [t for c in claims for t in c["theorems"]]
with tempfile.TemporaryDirectory() as d:
    f = pathlib.Path(d) / "Ax.lean"
    f.write_text("import Verif\n" + "".join(f"#print axioms {n}\n" for n in names))
    out = subprocess.run(["lake", "env", "lean", str(f)], cwd=ROOT / "lean", capture_output=True, text=True).stdout
out = " ".join(out.split())
groups = {}
for name, rest in re.findall(r"'([^']+)' (does not depend on any axioms|depends on axioms: \[[^\]]*\])", out):
    key = "none" if rest.startswith("does") else rest[rest.index("[") + 1:-1]
    groups.setdefault(key, []).append(name.removeprefix("Props."))
assert sum(map(len, groups.values())) == len(names), "some theorem was not reported"
text = "".join(f"* {k}: " + ", ".join(f"`{n}`" for n in v) + ".\n" for k, v in sorted(groups.items(), key=lambda p: len(p[0])))
design = ROOT / "DESIGN.md"
design.write_text(design.read_text().split(MARK)[0] + MARK + text)
