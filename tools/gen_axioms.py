#!/usr/bin/env python3
"""Rewrites the Axioms section of DESIGN.md from `#print axioms` (needs a finished `lake build`)."""
import json, os, re, subprocess, tempfile
root = os.path.realpath(os.path.join(os.path.dirname(os.path.abspath(__file__)), ".."))
M = json.load(open(os.path.join(root, "MANIFEST.json")))
thms = sorted({t for c in M["claims"] for t in c["theorems"]})
with tempfile.NamedTemporaryFile("w", suffix=".lean", delete=False) as f:
    f.write("import Verif\n" + "\n".join("#print axioms " + t for t in thms))
out = subprocess.run(["lake", "env", "lean", f.name], cwd=os.path.join(root, "lean"),
                     capture_output=True, text=True).stdout
os.unlink(f.name)
by = {}
for m in re.finditer(r"'(\S+)' (does not depend on any axioms|depends on axioms: \[([^\]]*)\])", out):
    by.setdefault(" ".join((m.group(3) or "none").split()), []).append(m.group(1))
assert sum(map(len, by.values())) == len(thms)
s = open(os.path.join(root, "DESIGN.md")).read()
s = s[:s.index("<!-- axioms -->")] + "<!-- axioms -->\n"
for k in sorted(by):
    s += "\n%s:\n\n" % k + "\n".join("* `%s`" % t for t in sorted(by[k])) + "\n"
open(os.path.join(root, "DESIGN.md"), "w").write(s)
print({k: len(v) for k, v in by.items()})
