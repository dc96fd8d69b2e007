#!/usr/bin/env python3
"""Copies the hcl tags of the structs in /repo/internal/ddl into lean/Verif/Hcl/Tags.lean."""
import glob, os, re
OUT = os.path.join(os.path.dirname(os.path.abspath(__file__)), "..", "lean", "Verif", "Hcl", "Tags.lean")
structs = []
for path in sorted(glob.glob("/repo/internal/ddl/*.go")):
    if path.endswith("_test.go"):
        continue
    src = open(path).read()
    for m in re.finditer(r"^type (\w+) struct \{\n(.*?)^\}", src, re.M | re.S):
        line = src[:m.start()].count("\n") + 1
        fields = re.findall(r'^\s+(\w+)\s+(\S+)\s+`hcl:"(\w+),(\w+)"`', m.group(2), re.M)
        n = len([l for l in m.group(2).split("\n") if l.strip()])
        if fields:
            assert len(fields) == n, (m.group(1), n, len(fields))
            structs.append((m.group(1), os.path.basename(path), line, line + m.group(0).count("\n"), fields))
with open(OUT, "w") as f:
    f.write("""import Verif.Hcl.Model

/-!
# The hcl tags of the structs in `/repo/internal/ddl`

Written by `tools/tags2lean.py` from the Go files.
-/

namespace Verif.Hcl
open Verif

/-- All structs with hcl tags: name and fields. -/
def structs : List (Str × List Tag) := [
""")
    parts = []
    for name, file, a, b, fields in structs:
        rows = ",\n".join('    ⟨b!"%s", b!"%s", b!"%s", b!"%s"⟩' % x for x in fields)
        parts.append('  -- %s:%d-%d\n  (b!"%s", [\n%s])' % (file, a, b, name, rows))
    f.write(",\n".join(parts))
    f.write("\n]\n\nend Verif.Hcl\n")
print(len(structs), "structs")
