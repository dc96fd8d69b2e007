#!/usr/bin/env python3
"""Writes /verif/MANIFEST.json and checks that each named theorem exists in the sources."""
import json, os, re, glob
root = os.path.join(os.path.dirname(os.path.abspath(__file__)), "..")
M = []
def c(pid, status, thms, note=""):
    M.append(dict(property=pid, status=status, theorems=thms, note=note))
exec(open(os.path.join(root, "tools", "manifest_data.py")).read())
names = set()
for f in glob.glob(os.path.join(root, "lean", "Verif", "**", "*.lean"), recursive=True):
    ns = []
    for line in open(f):
        m = re.match(r"\s*namespace\s+(\S+)", line)
        if m: ns.append(m.group(1))
        m = re.match(r"\s*end\s+(\S+)", line)
        if m and ns and ns[-1] == m.group(1): ns.pop()
        m = re.match(r"\s*(?:@\[[^\]]*\]\s*)?theorem\s+(\S+)", line)
        if m: names.add(".".join(ns + [m.group(1)]))
bad = [t for x in M for t in x["theorems"] if t not in names]
props = [json.loads(l)["id"] for l in open(os.path.join(root, "properties.jsonl"))]
have = {x["property"] for x in M}
print("missing theorems:", bad)
print("properties without claim:", [p for p in props if p not in have])
listed = {t for x in M for t in x["theorems"]}
print("unlisted C-theorems:", sorted(n for n in names if re.search(r"\.C\d\d_", n) and n not in listed))
json.dump({"claims": M}, open(os.path.join(root, "MANIFEST.json"), "w"), indent=1)
print(len(M), "claims", len(names), "theorems")
