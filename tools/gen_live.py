#!/usr/bin/env python3
"""Writes lean/Verif/Ddl/Certs/Live.lean: for each state of each parser a byte that leads one step nearer to a final
state, and how many steps it is away.  The certificate is checked in Lean."""
import re,os
root=os.path.join(os.path.dirname(os.path.abspath(__file__)),"..","lean","Verif","Ddl")
out=["""import Verif.Base.Str

/-!
# From every state of the parsers a final state can be reached: certificates

Generated by tools/gen_live.py from the tables; do not edit.  An entry is a byte to read and the number of bytes to a
final state. -/

namespace Verif.Ddl.Certs
"""]
for f in ["Check","Index","ForeignKey","Trigger"]:
    t=open(os.path.join(root,"Tables",f+".lean")).read()
    rows={}
    for m in re.finditer(r"\{ state := (\d+), rules := \[(.*?)\],\s*eof",t,re.S):
        rows[int(m.group(1))]=[(int(a),int(b),int(c)) for a,b,c in re.findall(r"⟨(\d+), (\d+), \[[^⟩]*?\], (\d+)⟩",m.group(2))]
    ff=int(re.search(r"firstFinal := (\d+)",t).group(1))
    n=max(rows)+1
    rank={q:0 for q in rows if q>=ff}; step={q:0 for q in rank}
    d=0
    while True:
        new={}
        for q in rows:
            if q in rank: continue
            for lo,hi,to in rows[q]:
                if to in rank: new[q]=lo; break
        if not new: break
        d+=1
        for q,b in new.items(): rank[q]=d; step[q]=b
    assert all(q in rank for q in rows if q!=0),[q for q in rows if q not in rank]
    ent=["(%d, %d)"%(step.get(q,0),rank.get(q,0)) for q in range(n)]
    lines=[];cur="  "
    for e in ent:
        if len(cur)+len(e)+2>110: lines.append(cur.rstrip()); cur="  "
        cur+=e+", "
    lines.append(cur.rstrip().rstrip(","))
    name=f[0].lower()+f[1:]
    out.append("def %sLive : List (UInt8 × Nat) := [\n%s]\n"%(name,"\n".join(lines)))
out.append("end Verif.Ddl.Certs\n")
open(os.path.join(root,"Certs","Live.lean"),"w").write("\n".join(out))
