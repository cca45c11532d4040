#!/usr/bin/env python3
"""Writes AXIOMS.md: the axioms each theorem of MANIFEST.json depends on, as Lean reports them.

Run after `lake build` in lean/.
"""
import json, os, re, subprocess
V=os.path.dirname(os.path.dirname(os.path.abspath(__file__)))
names=[(c["property"],t) for c in json.load(open(V+"/MANIFEST.json"))["claims"] for t in c["theorems"]]
src="import Verif\n"+"".join(f"#print axioms {t}\n" for _,t in names)
os.makedirs("/tmp/ax",exist_ok=True); open("/tmp/ax/Ax.lean","w").write(src)
o=subprocess.run(["lake","env","lean","/tmp/ax/Ax.lean"],cwd=V+"/lean",capture_output=True,text=True).stdout
got={}
for m in re.finditer(r"'([^']+(?:'[^' ]*)*)' (?:depends on axioms: \[([^\]]*)\]|does not depend on any axioms)",o):
    got[m[1]]=" ".join((m[2] or "none").replace(",","").split())
missing=[t for _,t in names if t not in got]
groups={}
for p,t in names: groups.setdefault(got.get(t,"?"),[]).append((p,t))
with open(V+"/AXIOMS.md","w") as f:
    f.write("# Axioms per theorem\n\nGenerated by `tools/axioms.py` from Lean's `#print axioms` over every theorem of `MANIFEST.json`.\n")
    for a in sorted(groups):
        f.write(f"\n## {a}\n\n")
        for p,t in groups[a]: f.write(f"* {p}: `{t}`\n")
print({a:len(g) for a,g in groups.items()},"missing:",missing)
