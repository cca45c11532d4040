#!/usr/bin/env python3
"""Writes MANIFEST.json from the table below and checks every theorem name occurs in lean/Verif/Props."""
import json, os, re, glob
R=os.path.join(os.path.dirname(os.path.abspath(__file__)),"..")
names={}
for f in glob.glob(R+"/lean/Verif/Props/*.lean"):
    ns=[]
    for l in open(f):
        m=re.match(r"namespace\s+(\S+)",l)
        if m: ns.append(m[1])
        m=re.match(r"end\s+(\S+)",l)
        if m and ns and ns[-1]==m[1]: ns.pop()
        m=re.match(r"theorem\s+(C\d+_\S*)",l)
        if m: names.setdefault(m[1].split("_")[0],[]).append(".".join(ns+[m[1]]))
notes=json.load(open(R+"/tools/notes.json"))
props=[json.loads(l)["id"] for l in open(R+"/properties.jsonl")]
claims=[]
for p in props:
    t=names.get(p,[])
    st,note=notes.get(p,["partial","not yet proved"])
    if not t: 
        continue
    claims.append(dict(property=p,status=st,theorems=t,note=note))
json.dump(dict(claims=claims),open(R+"/MANIFEST.json","w"),indent=1)
print(len(claims),"claims",sum(len(c["theorems"]) for c in claims),"theorems")
print("missing:",[p for p in props if not names.get(p)])
