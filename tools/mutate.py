#!/usr/bin/env python3
"""Seeds wrong programs into a scratch copy of the model and records which theorems stop proving.

usage: mutate.py muts.json   (list of {file, def, old, new, breaks})
"""
import json, os, re, subprocess, sys, glob
R="/tmp/mut/base"; S="/tmp/mut/lean"  # base: a snapshot of /verif/lean
def sh(c): return subprocess.run(c,shell=True,capture_output=True,text=True)
DECL=re.compile(r"^(?:private |protected )?(theorem|lemma|example|def|abbrev|structure|inductive|instance)\s*(\S*)")
def decls(f):
    out=[]
    for i,l in enumerate(open(f),1):
        m=DECL.match(l)
        if m: out.append((i,m[1],m[2]))
    return out
def enclosing(f,line):
    r=("?","?")
    for i,k,n in decls(f):
        if i<=line: r=(k,n)
    return r
def bodies():
    b={}
    for f in glob.glob(S+"/Verif/**/*.lean",recursive=True):
        src=open(f).read().split("\n"); d=decls(f)
        for j,(i,k,n) in enumerate(d):
            e=d[j+1][0]-1 if j+1<len(d) else len(src)
            if k in("theorem","lemma"): b[(f,n)]="\n".join(src[i-1:e])
    return b
def build():
    """lake build, ended 20 s after the first theorem that fails: what uses it is found by name."""
    import time, signal, select
    p=subprocess.Popen("exec lake build 2>&1",shell=True,cwd=S,stdout=subprocess.PIPE,start_new_session=True)
    o=b""; t0=time.time(); seen=None
    while True:
        r,_,_=select.select([p.stdout],[],[],2)
        if r:
            x=os.read(p.stdout.fileno(),65536)
            if not x: break
            o+=x
        if seen is None:
            for a,b in re.findall(r"error: (Verif/\S+\.lean):(\d+):",o.decode(errors="replace")):
                if enclosing(f"{S}/{a}",int(b))[0] in("theorem","lemma"): seen=time.time(); break
        if (seen and time.time()-seen>20) or time.time()-t0>900:
            os.killpg(p.pid,signal.SIGKILL); break
    p.wait()
    return o.decode(errors="replace")
def run(m):
    sh(f"rm -rf {S} && cp -a {R} {S}")
    p=f"{S}/Verif/{m['file']}.lean"; s=open(p).read()
    n=s.count(m["old"])
    if n!=1: return dict(error=f"old occurs {n} times")
    open(p,"w").write(s.replace(m["old"],m["new"]))
    o=build()
    if "error:" not in o and "Build completed successfully" not in o: return dict(error="timeout")
    errs=sorted({(a,int(b)) for a,b in re.findall(r"error: (Verif/\S+\.lean):(\d+):",o)})
    direct=set(); ex=0; model=[]
    for f,l in errs:
        k,nm=enclosing(f"{S}/{f}",l)
        if k in("theorem","lemma"): direct.add((f"{S}/{f}",nm))
        elif k=="example": ex+=1
        else: model.append((f,l,nm))
    if model: return dict(error=f"model does not compile: {model}",out=o[-1500:])
    b=bodies(); bad=set(direct); ch=True
    imp={}
    for f in glob.glob(S+"/Verif/**/*.lean",recursive=True):
        imp[f]={S+"/"+x.replace(".","/")+".lean" for x in re.findall(r"^import (Verif\S+)",open(f).read(),re.M)}
    def reach(f,seen=None):
        seen=seen if seen is not None else set()
        if f in seen: return seen
        seen.add(f)
        for g in imp.get(f,()): reach(g,seen)
        return seen
    R_={f:reach(f) for f in imp}
    words={key:set(re.findall(r"[\w'.]+",t)) for key,t in b.items()}
    while ch:
        ch=False
        for key in b:
            if key in bad: continue
            f,nm=key; w=words[key]
            for g,x in list(bad):
                if g not in R_[f]: continue
                if x in w or any("." in y and x.split(".")[-1]==y.split(".")[-1] and y!=nm for y in w):
                    bad.add(key); ch=True; break
    props=sorted(x for _,x in bad if re.match(r"C\d+_",x))
    return dict(direct=sorted(x for _,x in direct),props=props,examples=ex,ok="Build completed successfully" in o)
if __name__=="__main__":
    ms=json.load(open(sys.argv[1]))
    sh(f"mkdir -p /tmp/mut && rm -rf {R} && cp -a /verif/lean {R}")
    for m in ms:
        r=run(m)
        if "error" in r: print("INVALID",m["def"],r); continue
        print("CAUGHT" if r["props"] else "SURVIVED",m["def"],"|",m["breaks"],"|",r["direct"][:4],r["props"],"ex",r["examples"],flush=True)
        e=dict(definition=m["def"],file=f"lean/Verif/{m['file']}.lean",edit=m.get("edit") or f"{m['old']}  ->  {m['new']}",claim_broken=m["breaks"],theorems_failed=r["props"] or [],lemmas_failed=r["direct"],tightened=m.get("tightened",[]))
        if not r["props"]: e["note"]=m.get("note","survived")
        with open("/verif/seeded/LOG.jsonl","a") as f: f.write(json.dumps(e)+"\n")
