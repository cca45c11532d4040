#!/usr/bin/env python3
"""Seeds small random wrong programs into the model, file by file, and stops at the first theorem that fails.

usage: sweep.py seed per-file [file ...]   (files as Model/X)

Caught ones go to seeded/LOG.jsonl; survivors are printed and written to /tmp/survivors.jsonl for a look by hand.
"""
import json, os, random, re, signal, subprocess, sys, time, glob
sys.path.insert(0, os.path.dirname(__file__))
import mutate as M
M.S="/tmp/sweep/lean"; B="/tmp/sweep/base"
TITLES={q["id"]:q["title"] for q in map(json.loads,open("/verif/properties.jsonl"))}
RULES=[(r" < "," ≤ "),(r" ≤ "," < "),(r" > "," ≥ "),(r" ≥ "," > "),(r"(?<=if ).*? = "," ≠ "),(r" && "," || "),(r" \|\| "," && "),(r" ∧ "," ∨ "),(r" ∨ "," ∧ "),
  (r"\btrue\b","false"),(r"\bfalse\b","true"),(r" \+ "," - "),(r" - "," + "),(r"\.take\b",".drop"),(r"\.drop\b",".take"),(r" ≠ "," = "),(r" == "," != "),(r" != "," == "),
  (r"(?<![\w.\^\"])\d+(?![\w.\"])",None),(r"(?<=\+\+ )\S+",None)]
def sites(path):
    src=open(path).read(); out=[]
    # blank out comments and strings
    t=re.sub(r"/-.*?-/",lambda m:re.sub(r"[^\n]"," ",m[0]),src,flags=re.S)
    t=re.sub(r"--[^\n]*",lambda m:" "*len(m[0]),t)
    t=re.sub(r'"(?:[^"\\]|\\.)*"',lambda m:'"'+" "*(len(m[0])-2)+'"',t)
    dl=M.decls(path); lines=src.split("\n"); starts=[0]
    for l in lines: starts.append(starts[-1]+len(l)+1)
    def decl(pos):
        import bisect
        ln=bisect.bisect_right(starts,pos); r=None
        for i,k,n in dl:
            if i<=ln: r=(k,n)
        return r,ln
    for pat,rep in RULES:
        for m in re.finditer(pat,t):
            d,ln=decl(m.start())
            if not d or d[0] not in("def","abbrev"): continue
            a,b=m.span(); line=lines[ln-1]
            if "termination" in line or "decreasing" in line: continue
            if rep is None:
                if re.fullmatch(r"\d+",m[0]): new=str(int(m[0])+1)
                else: continue
            elif pat.startswith("(?<=if )"): new=m[0][:-3]+" ≠ "
            else: new=rep
            if t[a-3:a].endswith("2 ^") or t[max(0,a-2):a]=="^ ": continue
            out.append((a,b,new,d[1],ln))
    return src,out
def build(path):
    p=subprocess.Popen("lake build 2>&1",shell=True,cwd=M.S,stdout=subprocess.PIPE,text=True,preexec_fn=os.setsid)
    t0=time.time(); found=[]; ex=0; verdict=None
    def kill():
        try: os.killpg(p.pid,signal.SIGKILL)
        except ProcessLookupError: pass
    signal.signal(signal.SIGALRM,lambda *a:kill()); signal.alarm(1200)
    for l in p.stdout:
        m=re.match(r"error: (Verif/\S+\.lean):(\d+):",l)
        if m:
            k,n=M.enclosing(f"{M.S}/{m[1]}",int(m[2]))
            if k in("theorem","lemma") and "/Model/" not in m[1]: found.append((f"{M.S}/{m[1]}",n)); verdict="caught"; kill(); break
            elif k=="example": ex+=1
            else: verdict="invalid"; kill(); break
        if "Build completed successfully" in l: verdict="survived"
    signal.alarm(0); p.wait(); 
    return verdict or ("example" if ex else "timeout"),found,ex,time.time()-t0
def affected(found):
    b=M.bodies(); bad=set(found); imp={}
    for f in glob.glob(M.S+"/Verif/**/*.lean",recursive=True):
        imp[f]={M.S+"/"+x.replace(".","/")+".lean" for x in re.findall(r"^import (Verif\S+)",open(f).read(),re.M)}
    def reach(f,seen):
        if f not in seen:
            seen.add(f)
            for g in imp.get(f,()): reach(g,seen)
        return seen
    R={f:reach(f,set()) for f in imp}; words={k:set(re.findall(r"[\w'.]+",t)) for k,t in b.items()}; ch=True
    while ch:
        ch=False
        for key in b:
            if key in bad: continue
            f,nm=key; w=words[key]
            if any(g in R[f] and (x in w or any("." in y and x.split(".")[-1]==y.split(".")[-1] and y!=nm for y in w)) for g,x in list(bad)): bad.add(key); ch=True
    return sorted(x for _,x in bad if re.match(r"C\d+_",x))
if __name__=="__main__":
    seed,per=int(sys.argv[1]),int(sys.argv[2]); files=sys.argv[3:]
    M.sh(f"mkdir -p /tmp/sweep && rm -rf {B} {M.S} && cp -a /verif/lean {B} && cp -a {B} {M.S}")
    if not files: files=["Model/"+os.path.basename(f)[:-5] for f in sorted(glob.glob(B+"/Verif/Model/*.lean"))]
    rnd=random.Random(seed); jobs=[]
    for f in files:
        src,ss=sites(f"{B}/Verif/{f}.lean"); rnd.shuffle(ss); jobs.append((f,src,ss))
    for f,src,ss in jobs:
        done=0
        for a,b,new,d,ln in ss:
            if done>=per: break
            M.sh(f"rsync -a --delete {B}/ {M.S}/ 2>/dev/null || (rm -rf {M.S} && cp -a {B} {M.S})")
            p=f"{M.S}/Verif/{f}.lean"; open(p,"w").write(src[:a]+new+src[b:])
            v,found,ex,dt=build(p)
            if v=="invalid": continue
            done+=1; old=src.split("\n")[ln-1].strip(); la=src.rfind("\n",0,a)+1; le=src.find("\n",b); neu=(src[la:a]+new+src[b:le]).strip()
            edit=f"{old}  ->  {neu}"
            if v=="caught":
                props=affected(found); ids=sorted({x.split("_")[0] for x in props})
                print("CAUGHT",f,d,f"{dt:.0f}s",found[0][1],ids[:6],flush=True)
                e=dict(definition=d,file=f"lean/Verif/{f}.lean",edit=edit,claim_broken="; ".join(f"{i}: {TITLES.get(i,'')}" for i in ids[:4]) or "no property: a lemma only",theorems_failed=props,lemmas_failed=[n for _,n in found],tightened=[],note="random edit; the build was stopped at the first theorem that failed")
                open("/verif/seeded/LOG.jsonl","a").write(json.dumps(e)+"\n")
                if not props: open("/tmp/survivors.jsonl","a").write(json.dumps(dict(v="lemma only",file=f,d=d,line=ln,edit=edit))+"\n")
            else:
                print(v.upper(),f,d,ln,f"{dt:.0f}s",edit,flush=True)
                open("/tmp/survivors.jsonl","a").write(json.dumps(dict(v=v,file=f,d=d,line=ln,edit=edit))+"\n")
