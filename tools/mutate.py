#!/usr/bin/env python3
"""Seeded-bug runner.  usage: mutate.py mutations.json out.jsonl  (works on the scratch copy /tmp/mut/lean, pristine copy /tmp/mut/base)"""
import json,sys,re,subprocess,os,shutil,glob,time
L="/tmp/mut/lean"; B="/tmp/mut/base"
imp={}
for f in glob.glob(B+"/Verif/**/*.lean",recursive=True):
    m=f[len(B)+1:-5].replace("/",".")
    imp[m]=set(re.findall(r"^import (Verif\.\S+)",open(f).read(),re.M))
def closure(F):
    F=set(F); ch=True
    while ch:
        ch=False
        for m,i in imp.items():
            if m not in F and i&F: F.add(m); ch=True
    return F
claims={}
for l in open("/verif/tools/claims.txt"):
    if l.count("|")>=3:
        a=[x.strip() for x in l.split("|")]; claims[a[0]]=a[2].split()
where={}
for f in glob.glob(B+"/Verif/**/*.lean",recursive=True):
    m=f[len(B)+1:-5].replace("/",".")
    for n in re.findall(r"^(?:private )?theorem (\S+)",open(f).read(),re.M): where.setdefault(n,m)
def enclosing(f,line):
    ls=open(L+"/"+f).read().split("\n")
    for k in range(min(line,len(ls))-1,-1,-1):
        g=re.match(r"(?:private |noncomputable )*(theorem|lemma|def|instance|example)\b ?(\S*)",ls[k])
        if g: return g.group(2) if g.group(1)!="example" else "example at %s:%d"%(f,k+1)
    return "?"
for mu in json.load(open(sys.argv[1])):
    while os.path.exists("/tmp/mut/pause"): time.sleep(5)
    p=L+"/Verif/"+mu["file"]; s=open(p).read()
    if s.count(mu["old"])<1: print("NOT FOUND",mu["id"]); continue
    k=mu.get("nth",0); parts=s.split(mu["old"])
    t=mu["old"].join(parts[:k+1])+mu["new"]+mu["old"].join(parts[k+1:])
    open(p,"w").write(t)
    try: r=subprocess.run(["lake","build"],cwd=L,capture_output=True,text=True,timeout=int(os.environ.get("MT","900"))).stdout
    except subprocess.TimeoutExpired as e: r=(e.stdout or b"").decode() if isinstance(e.stdout,bytes) else (e.stdout or ""); r+="\nTIMEOUT"
    failed=[];mods=set()
    for g in re.finditer(r"^error: (Verif/[\w/]+\.lean):(\d+):",r,re.M):
        mods.add(g.group(1)[:-5].replace("/","."))
        n=enclosing(g.group(1),int(g.group(2)))
        if n not in failed: failed.append(n)
    cl=closure(mods)
    surv=[t for c in mu["claims"] for t in claims.get(c,[]) if where.get(t) not in cl]
    blocked=[t for c in mu["claims"] for t in claims.get(c,[]) if where.get(t) in cl and where.get(t) not in mods]
    direct=[t for c in mu["claims"] for t in claims.get(c,[]) if t in failed]
    out=dict(id=mu["id"],definition=mu["definition"],edit=mu["old"].strip()+"  ==>  "+mu["new"].strip(),claim=mu["claims"],broken=mu["broken"],failed=failed,blocked=blocked,surviving_claim_theorems=surv,timeout="TIMEOUT" in r)
    with open(sys.argv[2],"a") as o: o.write(json.dumps(out,ensure_ascii=False)+"\n")
    print(mu["id"],"FAILED:",failed[:8],"direct",direct,"blocked",len(blocked),"SURVIVE",surv,flush=True)
    shutil.copy2(B+"/Verif/"+mu["file"],p)
    shutil.rmtree(L+"/.lake/build"); subprocess.run(["cp","-a",B+"/.lake/build",L+"/.lake/build"])
