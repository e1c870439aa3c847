#!/usr/bin/env python3
"""Random operator mutations of the model definitions.  usage: automut.py seed perdef out.json [files...]"""
import re,sys,json,random,glob,os
seed,per,out=int(sys.argv[1]),int(sys.argv[2]),sys.argv[3]; files=sys.argv[4:]
random.seed(seed); B="/verif/lean/Verif/"
ops=[(r" < "," ≤ "),(r" ≤ "," < "),(r" > "," ≥ "),(r" ≥ "," > "),(r" \+ "," - "),(r" - "," + "),(r" ⊞ "," ⊟ "),(r" ⊟ "," ⊞ "),(r" ⊠ "," ⊞ "),(r" ∧ "," ∨ "),(r" ∨ "," ∧ "),(r" && "," || "),(r" \|\| "," && "),
 (r"\btrue\b","false"),(r"\bfalse\b","true"),(r" \* "," + "),(r"\bsin\b","cos"),(r"\bcos\b","sin"),(r" % "," / "),(r"\.1\b",".2"),(r"\bleft\b","right"),(r"\bif (?=[a-z])","if ¬ "),(r"(?<![\w.'])(\d+)(?![\w.'/])","NUM")]
claims=[l.split("|")[0].strip() for l in open("/verif/tools/claims.txt") if l.count("|")>=3]
res=[]
for f in files:
    s=open(B+f).read()
    for m in re.finditer(r"^(?:noncomputable |private |partial )*def (\S+)",s,re.M):
        st=m.end(); 
        e=re.search(r"\n(?=\S)",s[st:]); en=st+(e.start() if e else len(s)-st)
        body=s[st:en]
        if ":=" not in body and "\n  |" not in body: continue
        off=body.find(":=") if ":=" in body else body.find("\n  |")
        c=[]
        for o,(a,b) in enumerate(ops):
            for x in re.finditer(a,body):
                if x.start()<off: continue
                c.append((x.start(),x.end(),b if b!="NUM" else str(int(x.group(1))+1)))
        random.shuffle(c)
        for x in c[:per]:
            p0,p1=st+x[0],st+x[1]
            # unique context
            a=p0; b=p1
            while s.count(s[a:b])>1 and (a>0 or b<len(s)):
                a=max(0,a-10); b=min(len(s),b+10)
            res.append(dict(id="A%d_%03d"%(seed,len(res)),file=f,definition=m.group(1),old=s[a:b],new=s[a:p0]+x[2]+s[p1:b],claims=[],broken="random edit of `%s`"%m.group(1),nth=0))
json.dump(res,open(out,"w"),ensure_ascii=False,indent=0)
print(len(res))
