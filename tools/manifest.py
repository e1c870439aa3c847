#!/usr/bin/env python3
"""Regenerates MANIFEST.json from tools/claims.txt and checks that every theorem name exists.
claims.txt line:  Cxx | status | thm1 thm2 ... | note"""
import json,re,glob,os
root=os.path.dirname(os.path.dirname(os.path.abspath(__file__)))
names={}
for f in glob.glob(root+'/lean/Verif/**/*.lean',recursive=True):
    ns=[]
    for l in open(f,encoding='utf8'):
        m=re.match(r'namespace\s+(\S+)',l)
        if m: ns.append(m.group(1))
        m=re.match(r'end\s+(\S+)',l)
        if m and ns and ns[-1]==m.group(1): ns.pop()
        m=re.match(r'(?:@\[[^\]]*\]\s*)?(?:protected\s+)?theorem\s+(\S+)',l)
        if m: names.setdefault(m.group(1),'.'.join(ns+[m.group(1)]))
claims=[];used=set()
for l in open(root+'/tools/claims.txt',encoding='utf8'):
    l=l.strip()
    if not l or l.startswith('#'): continue
    p,s,t,n=[x.strip() for x in l.split('|',3)]
    ths=[]
    for x in t.split():
        if x not in names: raise SystemExit('missing theorem '+x)
        ths.append(names[x]); used.add(x)
    claims.append(dict(property=p,status=s,theorems=ths,note=n))
json.dump(dict(claims=claims),open(root+'/MANIFEST.json','w',encoding='utf8'),ensure_ascii=False,indent=1)
props=[json.loads(l)['id'] for l in open(root+'/properties.jsonl')]
c=set(x['property'] for x in claims)
print('claims',len(claims),'missing',[p for p in props if p not in c])
for x in names:
    if re.match(r'c\d\d_',x) and x not in used: print('unused',x)
mods=sorted(os.path.relpath(f,root+'/lean')[:-5].replace('/','.') for f in glob.glob(root+'/lean/Verif/**/*.lean',recursive=True))
open(root+'/lean/Verif.lean','w').write(''.join('import %s\n'%m for m in mods))
