#!/usr/bin/env python3
"""Generates lean/Verif/EraData.lean from /repo/lunar/lunar_ob.cpp:191-235 (OBB::init)."""
import re
src=open('/repo/lunar/lunar_ob.cpp',encoding='utf8').read().split('\n')
beg=next(i for i,l in enumerate(src) if 'void OBB::init()' in l)
end=next(i for i,l in enumerate(src) if 'JNB = split' in l)
txt=''.join(re.findall(r'"([^"]*)"','\n'.join(src[beg+5:end])))
f=txt.split(',')
assert len(f)%7==0 and ','.join(f)==txt
rows=[f[i:i+7] for i in range(0,len(f),7)]
q=lambda s:'"'+s+'"'
out=["/-! Generated by tools/gen_era.py from /repo/lunar/lunar_ob.cpp:%d-%d (the string literal of OBB::init, cut at its commas). -/"%(beg+1,end+1),"","namespace Verif.Era",""]
# split into chunks
ch=[rows[i:i+40] for i in range(0,len(rows),40)]
for k,c in enumerate(ch):
    out.append("/-- /repo/lunar/lunar_ob.cpp:%d-%d, rows %d.. -/"%(beg+1,end+1,40*k))
    out.append("def fields%d : List String := ["%k)
    out.append(",\n".join("  "+", ".join(map(q,r)) for r in c)+"]")
    out.append("")
out.append("/-- the fields of `JNB` (`split` of the literal) — /repo/lunar/lunar_ob.cpp:191-235 -/")
out.append("def fields : List String := "+" ++ ".join("fields%d"%k for k in range(len(ch))))
out.append("")
for k,c in enumerate(ch):
    out.append("/-- (first year, number of years, years already counted, index of the row) of the same rows -/")
    out.append("def nums%d : List (Int × Int × Int) := ["%k+", ".join("(%s, %s, %s)"%tuple(r[:3]) for r in c)+"]")
    out.append("")
out.append("def nums : List (Int × Int × Int) := "+" ++ ".join("nums%d"%k for k in range(len(ch))))
out.append("\nend Verif.Era")
open('/verif/lean/Verif/EraData.lean','w',encoding='utf8').write('\n'.join(out)+'\n')
print(len(rows),'rows')
ys=set()
for r in rows:
    a,b=int(r[0]),int(r[1]); ys.update(range(a,a+b))
m=[y for y in range(min(ys),max(ys)+1) if y not in ys]; print(min(ys),max(ys),m)
