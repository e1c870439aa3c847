#!/usr/bin/env python3
"""Generates lean/Verif/FestivalData.lean (the literals of /repo/lunar/lunar_ob.cpp:25-38 and 74-113) and
lean/Verif/FestivalSpec.lean (the same festivals as calendar records, for the specification)."""
import re
L=open('/repo/lunar/lunar_ob.cpp',encoding='utf8').read().split('\n')
b=next(i for i,l in enumerate(L) if 'OBA::wFtv' in l); e=next(i for i in range(b,len(L)) if L[i].startswith('};'))
w=[]
for l in L[b:e]:
    m=re.match(r'\s*"([^"]*)"',l)
    if m: w.append(m.group(1))
b2=next(i for i,l in enumerate(L) if 'void OBA::init()' in l); e2=next(i for i in range(b2,len(L)) if 'split(s,"|")' in L[i])
txt=''
for l in L[b2:e2]:
    l=re.sub(r'//.*$','',l)
    txt+=''.join(re.findall(r'"([^"]*)"',l))
months=[m.split(',') for m in txt.split('|')]
assert len(months)==12
q=lambda s:'"'+s+'"'
o=["/-! Generated by tools/gen_fest.py from /repo/lunar/lunar_ob.cpp. -/","","namespace Verif.Fest","",
"/-- `OBA::wFtv` — /repo/lunar/lunar_ob.cpp:%d-%d -/"%(b+1,e+1),"def wFtv : List String := [",",\n".join("  "+q(x) for x in w)+"]","",
"/-- `OBA::sFtv`: the literal of `OBA::init` split at '|' and ',' — /repo/lunar/lunar_ob.cpp:%d-%d -/"%(b2+1,e2+5),"def sFtv : List (List String) := ["]
o.append(",\n".join("  ["+", ".join(map(q,m))+"]" for m in months)+"]")
o.append("\nend Verif.Fest")
open('/verif/lean/Verif/FestivalData.lean','w',encoding='utf8').write('\n'.join(o)+'\n')
cls={'#':'.A','I':'.B','.':'.C'}
s=["""/-! Generated by tools/gen_fest.py.

# The festivals as calendar records

`Cls` is the class of a festival in the day record: `A` day off, `B` important, `C` other. -/

namespace Verif.Fest

inductive Cls | A | B | C
  deriving DecidableEq

/-- a festival on a fixed day of the Gregorian year, with its first and last year -/
structure Fixed where
  month : Nat
  day : Nat
  cls : Cls
  first : Int
  /-- `none`: no last year stated -/
  last : Option Int
  name : String

/-- a festival on the `nth` weekday (0 = Sunday) of a month; `nth = 5` means the last one -/
structure Weekly where
  month : Nat
  nth : Nat
  weekday : Nat
  cls : Cls
  name : String

/-- festivals on fixed days; without stated years they count from 1850 -/
def fixedDays : List Fixed := ["""]
rows=[]
for mi,m in enumerate(months):
    for x in m:
        d=int(x[:2]); t=x[2]; r=x[3:]
        g=re.match(r'(\d{4})-(\d{4})(.*)$',r)
        if g: f,l,n=g.group(1),'some %d'%int(g.group(2)),g.group(3)
        else: f,l,n='1850','none',r
        rows.append('  ⟨%d, %d, %s, %s, %s, %s⟩'%(mi+1,d,cls[t],f,l,q(n)))
s.append(",\n".join(rows)+"]\n")
s.append("/-- festivals on the n-th weekday of a month -/\ndef weeklyDays : List Weekly := [")
s.append(",\n".join('  ⟨%d, %d, %d, %s, %s⟩'%(int(x[:2]),int(x[2]),int(x[3]),cls[x[4]],q(x[5:])) for x in w)+"]\n")
s.append("end Verif.Fest")
open('/verif/lean/Verif/FestivalSpec.lean','w',encoding='utf8').write('\n'.join(s)+'\n')
print(len(w),[len(m) for m in months])
