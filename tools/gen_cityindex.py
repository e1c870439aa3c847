# Generates lean/Verif/CityIndex.lean: for each name of the table the position of its first place, as a search tree (run: python3 tools/gen_cityindex.py)
import re
d=open('/repo/mylib/lat_lon_data.cpp','rb').read()
rows=[m.group(1).decode() for l in d.split(b'\n') for m in [re.match(rb'^\t"([^"]*)",?',l)] if m]
def key(s):
    h=0
    for c in s: h=h*65536+ord(c)
    return h
texts=[]
for i,r in enumerate(rows):
    p=r.split(' ')
    texts.append((1000*i,p[0][3:]))
    for j,q in enumerate(p[1:]): texts.append((1000*i+j+1,q[4:].rstrip('\t')))
first={}
for P,t in texts:
    for a in range(len(t)):
        for b in range(a+1,len(t)+1): first.setdefault(t[a:b],P)
sh=[(P//1000,P%1000) for P,t in texts if P%1000 and first[t]!=P]
D=sorted((key(t),P) for P,t in texts if P%1000 and first[t]==P)
defs=[]
def build(lo,hi,depth):
    if lo>=hi: return '.leaf'
    m=(lo+hi)//2
    k,v=D[m]
    l=build(lo,m,depth+1); r=build(m+1,hi,depth+1)
    t='.node %d %d %s %s'%(k,v,l,r)
    if depth in (5,):
        n='idx%d'%len(defs); defs.append('/-- part of the search tree -/\ndef %s : Idx :=\n  %s\n'%(n,t.replace(' (',' (')))
        return n
    return '('+t+')' if depth>0 else t
root=build(0,len(D),0)
o='''import Mathlib.Data.Int.Notation

/-!
# An index of the names of places, generated by tools/gen_cityindex.py

Not part of the model: a certificate used to prove which names occur in earlier texts (Props/City.lean checks it).
-/

namespace Verif.City

/-- a search tree with keys and values -/
inductive Idx
  | leaf
  | node (k v : Nat) (l r : Idx)

'''+'\n'.join(defs)+'\n/-- name (as a number) ↦ 1000·row + place -/\ndef idx : Idx :=\n  '+root+'\n\nend Verif.City\n'
open('/verif/lean/Verif/CityIndex.lean','w').write(o)
print(len(sh),len(D),len(defs))
open('/tmp/sh.txt','w').write(', '.join(map(str,sh)))
