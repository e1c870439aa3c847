#!/usr/bin/env python3
"""Generates lean/Verif/EphTables.lean from /repo/eph/eph_data.h (Earth, moon longitude, nutation)."""
import re
from fractions import Fraction as Q
src=open('/repo/eph/eph_data.h',encoding='utf-8',errors='replace').read()
def macro(name):
    m=re.search(r'#define\s+'+name+r'\s+((?:.*\\\r?\n)*.*)',src)
    s=re.sub(r'/\*.*?\*/','',m.group(1)).replace('\\','').replace('\n',' ').replace('\r',' ')
    return [Q(x.strip()) for x in s.split(',') if x.strip()]
out=['''import Mathlib.Data.Real.Basic

/-!
# Built-in tables of the Earth, of the longitude of the moon and of nutation — /repo/eph/eph_data.h:48, 140-157, 316-319

Generated by tools/gen_eph.py: every number of the source times 10^9, exactly.
-/

namespace Verif.EphTab

/-- a number of the tables -/
noncomputable def dec (n : ℤ) : ℝ := n / 10 ^ 9
''']
def emit(name,mac,doc):
    l=macro(mac); v=[]
    for x in l:
        y=x*10**9; assert y.denominator==1; v.append(int(y))
    parts=[]
    for k in range(0,len(v),96):
        w=v[k:k+96]; nm='%s_%d'%(name,k//96); parts.append(nm)
        lines=[]; cur='  '
        for i,n in enumerate(w):
            tok=str(n)+(', ' if i<len(w)-1 else ']')
            if len(cur)+len(tok)>150: lines.append(cur.rstrip()); cur='  '
            cur+=tok
        lines.append(cur)
        out.append('/-- part of `%s` -/\ndef %s : List ℤ := [\n%s\n'%(mac,nm,'\n'.join(lines)))
    out.append('/-- `%s` — %s -/\ndef %s : List ℤ :=\n  %s\n'%(mac,doc,name,' ++ '.join(parts) if len(parts)==1 else ' ++ '.join(parts[:-1]).replace(' ++ ',' ++ (')+' ++ '+parts[-1]+')'*(len(parts)-2)))
emit('x0I','X0_DATA','eph_data.h:140-157')
for i in range(4): emit('ml%dI'%i,'ML%d_DATA'%i,'eph_data.h:%d'%(316+i))
emit('nutBI','nutB_DATA','eph_data.h:48')
out.append('end Verif.EphTab\n')
open('/verif/lean/Verif/EphTables.lean','w').write('\n'.join(out))
