#!/usr/bin/env python3
"""Generate lean/Verif/SsqData.lean from /repo/lunar/lunar_ssq.cpp."""
import re
src=open('/repo/lunar/lunar_ssq.cpp',encoding='utf-8').read()
def tab(name):
    i=src.index('double SSQ::%s[]'%name); j=src.index('};',i)
    body=re.sub(r'//.*','',src[i:j]); body=body[body.index('{')+1:]
    return re.findall(r'\d+\.\d+',body)
def lit(s):
    a,f=s.split('.')
    return '%s/%d'%(a+f,10**len(f))
def strs(start,end):
    i=src.index(start); j=src.index(end,i)
    body=re.sub(r'//.*','',src[i:j])
    return re.findall(r'"([^"]*)"',body)
out='''import Mathlib.Data.Rat.Defs

/-!
# Tables of `SSQ` (generated by tools/gen_ssq.py from /repo/lunar/lunar_ssq.cpp)
-/

namespace Verif.Ssq

'''
for name,com in (('suoKB','lunar_ssq.cpp:27-41'),('qiKB','lunar_ssq.cpp:43-81')):
    B=tab(name)
    out+='/-- the decimal constants of `SSQ::%s` — %s -/\ndef %sDec : List ℚ := [\n'%(name,com,name)
    out+=',\n'.join('  '+', '.join(lit(x) for x in B[i:i+2]) for i in range(0,len(B),2))
    out+=']\n\n'
for name,st,en,com in (('suoS','mystl::string suoS','qiS','lunar_ssq.cpp:89-111'),('qiS','qiS =','o = ','lunar_ssq.cpp:113-118')):
    L=strs(st,en)
    out+='/-- the compressed string `%s` — %s -/\ndef %s : List (List Char) := [\n'%(name,com,name)
    out+=',\n'.join('  /- %s -/ ['%x+','.join("'%s'"%c for c in x)+']' for x in L)+']\n\n'
# replacements
i=src.index('string_replace(str, "J"'); j=src.index('char *result',i)
reps=re.findall(r'string_replace\(str, "(.)", (?:"(\d+)"|(\w+))\)',src[i:j])
env=dict(re.findall(r'\b(o\d?) = "(0+)"',src))
out+='/-- the 30 replacements of `jieya` in order; `o`..`o6` expanded — lunar_ssq.cpp:119-124, 132-161 -/\ndef replacements : List (Char × String) := [\n'
out+=',\n'.join("  ('%s', \"%s\")"%(c,a or env[v]) for c,a,v in reps)+']\n\nend Verif.Ssq\n'
open('/verif/lean/Verif/SsqData.lean','w').write(out)
print(len(reps))
