"""Generates lean/Verif/GrisuData.lean from dtoa.h"""
import re,struct,random,math
src=open('/repo/mylib/mystl/dtoa.h',encoding='utf-8',errors='ignore').read()
F=[(int(a,16)<<32)|int(b,16) for a,b in re.findall(r'UINT64_C2\((0x[0-9a-f]{8}), (0x[0-9a-f]{8})\)',src)]
# first matches incl masks? filter table area
t=src[src.index('kCachedPowers_F[] = {'):src.index('};',src.index('kCachedPowers_F[] = {'))]
F=[(int(a,16)<<32)|int(b,16) for a,b in re.findall(r'UINT64_C2\((0x[0-9a-f]{8}), (0x[0-9a-f]{8})\)',t)]
t=src[src.index('kCachedPowers_E[] = {'):src.index('};',src.index('kCachedPowers_E[] = {'))]
E=[int(x) for x in re.findall(r'-?\d+',t[len('kCachedPowers_E[] = {'):])]
assert len(F)==len(E)==87,(len(F),len(E))

def wrap(xs,n):
    return ",\n".join("  "+", ".join(map(str,xs[i:i+n])) for i in range(0,len(xs),n))
open('/verif/lean/Verif/GrisuData.lean','w').write(f'''import Mathlib.Data.Int.Notation

/-! # Powers of ten of dtoa.h, generated from /repo/mylib/mystl/dtoa.h:132-187 by /verif/tools/gen_grisu.py -/

namespace Verif.Grisu

/-- `kCachedPowers_F` — dtoa.h:134-176 -/
def cachedF : List Nat := [
{wrap(F,4)}]

/-- `kCachedPowers_E` — dtoa.h:177-187 -/
def cachedE : List Int := [
{wrap(E,16)}]

end Verif.Grisu
''')
