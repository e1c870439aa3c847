# Generates lean/Verif/CityData.lean from /repo/mylib/lat_lon_data.cpp (run: python3 tools/gen_cities.py)
import re
d=open('/repo/mylib/lat_lon_data.cpp','rb').read()
lines=d.split(b'\n')
rows=[(i+1,m.group(1).decode()) for i,l in enumerate(lines) for m in [re.match(rb'^\t"([^"]*)",?',l)] if m]
assert len(rows)==32
def cl(s): return '['+','.join("'%s'"%c for c in s)+']'
o='''import Mathlib.Data.Int.Notation

/-!
# The table of places — /repo/mylib/lat_lon_data.cpp:31-62, generated by tools/gen_cities.py

Each C string of the table is the name of a province followed, for each place, by a blank, four code characters and the name of the place; here it is given in these parts.
-/

namespace Verif.City

/-- one string of the table: the province, and code and name of each place -/
structure Row where
  prov : List Char
  recs : List (List Char × List Char)

'''
for k,(ln,r) in enumerate(rows):
    parts=r.split(' ')
    recs=[]
    for p in parts[1:]:
        if p=='': raise SystemExit('empty field')
        assert re.match(r'^[0-9A-Za-z]{4}[^0-9A-Za-z]+$',p),p
        recs.append((p[:4],p[4:]))
    assert ' '.join([parts[0]]+[a+b for a,b in recs])==r
    # chunks of 40 records keep elaboration cheap
    ch=[recs[i:i+40] for i in range(0,len(recs),40)]
    for j,c in enumerate(ch):
        o+='/-- part %d of the places of lat_lon_data.cpp:%d -/\ndef r%d_%d : List (List Char × List Char) := [\n  '%(j,ln,k,j)+',\n  '.join('(%s, %s)'%(cl(a),cl(b)) for a,b in c)+']\n\n'
    o+='/-- lat_lon_data.cpp:%d -/\ndef row%d : Row := ⟨%s, %s⟩\n\n'%(ln,k,cl(parts[0]),' ++ ('.join('r%d_%d'%(k,j) for j in range(len(ch)))+')'*(len(ch)-1))
o+='/-- `JW` — lat_lon_data.cpp:31-65 -/\ndef rows : List Row := ['+', '.join('row%d'%k for k in range(32))+']\n\nend Verif.City\n'
open('/verif/lean/Verif/CityData.lean','w').write(o)
