import Verif.CBase
import Verif.Text

/-!
# Model of the sexagenary names

/repo/lunar/lunar.cpp:126-139 (`yueLiCalc`: year and day names),
/repo/lunar/lunar_ob.cpp:311-341 (`mingLiBaZi`), tables lunar_ob.cpp:10-11.
-/

namespace Verif.GanZhi
open Verif.Fp

/-- `str_gan` — /repo/lunar/lunar_ob.cpp:10 -/
def strGan : List String := ["甲","乙","丙","丁","戊","己","庚","辛","壬","癸"]

/-- `str_zhi` — /repo/lunar/lunar_ob.cpp:11 -/
def strZhi : List String := ["子","丑","寅","卯","辰","巳","午","未","申","酉","戌","亥"]

/-- C++ indexing `a[i]` of a table; a negative or too large index is undefined. -/
def cget {α : Type} (a : List α) (i : ℤ) : Option α := if 0 ≤ i then a[i.toNat]? else none

/-- `str_gan[v % 10] + str_zhi[v % 12]`, `%` truncating toward zero — lunar.cpp:127-139, lunar_ob.cpp:324-337 -/
def pillar (v : ℤ) : Option String := do
  let g ← cget strGan (v.tmod 10)
  let z ← cget strZhi (v.tmod 12)
  pure (g ++ z)

/-- day name `Lday2` — lunar.cpp:136-138 -/
def dayName (d0 : ℤ) : Option String := do
  let a ← i32 (d0 - 6)
  let D ← i32 (a + 9000000)
  pillar D

/-- results of `mingLiBaZi`: year, month, day and hour pillar, and the table of thirteen
hour pillars with the flag "highlighted" in place of the escape sequences — /repo/lunar/lunar_ob.h:61-69 -/
structure BaZi where
  jn : String
  jy : String
  jr : String
  js : String
  JS : List (String × Bool)
deriving DecidableEq, Repr

/-- the hour table — lunar_ob.cpp:332-339; `v` is the number of the day's first double hour.
Returns the table and the final `bz_js`. -/
def hourTable (v SC : ℤ) (js0 : String) : Option (List (String × Bool) × String) := do
  let t ← (List.range 13).mapM (fun (i : ℕ) => do
    let x ← i32 (v + (i : ℤ))
    let c ← pillar x
    pure (c, decide (SC = (i : ℤ))))
  let js := ((t.find? (fun e => e.2)).map (·.1)).getD js0
  pure (t, js)

/-- `mingLiBaZi` from the solar-term count `k` and the local true solar time `jd` (days since J2000 noon) on —
lunar_ob.cpp:321-340.  The ephemeris calls of lines 315-318 that produce `k` and `jd` are
parameters. -/
def baZi (k : ℤ) (jd : ℚ) : Option BaZi := do
  let jd := jd ⊞ rnd (13/24)                     -- 321: 13.0/24 is a double constant
  let D ← int2 jd                                -- 322: int D = floor(jd)
  let SC ← int2 ((jd ⊟ (D : ℚ)) ⊠ 12)
  let v ← int2 (((k : ℚ) ⊘ 12) ⊞ 6000000)        -- 324
  let jn ← pillar v
  let v ← i32 (k + 2 + 60000000)                 -- 326
  let jy ← pillar v
  let v ← i32 (D - 6 + 9000000)                  -- 328
  let jr ← pillar v
  let t ← i32 ((D - 1) * 12)                     -- 330
  let t ← i32 (t + 90000000)
  let v ← i32 (t + SC)
  let js ← pillar v
  let (tab, js) ← hourTable t SC js              -- 333-339 (v -= SC)
  pure { jn := jn, jy := jy, jr := jr, js := js, JS := tab }

end Verif.GanZhi
