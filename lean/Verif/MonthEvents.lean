import Verif.DateText
import Verif.GanZhi
import Verif.LunarYear
import Verif.SsqCalc

/-!
# Model of the search for moon phases and solar terms in `yueLiCalc`

/repo/lunar/lunar.cpp:152-193.  The ephemeris (`MS_aLon`, `S_aLon`, `OBB::so_accurate`, `OBB::qi_accurate`) is a parameter: the value `w0` of the longitude at
the beginning of the month, and `acc w`, the moment (days from midday of 1 January 2000, Beijing time) at which the longitude is `w`.
-/

namespace Verif.Lunar
open Verif.Fp Verif.Cal Verif.GanZhi Verif.Ssq

/-- the fields of `OB_DAY` written by a search: name, moment, clock text (yxmc, yxjd, yxsj or jqmc, jqjd, jqsj) — /repo/lunar/lunar_ob.h:53-58 -/
structure EventRec where
  name : String
  jd : ℚ
  time : Str
deriving DecidableEq, Repr

/-- `str_yxmc` — /repo/lunar/lunar_ob.cpp:8 -/
def strYxmc : List String := ["朔","上弦","望","下弦"]

/-- `pi2` — /repo/eph/eph0.h:19 -/
def pi2 : ℚ := mPi ⊠ 2

/-- writing `lun.day[i]`; outside the array of 31 days it is undefined — lunar.cpp:169, 188 -/
def setDay (days : List EventRec) (i : ℤ) (r : EventRec) : Option (List EventRec) :=
  if 0 ≤ i ∧ i.toNat < days.length then some (days.set i.toNat r) else none

/-- the `do … while` loop: lunar.cpp:157-173 with `n = 4`, `off = 4000000.01`, `slack = 5`; lunar.cpp:177-192 with `n = 24`, `off = 24000006.01`,
`slack = 12`.  Running out of fuel is no result. -/
def eventLoop (acc : ℚ → ℚ) (names : List String) (n : ℕ) (off : ℚ) (slack Bd0 Bdn : ℤ) : ℕ → ℚ → List EventRec → Option (List EventRec)
  | 0, _, _ => none
  | f + 1, w, days => do
    let d := acc w
    let D ← int2 (d ⊞ rnd (1/2))
    let x ← int2 (((w ⊘ pi2) ⊠ (n : ℚ)) ⊞ off)
    let xn := x.tmod n
    let w := w ⊞ (pi2 ⊘ (n : ℚ))
    if D ≥ Bd0 + Bdn then pure days
    else
      let days ← (if D < Bd0 then pure days
        else do
          let nm ← cget names xn
          let ts ← timeStr d
          setDay days (D - Bd0) ⟨nm, d, ts⟩)
      if D + slack < Bd0 + Bdn then eventLoop acc names n off slack Bd0 Bdn f w days else pure days

/-- the search for the moon phases — lunar.cpp:155-173 -/
def monthPhases (acc : ℚ → ℚ) (w0 : ℚ) (Bd0 Bdn : ℤ) (fuel : ℕ) (days : List EventRec) : Option (List EventRec) := do
  let k ← int2 (((w0 ⊟ rnd (78/100)) ⊘ mPi) ⊠ 2)
  eventLoop acc strYxmc 4 (rnd (400000001/100)) 5 Bd0 Bdn fuel (((k : ℚ) ⊠ mPi) ⊘ 2) days

/-- the search for the solar terms — lunar.cpp:175-192 -/
def monthTerms (acc : ℚ → ℚ) (w0 : ℚ) (Bd0 Bdn : ℤ) (fuel : ℕ) (days : List EventRec) : Option (List EventRec) := do
  let k ← int2 (((w0 ⊟ rnd (13/100)) ⊘ pi2) ⊠ 24)
  eventLoop acc strJqmc 24 (rnd (2400000601/100)) 12 Bd0 Bdn fuel (((k : ℚ) ⊠ pi2) ⊘ 24) days

end Verif.Lunar
