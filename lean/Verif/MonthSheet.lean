import Verif.Calendar

/-!
# Model of /repo/lunar/lunar.cpp:16-54, the Gregorian part of `yueLiCalc`

The lunar part of the same loop is modelled in `Verif/LunarDay.lean`.
`J2000` is the int 2451545 (/repo/eph/eph0.h:21).
-/

namespace Verif.Cal
open Verif.Fp

/-- the Gregorian fields of `OB_DAY` — /repo/lunar/lunar_ob.h:9-18 -/
structure SheetDay where
  d0 : ℤ
  di : ℤ
  y : ℤ
  m : ℤ
  d : ℤ
  dn : ℤ
  week0 : ℤ
  week : ℤ
  weeki : ℤ
  weekN : ℤ
deriving DecidableEq, Repr

/-- the Gregorian fields of `OB_LUN` — /repo/lunar/lunar.h:9-18 -/
structure Sheet where
  w0 : ℤ
  y : ℤ
  m : ℤ
  d0 : ℤ
  dn : ℤ
  day : List SheetDay
deriving DecidableEq, Repr

/-- `int2(toJD({Y,M,1,12,0,0.1})) - J2000` — lunar.cpp:20-21, 25 -/
def monthStart (Y M : ℤ) : Option ℤ := do
  let j ← toJD ⟨Y, M, 1, 12, 0, rnd (1/10)⟩
  let n ← int2 j
  i32 (n - 2451545)

/-- one pass of the loop — lunar.cpp:43-53 -/
def sheetDay (By Bm Bd0 Bdn w0 : ℤ) (i : ℕ) : Option SheetDay := do
  let d0 ← i32 (Bd0 + i)
  let jd ← i32 (d0 + 2451545)
  let r ← setFromJD (jd : ℚ)
  pure { d0 := d0, di := i, y := By, m := Bm, d := r.D, dn := Bdn, week0 := w0,
         week := (w0 + i).tmod 7, weeki := (w0 + i).tdiv 7, weekN := (w0 + Bdn - 1).tdiv 7 + 1 }

/-- `yueLiCalc`, Gregorian part — lunar.cpp:19-54.  `lun.day` has 31 elements: a longer loop is undefined. -/
def monthSheet (By Bm : ℤ) : Option Sheet := do
  let Bd0 ← monthStart By Bm
  let Y2 ← (if Bm + 1 > 12 then i32 (By + 1) else some By)
  let M2 := if Bm + 1 > 12 then 1 else Bm + 1
  let e ← monthStart Y2 M2
  let Bdn ← i32 (e - Bd0)
  let a ← i32 (Bd0 + 2451545)
  let a ← i32 (a + 1 + 7000000)
  let w0 := a.tmod 7
  if Bdn > 31 then none else
  let days ← (List.range Bdn.toNat).mapM (sheetDay By Bm Bd0 Bdn w0)
  pure { w0 := w0, y := By, m := Bm, d0 := Bd0, dn := Bdn, day := days }

end Verif.Cal
