import Verif.CBase

/-!
# Model of /repo/mylib/tool.cpp: toJD, setFromJD (lines 127-171)

Every `double` operation is rounded (`⊞ ⊟ ⊠ ⊘` of `Verif.Fp`); decimal literals
that are not dyadic are rounded once (`rnd (306/10)` is the double literal `30.6`).
`none` is undefined behaviour (signed overflow, out-of-range conversion to int).
-/

namespace Verif.Cal
open Verif.Fp

/-- `struct Date` — /repo/mylib/tool.h:13-17 -/
structure Date where
  Y : ℤ
  M : ℤ
  D : ℤ
  h : ℤ
  m : ℤ
  s : ℚ
deriving DecidableEq, Repr

/-- the time-of-day term of `toJD` — tool.cpp:138: `((s/60.0 + m)/60.0 + h)/24.0 - 1524.5` -/
def timeTerm (h m : ℤ) (s : ℚ) : ℚ :=
  ((((s ⊘ 60) ⊞ m) ⊘ 60 ⊞ h) ⊘ 24) ⊟ (3049/2)

/-- the centuries term — tool.cpp:135: `n = (int)(y/100), n = 2 - n + (int)(n/4)` -/
def centuryTerm (y : ℚ) : Option ℚ := do
  let c ← toInt (y ⊘ 100)
  let q ← toInt ((c : ℚ) ⊘ 4)
  pure ((2 ⊟ (c : ℚ)) ⊞ (q : ℚ))

/-- lines 133-135: the centuries term is added from 1582-10-15 on (`1582*372+10*31+15 = 588829`) -/
def reformTerm (key : ℤ) (y : ℚ) : Option ℚ := if key ≥ 588829 then centuryTerm y else some 0

/-- `toJD` — /repo/mylib/tool.cpp:128-140 -/
def toJD (dt : Date) : Option ℚ := do
  let y0 : ℚ := dt.Y
  let m0 : ℚ := dt.M
  let m : ℚ := if m0 ≤ 2 then m0 ⊞ 12 else m0          -- m += 12
  let y : ℚ := if m0 ≤ 2 then y0 ⊟ 1 else y0           -- y--
  let a ← i32 (dt.Y * 372)
  let b ← i32 (dt.M * 31)
  let ab ← i32 (a + b)
  let abd ← i32 (ab + dt.D)
  let n ← reformTerm abd y
  let ty ← toInt (((1461/4) ⊠ (y ⊞ 4716)) ⊞ rnd (1/100))
  let n := n ⊞ (ty : ℚ)
  let tm ← toInt (rnd (306/10) ⊠ (m ⊞ 1))
  let tmd ← i32 (tm + dt.D)
  let n := n ⊞ (tmd : ℚ)
  pure (n ⊞ timeTerm dt.h dt.m dt.s)

/-- the Gregorian shift of `setFromJD` — tool.cpp:148-149 -/
def gregShift (D : ℤ) : Option ℤ :=
  if D ≥ 2299161 then do
    let c ← int2 (((D : ℚ) ⊟ (7468865/4)) ⊘ (146097/4))
    let q ← int2 ((c : ℚ) ⊘ 4)
    let t ← i32 (1 + c)
    let t ← i32 (t - q)
    i32 (D + t)
  else some D

/-- the date part of `setFromJD` — tool.cpp:148-159 (`D` is the day number of line 146) -/
def dateOfDay (D : ℤ) : Option (ℤ × ℤ × ℤ) := do
  let D ← gregShift D
  let D ← i32 (D + 1524)
  let Y ← int2 (((D : ℚ) ⊟ rnd (1221/10)) ⊘ (1461/4))
  let t ← int2 ((1461/4) ⊠ (Y : ℚ))
  let D ← i32 (D - t)
  let M ← int2 ((D : ℚ) ⊘ rnd (30601/1000))
  let t ← int2 (rnd (30601/1000) ⊠ (M : ℚ))
  let D ← i32 (D - t)
  if M > 13 then pure (Y - 4715, M - 13, D) else pure (Y - 4716, M - 1, D)

/-- the clock part of `setFromJD` — tool.cpp:162-169 -/
def clockOfFrac (F : ℚ) : Option (ℤ × ℤ × ℚ) := do
  let F := F ⊠ 24
  let h ← int2 F
  let F := F ⊟ (h : ℚ)
  let F := F ⊠ 60
  let m ← int2 F
  let F := F ⊟ (m : ℚ)
  let F := F ⊠ 60
  pure (h, m, F)

/-- `setFromJD` — /repo/mylib/tool.cpp:143-171 -/
def setFromJD (jd : ℚ) : Option Date := do
  let D ← int2 (jd ⊞ (1/2))
  let F := (jd ⊞ (1/2)) ⊟ (D : ℚ)
  let (Y, M, d) ← dateOfDay D
  let (h, m, s) ← clockOfFrac F
  pure ⟨Y, M, d, h, m, s⟩

end Verif.Cal

open Verif.Cal
example : toJD ⟨2000,1,1,12,0,0⟩ = some 2451545 := by decide +kernel
example : setFromJD 2451545 = some ⟨2000,1,1,12,0,0⟩ := by decide +kernel
