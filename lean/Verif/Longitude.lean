import Verif.Series
import Verif.EphTables

/-!
# Apparent longitudes and the instants at which they are reached — /repo/eph/eph0.cpp:362-374, 539-663

Exact arithmetic on `ℝ` (see `Verif/Geom.lean`).  The tables are a parameter (`Tab`); `Builtin` says that they contain the built-in series
of the longitudes of the Earth and of the moon and of nutation (`Verif/EphTables.lean`).
-/

namespace Verif.Longitude

open Real Verif.Series Verif.EphTab

/-- the tables: `XL0`, `XL0_xzb`, `XL1`, `nutB` — eph0.cpp:11-53 -/
structure Tab where
  X : List (List ℝ)
  xzb : List ℝ
  T : List (List (List ℝ))
  nutB : List ℝ

/-- the series used here are the built-in ones -/
def Builtin (b : Tab) : Prop :=
  b.X[0]? = some (x0I.map dec) ∧ b.T[0]? = some [ml0I.map dec, ml1I.map dec, ml2I.map dec, ml3I.map dec] ∧ b.nutB = nutBI.map dec

/-- the loop of `nutationLon2` — eph0.cpp:365-372 -/
noncomputable def nutLonLoop (B : List ℝ) (t : ℝ) : ℕ → ℕ → ℝ → Option ℝ
  | 0, _, _ => none
  | fuel + 1, i, dL =>
    if i < B.length then do
      let a := if i = 0 then -1.742 * t else 0
      let b3 ← B[i + 3]?
      let b0 ← B[i]?
      let b1 ← B[i + 1]?
      let b2 ← B[i + 2]?
      nutLonLoop B t fuel (i + 5) (dL + (b3 + a) * sin (b0 + b1 * t + b2 * (t * t)))
    else some dL

/-- `nutationLon2(t)` — eph0.cpp:361-374 -/
noncomputable def nutationLon2 (B : List ℝ) (t : ℝ) : Option ℝ := do
  let dL ← nutLonLoop B t (B.length + 1) 0 0
  pure (dL / 100 / radSec)

/-- `gxc_sunLon(t)` — eph0.cpp:539-544 -/
noncomputable def gxcSunLon (t : ℝ) : ℝ :=
  let v := -0.043126 + 628.301955 * t - 0.000002732 * t * t
  let e := 0.016708634 - 0.000042037 * t - 0.0000001267 * t * t
  (-20.49552 * (1 + e * cos v)) / radSec

/-- `gxc_moonLon(t)` — eph0.cpp:551-554 -/
noncomputable def gxcMoonLon (_ : ℝ) : ℝ := -3.4E-6

/-- `E_Lon(t, n)` — eph0.cpp:561-564 -/
noncomputable def eLon (b : Tab) (t : ℝ) (n : ℤ) : Option ℝ := xl0Calc b.X b.xzb 0 0 t n

/-- `M_Lon(t, n)` — eph0.cpp:566-569 -/
noncomputable def mLon (b : Tab) (t : ℝ) (n : ℤ) : Option ℝ := xl1Calc b.T moonLengths 0 t n

/-- `E_v(t)` — eph0.cpp:585-589 -/
noncomputable def eV (t : ℝ) : ℝ :=
  let f := 628.307585 * t
  628.332 + 21 * sin (1.527 + f) + 0.44 * sin (1.48 + f * 2) + 0.129 * sin (5.82 + f) * t + 0.00055 * sin (4.21 + f) * t * t

/-- `M_v(t)` — eph0.cpp:591-606 -/
noncomputable def mV (t : ℝ) : ℝ :=
  let v := 8399.71 - 914 * sin (0.7848 + 8328.691425 * t + 0.0001523 * t * t)
  v - (179 * sin (2.543 + 15542.7543 * t)
    + 160 * sin (0.1874 + 7214.0629 * t)
    + 62 * sin (3.14 + 16657.3828 * t)
    + 34 * sin (4.827 + 16866.9323 * t)
    + 22 * sin (4.9 + 23871.4457 * t)
    + 12 * sin (2.59 + 14914.4523 * t)
    + 7 * sin (0.23 + 6585.7609 * t)
    + 5 * sin (0.9 + 25195.624 * t)
    + 5 * sin (2.32 - 7700.3895 * t)
    + 5 * sin (3.88 + 8956.9934 * t)
    + 5 * sin (0.49 + 7771.3771 * t))

/-- `MS_aLon(t, Mn, Sn)` — eph0.cpp:608-611 -/
noncomputable def msALon (b : Tab) (t : ℝ) (Mn Sn : ℤ) : Option ℝ := do
  let m ← mLon b t Mn
  let e ← eLon b t Sn
  pure (m + gxcMoonLon t - (e + gxcSunLon t + π))

/-- `S_aLon(t, n)` — eph0.cpp:613-616 -/
noncomputable def sALon (b : Tab) (t : ℝ) (n : ℤ) : Option ℝ := do
  let e ← eLon b t n
  let nu ← nutationLon2 b.nutB t
  pure (e + nu + gxcSunLon t + π)

/-- `MS_aLon_t(W)` — eph0.cpp:619-628 -/
noncomputable def msALonT (b : Tab) (W : ℝ) : Option ℝ := do
  let v := 7771.37714500204
  let t := (W + 1.08472) / v
  let t := t + (W - (← msALon b t 3 3)) / v
  let v := mV t - eV t
  let t := t + (W - (← msALon b t 20 10)) / v
  let t := t + (W - (← msALon b t (-1) 60)) / v
  pure t

/-- `S_aLon_t(W)` — eph0.cpp:630-639 -/
noncomputable def sALonT (b : Tab) (W : ℝ) : Option ℝ := do
  let v := 628.3319653318
  let t := (W - 1.75347 - π) / v
  let v := eV t
  let t := t + (W - (← sALon b t 10)) / v
  let v := eV t
  let t := t + (W - (← sALon b t (-1))) / v
  pure t

/-- `MS_aLon_t2(W)` — eph0.cpp:641-654 -/
noncomputable def msALonT2 (b : Tab) (W : ℝ) : Option ℝ := do
  let v := 7771.37714500204
  let t := (W + 1.08472) / v
  let t2 := t * t
  let t := t - (-0.00003309 * t2 + 0.10976 * cos (0.784758 + 8328.6914246 * t + 0.000152292 * t2)
    + 0.02224 * cos (0.18740 + 7214.0628654 * t - 0.00021848 * t2) - 0.03342 * cos (4.669257 + 628.307585 * t)) / v
  let m ← mLon b t 20
  let L := m - (4.8950632 + 628.3319653318 * t + 0.000005297 * t * t + 0.0334166 * cos (4.669257 + 628.307585 * t)
    + 0.0002061 * cos (2.67823 + 628.307585 * t) * t + 0.000349 * cos (4.6261 + 1256.61517 * t) - 20.5 / radSec)
  let v := 7771.38 - 914 * sin (0.7848 + 8328.691425 * t + 0.0001523 * t * t) - 179 * sin (2.543 + 15542.7543 * t)
    - 160 * sin (0.1874 + 7214.0629 * t)
  let t := t + (W - L) / v
  pure t

/-- `S_aLon_t2(W)` — eph0.cpp:656-663 -/
noncomputable def sALonT2 (b : Tab) (W : ℝ) : Option ℝ := do
  let v := 628.3319653318
  let t := (W - 1.75347 - π) / v
  let t := t - (0.000005297 * t * t + 0.0334166 * cos (4.669257 + 628.307585 * t) + 0.0002061 * cos (2.67823 + 628.307585 * t) * t) / v
  let e ← eLon b t 8
  let t := t + (W - e - π + (20.5 + 17.2 * sin (2.1824 - 33.75705 * t)) / radSec) / v
  pure t

end Verif.Longitude
