import Verif.SolarEclipse
import Verif.EclipseTable

/-!
# The search for solar eclipses with its own clock — /repo/eph/eph.cpp:381-426, eph_show.cpp:118-151

`Verif/SolarEclipse.lean` has the classification and the loop with `ecFast`, `init` and `feature` as functions of the instant.
Here the instants are computed as in the code: the number of the new moon, its mean and its true instant (eph.cpp:386-426), and the table of `RS_GS` that `init` keeps
from call to call.  Exact arithmetic on `ℝ`.  Parameters: the moon's latitude and the distances and velocities as functions of the instant (eph.cpp:428-497), the
ephemeris of `init` (`Eph`), and `feature` as a function of the table.
-/

namespace Verif.Geom

open Real

/-- the series of eph.cpp:428-497 as functions of the instant: latitude and distance of the moon, distance of the sun, velocities -/
structure Orbit where
  mB : ℝ → ℝ
  mR : ℝ → ℝ
  sR : ℝ → ℝ
  vL : ℝ → ℝ
  vB : ℝ → ℝ
  vR : ℝ → ℝ

/-- the mean new moon, in centuries — eph.cpp:389 -/
noncomputable def ecMean (W : ℝ) : ℝ := (W + 1.08472) / 7771.37714500204

/-- the argument of latitude — eph.cpp:392-393 -/
noncomputable def ecArg (t : ℝ) : ℝ :=
  let t2 := t * t
  let t3 := t2 * t
  let t4 := t3 * t
  (93.2720993 + 483202.0175273 * t - 0.0034029 * t2 - t3 / 3526000 + t4 / 863310000) / 180 * π

/-- the first correction — eph.cpp:397 -/
noncomputable def ecNear (t : ℝ) : ℝ := t - (-0.0000331 * t * t + 0.10976 * cos (0.785 + 8328.6914 * t)) / 7771

/-- `rad`, seconds of arc in a radian — eph0.h -/
noncomputable def secRad : ℝ := 180 * 3600 / π

/-- the moon's lead over the sun — eph.cpp:399-421 -/
noncomputable def ecLead (t : ℝ) : ℝ :=
  let t2 := t * t
  (-1.084719) + 7771.377145013 * t - 0.0000331 * t2 +
  (22640 * cos (0.785 + 8328.6914 * t + 0.000152 * t2)
   + 4586 * cos (0.19 + 7214.063 * t - 0.000218 * t2)
   + 2370 * cos (2.54 + 15542.754 * t - 0.000070 * t2)
   + 769 * cos (3.1 + 16657.383 * t)
   + 666 * cos (1.5 + 628.302 * t)
   + 412 * cos (4.8 + 16866.93 * t)
   + 212 * cos (4.1 - 1114.63 * t)
   + 205 * cos (0.2 + 6585.76 * t)
   + 192 * cos (4.9 + 23871.45 * t)
   + 165 * cos (2.6 + 14914.45 * t)
   + 147 * cos (5.5 - 7700.39 * t)
   + 125 * cos (0.5 + 7771.38 * t)
   + 109 * cos (3.9 + 8956.99 * t)
   + 55 * cos (5.6 - 1324.18 * t)
   + 45 * cos (0.9 + 25195.62 * t)
   + 40 * cos (3.8 - 8538.24 * t)
   + 38 * cos (4.3 + 22756.82 * t)
   + 36 * cos (5.5 + 24986.07 * t)
   - 6893 * cos (4.669257 + 628.3076 * t)
   - 72 * cos (4.6261 + 1256.62 * t)
   - 43 * cos (2.67823 + 628.31 * t) * t
   + 21) / secRad

/-- the speed of the second correction — eph.cpp:422-425 -/
noncomputable def ecSpeed (t : ℝ) : ℝ :=
  7771.38 - 914 * sin (0.7848 + 8328.691425 * t + 0.0001523 * (t * t)) - 179 * sin (2.543 + 15542.7543 * t) - 160 * sin (0.1874 + 7214.0629 * t)

/-- the new moon, in centuries — eph.cpp:397-425 -/
noncomputable def ecNew (W : ℝ) : ℝ :=
  let t := ecNear (ecMean W)
  t + (W - ecLead t) / ecSpeed t

/-- `ecFast(jd)` — eph.cpp:381-535; the instant it is given counts only through the number of the new moon (lines 386, 426) -/
noncomputable def ecFastAt (o : Orbit) (jd : ℝ) : EcFast :=
  let W := ⌊(jd + 8) / 29.5306⌋ * π * 2
  let t := ecNew W
  ecFast ⟨ecMean W * 36525, ecArg (ecMean W), t * 36525, o.mB t, o.mR t, o.sR t, o.vL t, o.vB t, o.vR t⟩

/-- state of `rs_search` with the table of `RS_GS` -/
structure SearchTab where
  q : Search
  tab : RsTab

/-- one round of the loop — eph_show.cpp:127-148; `feat` is `feature` as a function of the table: time of greatest eclipse, of the new moon, and type -/
noncomputable def roundTab (o : Orbit) (e : Eph) (feat : RsTab → ℝ × ℝ × String) (date : ℝ → List Char) (fs : Bool) (s : SearchTab) : SearchTab :=
  let r := ecFastAt o s.q.jd
  if r.lx = "NN" then { s with q := { s.q with jd := s.q.jd + 29.5306 } }
  else
    let tab := if r.ac then s.tab else s.tab.init e s.q.jd (if fs then 7 else 2)
    let r : EcFast := if r.ac then r else ⟨(feat tab).1, (feat tab).2.1, r.ac, (feat tab).2.2⟩
    let q : Search := if r.lx ≠ "N" then
        let s1 := s.q.s ++ date r.jd
        let s1 := s1 ++ r.lx.toList
        let k := s.q.k + 1
        let s1 := if k % 5 = 0 then s1 ++ ['\n'] else s1
        if k % 100 = 0 then { s.q with k := k, s := [], s2 := s.q.s2 ++ s1 } else { s.q with k := k, s := s1 }
      else s.q
    ⟨{ q with jd := r.jd + 29.5306 }, tab⟩

/-- `rs_search(Y, M, n, fs)` — eph_show.cpp:118-151: `x` is `toJD({Y, M, 1, 0, 0, 0}) - J2000`, `e.newMoon k` is `MS_aLon_t2(k*2π)*36525` (line 125 and eph_rsgs.cpp:22);
the table is left for the next call -/
noncomputable def rsSearchTab (o : Orbit) (e : Eph) (feat : RsTab → ℝ × ℝ × String) (date : ℝ → List Char) (tab : RsTab) (x : ℝ) (n : ℕ) (fs : Bool) : List Char × RsTab :=
  let jd := e.newMoon ⌊(x + 8) / 29.5306⌋
  let s := (roundTab o e feat date fs)^[n] ⟨⟨jd, 0, [], []⟩, tab⟩
  (s.q.s2 ++ s.q.s, s.tab)

end Verif.Geom
