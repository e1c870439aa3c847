import Verif.RiseSet
import Verif.EqTime
import Verif.DeltaTReal

/-!
# The sun and the moon behind the rising table — /repo/eph/eph_szj.cpp:32-81, eph0.cpp:571-577

`Verif/RiseSet.lean` models `SZJ::St` for any body; this file supplies the body `SZJ::Scoord` computes from the built-in series, and models `SZJ::Mt`.
`double` is replaced by `ℝ`.
-/

namespace Verif.SunTimes

open Real Verif.Series Verif.Longitude Verif.Geom Verif.EqTime Verif.DeltaT

/-- `pGST(T, dt)`, mean sidereal time — eph0.cpp:571-577 -/
noncomputable def pGST (T dt : ℝ) : ℝ :=
  let t := (T + dt) / 36525
  let t2 := t * t
  let t3 := t2 * t
  let t4 := t3 * t
  2 * π * (0.7790572732640 + 1.00273781191135448 * T)
    + (0.014506 + 4612.15739966 * t + 1.39667721 * t2 - 0.00009344 * t3 + 0.00001882 * t4) / radSec

/-- the equatorial place of the sun in `SZJ::Scoord` — eph_szj.cpp:68-69; `dt` and `E` are the static members -/
noncomputable def sunPlace (b : Tab) (dt E jd : ℝ) : Option V3 := do
  let lon ← eLon b ((jd + dt) / 36525) 5
  pure (llrConv ⟨lon + π - 20.5 / radSec, 0, 1⟩ E)

/-- hour angle and declination in `SZJ::Scoord` — eph_szj.cpp:66-80.  The places where the series cannot be evaluated (there are none with the built-in tables: `sunPlace_eq`) are given the value 0. -/
noncomputable def sunBody (b : Tab) (L dt E : ℝ) : Body where
  H t := pGST t dt + L - ((sunPlace b dt E t).getD ⟨0, 0, 0⟩).x
  dec t := ((sunPlace b dt E t).getD ⟨0, 0, 0⟩).y

/-- `SZJ::St(jd)` with the built-in series — eph_szj.cpp:82-144: lines 84-85 fix ΔT and the obliquity for the whole computation -/
noncomputable def sunTimes (b : Tab) (L fa jd : ℝ) : Option Sj := do
  let dt ← dtTR jd
  let E := hcjj (jd / 36525)
  pure (St (sunBody b L dt E) L fa jd)

/-! ## The moon -/

/-- the times `SZJ::Mt` computes — eph_szj.h:4-23: upper and lower culmination, rising, setting -/
structure Mj where
  z : ℝ
  x : ℝ
  s : ℝ
  j : ℝ

/-- the altitude of the moon's centre at rising and setting: parallax, refraction — eph_szj.cpp:38; `cs_rEar` is 6378.1366 (eph0.h) -/
noncomputable def moonAlt (dist : ℝ) : ℝ := 0.7275 * 6378.1366 / dist - 34 * 60 / radSec

/-- hour angle and declination in `SZJ::Mcoord` — eph_szj.cpp:32-39; `place` is the equatorial place `llrConv(m_coord(…, 40, 30, 8), E)` of lines 34-35, a parameter here -/
noncomputable def moonBody (place : ℝ → V3) (L dt : ℝ) : Body where
  H t := pGST t dt + L - (place t).x
  dec t := (place t).y

/-- `SZJ::Mt(jd)` — eph_szj.cpp:41-64 -/
noncomputable def Mt (place : ℝ → V3) (L fa dt jd : ℝ) : Mj :=
  let b := moonBody place L dt
  let jd := jd - mod2 (0.1726222 + 0.966136808032357 * jd - 0.0366 * dt + L / (2 * π)) 1
  let sv := 2 * π * 0.966
  let H0 := fun t => getH fa (moonAlt (place t).z) (place t).y
  let z := jd + (0 - rrad (b.H jd)) / sv
  let x := jd + (π - rrad (b.H jd)) / sv
  { s := refine b sv jd H0 (-1)
    j := refine b sv jd H0 1
    z := z + rrad (0 - rrad (b.H z)) / sv
    x := x + rrad (π - rrad (b.H x)) / sv }

end Verif.SunTimes
