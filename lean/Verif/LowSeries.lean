import Mathlib.Analysis.SpecialFunctions.Trigonometric.Bounds
import Mathlib.Analysis.Real.Pi.Bounds

/-!
# The low-precision series for new moons and solar terms

/repo/lunar/lunar_ssq.cpp:172-201, over the reals (rounding of doubles is not modelled here).  The result is in days from noon of 2000-01-01, Beijing time.
-/

namespace Verif.LowSeries

noncomputable section

open Real

/-- the mean motion of the elongation of the moon, rad per century — lunar_ssq.cpp:174 -/
def vMoon : ℝ := 7771.37714500204

/-- the mean motion of the sun, rad per century — lunar_ssq.cpp:188 -/
def vSun : ℝ := 628.3319653318

/-- Delta T in centuries — lunar_ssq.cpp:180, 197 -/
def dtLow (t : ℝ) : ℝ := (32 * (t + 1.8) * (t + 1.8) - 20) / 86400 / 36525

/-- `so_low`: the instant at which the moon is `W` ahead of the sun — lunar_ssq.cpp:172-182 -/
def soLow (W : ℝ) : ℝ :=
  let t := (W + 1.08472) / vMoon
  let t := t - ((-0.0000331 * t * t + 0.10976 * cos (0.785 + 8328.6914 * t) + 0.02224 * cos (0.187 + 7214.0629 * t) - 0.03342 * cos (4.669 + 628.3076 * t)) / vMoon + dtLow t)
  t * 36525 + 8 / 24

/-- the first estimate of `qi_low` — lunar_ssq.cpp:189-190 -/
def qiFirst (W : ℝ) : ℝ :=
  let t := (W - 4.895062166) / vSun
  t - (53 * t * t + 334116 * cos (4.67 + 628.307585 * t) + 2061 * cos (2.678 + 628.3076 * t) * t) / vSun / 10000000

/-- the longitude of the sun in units of 1e-7 rad — lunar_ssq.cpp:192-196 -/
def qiLon (t : ℝ) : ℝ :=
  48950621.66 + 6283319653.318 * t + 53 * t * t + 334166 * cos (4.669257 + 628.307585 * t) + 3489 * cos (4.6261 + 1256.61517 * t) + 2060.6 * cos (2.67823 + 628.307585 * t) * t - 994 - 834 * sin (2.1824 - 33.75705 * t)

/-- `qi_low`: the instant at which the longitude of the sun is `W` — lunar_ssq.cpp:185-199 -/
def qiLow (W : ℝ) : ℝ :=
  let t := qiFirst W
  let t := t - ((qiLon t / 10000000 - W) / 628.332 + dtLow t)
  t * 36525 + 8 / 24

/-- the number of the new moon `calc` asks for, from the Julian day less 2451545 — lunar_ssq.cpp:223, 265 (and 240) -/
def soIndex (jd : ℝ) : ℤ := ⌊(jd + 2451545 + 14 - 2451551) / 29.5306⌋

/-- the number of the solar term `calc` asks for — lunar_ssq.cpp:223, 260 (and 238) -/
def qiIndex (jd : ℝ) : ℤ := ⌊(jd + 2451545 + 7 - 2451259) / 365.2422 * 24⌋

/-- the new moon of `calc` before the historical correction — lunar_ssq.cpp:265 -/
def soDay (k : ℤ) : ℤ := ⌊soLow (k * π * 2) + 0.5⌋

/-- the solar term of `calc` before the historical correction — lunar_ssq.cpp:260 -/
def qiDay (k : ℤ) : ℤ := ⌊qiLow (k * π / 12) + 0.5⌋

end

end Verif.LowSeries
