import Verif.Longitude
import Mathlib.Algebra.Order.Floor.Ring

/-!
# The day of a solar term or new moon: quick estimate, precise computation near midnight

The two member functions of `SSQ` that date the terms and months of the years without historical tables.  `dt_T` (the slow-down of the Earth's
rotation, in days) is a parameter, so that what is proved holds whatever it returns (subject to the stated bounds).
-/

namespace Verif.Longitude

/-- `fmod(x, 1)` of the C library: the remainder has the sign of `x`.  lunar_ssq.cpp:206, 215 -/
noncomputable def fmod1 (x : ℝ) : ℝ := if 0 ≤ x then Int.fract x else -Int.fract (-x)

/-- `SSQ::qi_high(W)`: days from noon of 2000-01-01 (Beijing) at which the sun's longitude is `W` — lunar_ssq.cpp:202-209 -/
noncomputable def qiHigh (b : Tab) (dtT : ℝ → ℝ) (W : ℝ) : Option ℝ := do
  let q ← sALonT2 b W
  let t := q * 36525
  let t := t - dtT t + 8.0 / 24
  let v := fmod1 (t + 0.5) * 86400
  if v < 1200 ∨ v > 86400 - 1200 then do
    let p ← sALonT b W
    pure (p * 36525 - dtT t + 8.0 / 24)
  else pure t

/-- `SSQ::so_high(W)`: the same for the lead `W` of the moon over the sun — lunar_ssq.cpp:211-218 -/
noncomputable def soHigh (b : Tab) (dtT : ℝ → ℝ) (W : ℝ) : Option ℝ := do
  let q ← msALonT2 b W
  let t := q * 36525
  let t := t - dtT t + 8.0 / 24
  let v := fmod1 (t + 0.5) * 86400
  if v < 1800 ∨ v > 86400 - 1800 then do
    let p ← msALonT b W
    pure (p * 36525 - dtT t + 8.0 / 24)
  else pure t

end Verif.Longitude
