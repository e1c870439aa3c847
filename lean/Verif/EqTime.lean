import Verif.Longitude
import Verif.Geom

/-!
# The equation of time — /repo/eph/eph0.cpp:143-147 and 777-809

`double` is replaced by `ℝ` and the C functions by the mathematical ones, as in `Verif/Longitude.lean` and `Verif/Geom.lean`.
-/

namespace Verif.EqTime

open Real Verif.Series Verif.Longitude Verif.Geom

/-- `hcjj(t)`, the obliquity of the ecliptic — eph0.cpp:143-147 -/
noncomputable def hcjj (t : ℝ) : ℝ :=
  let t2 := t * t
  let t3 := t2 * t
  let t4 := t3 * t
  let t5 := t4 * t
  (84381.4060 - 46.836769 * t - 0.0001831 * t2 + 0.00200340 * t3 - 5.76e-7 * t4 - 4.34e-8 * t5) / radSec

/-- `pty_zty(t)` — eph0.cpp:777-798 -/
noncomputable def ptyZty (b : Tab) (t : ℝ) : Option ℝ := do
  let t2 := t * t
  let t3 := t2 * t
  let t4 := t3 * t
  let t5 := t4 * t
  let L := (1753470142 + 628331965331.8 * t + 5296.74 * t2 + 0.432 * t3 - 0.1124 * t4 - 0.00009 * t5) / 1000000000 + π - 20.5 / radSec
  let dL := -17.2 * sin (2.1824 - 33.75705 * t) / radSec
  let dE := 9.2 * cos (2.1824 - 33.75705 * t) / radSec
  let E := hcjj t + dE
  let lon ← xl0Calc b.X b.xzb 0 0 t 50
  let z : V3 := ⟨lon + π + gxcSunLon t + dL,
    -(2796 * cos (3.1987 + 8433.46616 * t) + 1016 * cos (5.4225 + 550.75532 * t) + 804 * cos (3.88 + 522.3694 * t)) / 1000000000, 0⟩
  let z := llrConv z E
  let z : V3 := ⟨z.x - dL * cos E, z.y, z.z⟩
  pure (rrad (L - z.x) / (2 * π))

/-- `pty_zty2(t)` — eph0.cpp:800-809 -/
noncomputable def ptyZty2 (b : Tab) (t : ℝ) : Option ℝ := do
  let L := (1753470142 + 628331965331.8 * t + 5296.74 * t * t) / 1000000000 + π
  let E := (84381.4088 - 46.836051 * t) / radSec
  let lon ← xl0Calc b.X b.xzb 0 0 t 5
  let z : V3 := ⟨lon + π, 0, 0⟩
  let z := llrConv z E
  pure (rrad (L - z.x) / (2 * π))

end Verif.EqTime
