import Mathlib.Analysis.SpecialFunctions.Complex.Arg
import Mathlib.Analysis.SpecialFunctions.Trigonometric.Inverse
import Mathlib.Analysis.SpecialFunctions.Trigonometric.Arctan
import Mathlib.Algebra.Order.Floor.Ring

/-!
# Coordinate and intersection geometry — /repo/eph/eph0.cpp:55-133, /repo/eph/eph.cpp:292-385, eph_yspl.cpp:9-15, eph_rsgs.cpp:95-107

Simplification for this whole file: `double` arithmetic is replaced by exact arithmetic on `ℝ`, `_pi` by `π`, and `sin`, `cos`, `tan`,
`asin`, `atan`, `atan2`, `sqrt` by the mathematical functions (`asin` outside [-1,1] and `0/0`, a NaN in C, do not arise under
the hypotheses of the theorems).  What rounding does to `rad2mrad`/`rad2rrad` is in `Verif/AngleNorm.lean`.
-/

namespace Verif.Geom

open Real

/-- truncation toward zero, as `fmod` uses it -/
noncomputable def trunc (q : ℝ) : ℤ := if 0 ≤ q then ⌊q⌋ else ⌈q⌉

/-- `fmod(v, m)` -/
noncomputable def fmod (v m : ℝ) : ℝ := v - m * trunc (v / m)

/-- `rad2mrad` — eph0.cpp:55-61 -/
noncomputable def mrad (v : ℝ) : ℝ :=
  let v := fmod v (2 * π)
  if v < 0 then v + 2 * π else v

/-- `rad2rrad` — eph0.cpp:63-71 -/
noncomputable def rrad (v : ℝ) : ℝ :=
  let v := fmod v (2 * π)
  if v ≤ -π then v + 2 * π
  else if v > π then v - 2 * π
  else v

/-- `atan2(y, x)` -/
noncomputable def atan2 (y x : ℝ) : ℝ := Complex.arg ⟨x, y⟩

/-- `array3` -/
structure V3 where
  x : ℝ
  y : ℝ
  z : ℝ

/-- `llr2xyz` — eph0.cpp:73-81; the components of the argument are longitude, latitude, distance -/
noncomputable def llr2xyz (p : V3) : V3 := ⟨p.z * cos p.y * cos p.x, p.z * cos p.y * sin p.x, p.z * sin p.y⟩

/-- `xyz2llr` — eph0.cpp:83-91 -/
noncomputable def xyz2llr (v : V3) : V3 :=
  let r := √(v.x * v.x + v.y * v.y + v.z * v.z)
  ⟨mrad (atan2 v.y v.x), arcsin (v.z / r), r⟩

/-- `llrConv(p, E)` — eph0.cpp:93-103 -/
noncomputable def llrConv (p : V3) (E : ℝ) : V3 :=
  ⟨mrad (atan2 (sin p.x * cos E - tan p.y * sin E) (cos p.x)), arcsin (cos E * sin p.y + sin E * cos p.y * sin p.x), p.z⟩

/-- `CD2DP(z, L, fa, gst)` — eph0.cpp:105-111 -/
noncomputable def cd2dp (z : V3) (L fa gst : ℝ) : V3 :=
  let a : V3 := ⟨z.x + π / 2 - gst - L, z.y, z.z⟩
  let a := llrConv a (π / 2 - fa)
  ⟨mrad (π / 2 - a.x), a.y, a.z⟩

/-- `h2g(z, a)` — eph0.cpp:124-133 -/
noncomputable def h2g (z a : V3) : V3 :=
  let a := llr2xyz a
  let z := llr2xyz z
  xyz2llr ⟨z.x - a.x, z.y - a.y, z.z - a.z⟩

/-- `j1_j2` — eph0.cpp:113-122 -/
noncomputable def angDiff (J1 W1 J2 W2 : ℝ) : ℝ :=
  let dJ := rrad (J1 - J2)
  let dW := W1 - W2
  if |dJ| < 1 / 1000 ∧ |dW| < 1 / 1000 then
    let dJ := dJ * cos ((W1 + W2) / 2)
    √(dJ * dJ + dW * dW)
  else arccos (sin W1 * sin W2 + cos W1 * cos W2 * cos dJ)

/-- `RS_GS::cd2bse(z, I)` — eph_rsgs.cpp:95-100 -/
noncomputable def cd2bse (z I : V3) : V3 := llr2xyz (llrConv ⟨z.x - I.x, z.y, z.z⟩ (-I.y))

/-- `RS_GS::bse2cd(z, I)` — eph_rsgs.cpp:101-107 -/
noncomputable def bse2cd (z I : V3) : V3 :=
  let r := llrConv (xyz2llr z) I.y
  ⟨mrad (r.x + I.x), r.y, r.z⟩

/-- `COORDP` — eph.h:7-18 (the members `lineEll` sets) -/
structure CoordP where
  x : ℝ
  y : ℝ
  z : ℝ
  R1 : ℝ
  R2 : ℝ
  D : ℝ

/-- `lineEll` — eph.cpp:293-307 -/
noncomputable def lineEll (p q : V3) (e r : ℝ) : CoordP :=
  let dx := q.x - p.x
  let dy := q.y - p.y
  let dz := q.z - p.z
  let e2 := e * e
  let A := dx * dx + dy * dy + dz * dz / e2
  let B := p.x * dx + p.y * dy + p.z * dz / e2
  let C := p.x * p.x + p.y * p.y + p.z * p.z / e2 - r * r
  let D := B * B - A * C
  if D < 0 then ⟨0, 0, 0, 0, 0, D⟩
  else
    let d := √D
    let d := if B < 0 then -d else d
    let t := (-B + d) / A
    let R := √(dx * dx + dy * dy + dz * dz)
    ⟨p.x + dx * t, p.y + dy * t, p.z + dz * t, R * |t|, R * |t - 1|, D⟩

/-- `lineEar2(…, e, r, I)` — eph.cpp:309-320: the intersection and the geographic longitude and latitude (100, 100 without one) -/
noncomputable def lineEar2 (p q : V3) (e r : ℝ) (I : V3) : CoordP × ℝ × ℝ :=
  let P := cos I.y
  let Q := sin I.y
  let c := lineEll ⟨p.x, P * p.y - Q * p.z, Q * p.y + P * p.z⟩ ⟨q.x, P * q.y - Q * q.z, Q * q.y + P * q.z⟩ e r
  if c.D < 0 then (c, 100, 100)
  else (c, rrad (atan2 c.y c.x + I.x - I.z), arctan (c.z / e / e / √(c.x * c.x + c.y * c.y)))

/-- `NODE` — eph.h:20-27 -/
structure Node where
  n : ℕ
  ax : ℝ
  ay : ℝ
  bx : ℝ
  byy : ℝ
  R1 : ℝ
  R2 : ℝ

/-- `lineOvl` — eph.cpp:361-379 -/
noncomputable def lineOvl (x1 y1 dx dy r ba : ℝ) : Node :=
  let f := ba * ba
  let A := dx * dx + dy * dy / f
  let B := x1 * dx + y1 * dy / f
  let C := x1 * x1 + y1 * y1 / f - r * r
  let D := B * B - A * C
  if D < 0 then ⟨0, 0, 0, 0, 0, 0, 0⟩
  else
    let n := if D = 0 then 1 else 2
    let D := √D
    let t1 := (-B + D) / A
    let t2 := (-B - D) / A
    let L := √(dx * dx + dy * dy)
    ⟨n, x1 + dx * t1, y1 + dy * t1, x1 + dx * t2, y1 + dy * t2, L * |t1|, L * |t2|⟩

/-- one round of the loop of `cirOvl` — eph.cpp:348-356: the new `cosA`, `sinA` and the point, or nothing -/
noncomputable def cirRound (R ba R2 d sinB cosB cosA sinA k : ℝ) : Option (ℝ × ℝ × ℝ × ℝ) :=
  let S := cosA * sinB + sinA * cosB * k
  let g := R - S * S * (1 / (ba * ba) - 1) / 2
  let cosA := (g * g + d * d - R2 * R2) / (2 * d * g)
  if 1 < |cosA| then none
  else
    let sinA := √(1 - cosA * cosA)
    let C := cosA * cosB - sinA * sinB * k
    let S := cosA * sinB + sinA * cosB * k
    some (cosA, sinA, g * C, g * S)

/-- `cirOvl` — eph.cpp:336-359 (`R1`, `R2` stay 0) -/
noncomputable def cirOvl (R ba R2 x0 y0 : ℝ) : Node :=
  let none' : Node := ⟨0, 0, 0, 0, 0, 0, 0⟩
  let d := √(x0 * x0 + y0 * y0)
  let sinB := y0 / d
  let cosB := x0 / d
  let cosA := (R * R + d * d - R2 * R2) / (2 * d * R)
  if 1 < |cosA| then none'
  else
    let sinA := √(1 - cosA * cosA)
    match cirRound R ba R2 d sinB cosB cosA sinA (-1) with
    | none => none'
    | some (cosA, sinA, bx, byy) =>
      match cirRound R ba R2 d sinB cosB cosA sinA 1 with
      | none => ⟨0, 0, 0, bx, byy, 0, 0⟩
      | some (_, _, ax, ay) => ⟨2, ax, ay, bx, byy, 0, 0⟩

/-- `lineT(G, v, u, r, n)` — eph_yspl.cpp:9-15, the same as eph_rspl.cpp:60-70; `x`, `y`, `t` are the members of `G` -/
noncomputable def lineT (x y t v u r : ℝ) (n : Bool) : ℝ :=
  let b := y * v - x * u
  let A := u * u + v * v
  let B := u * b
  let C := b * b - r * r * v * v
  let D := B * B - A * C
  if D < 0 then 0
  else
    let D := √D
    let D := if n then D else -D
    t + ((-B + D) / A - x) / v

end Verif.Geom
