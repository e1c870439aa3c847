import Mathlib.Analysis.SpecialFunctions.Trigonometric.Basic
import Verif.Geom

/-!
# Apsides, nodes, elongations, stationary points, conjunctions — /repo/eph/eph0.cpp:666-747, eph.cpp:31-64, 85-129, 189-215

Exact arithmetic on `ℝ`.  The ephemeris is a parameter: a function of the number of terms (or of the precision) and the instant.
-/

namespace Verif.Apsides

open Real

/-- `b + a * int2((t - b) / a + 0.5)`: the mean event next to `t` — eph0.cpp:673, 702, 726, eph.cpp:50 -/
noncomputable def nearest (a b t : ℝ) : ℝ := b + a * ⌊(t - b) / a + 0.5⌋

/-- one round through three points: the instant at the middle, the three values — e.g. eph0.cpp:677-680 -/
structure Three where
  t : ℝ
  r1 : ℝ
  r2 : ℝ
  r3 : ℝ

/-- the three values around `t` -/
noncomputable def three (f : ℝ → ℝ) (t dt : ℝ) : Three := ⟨t, f (t - dt), f t, f (t + dt)⟩

/-- `t += (r1 - r3) / (r1 + r3 - 2 * r2) * dt / 2` — e.g. eph0.cpp:680 -/
noncomputable def Three.top (p : Three) (dt : ℝ) : ℝ := p.t + (p.r1 - p.r3) / (p.r1 + p.r3 - 2 * p.r2) * dt / 2

/-- `r2 += (r1 - r3) / (r1 + r3 - 2 * r2) * (r3 - r1) / 8` — eph0.cpp:691, 745, eph.cpp:62 -/
noncomputable def Three.value (p : Three) : ℝ := p.r2 + (p.r1 - p.r3) / (p.r1 + p.r3 - 2 * p.r2) * (p.r3 - p.r1) / 8

/-- `moonMinR(t, min)` — eph0.cpp:666-693; `r n t` is `XL1_calc(2, t, n)`, the distance of the moon -/
noncomputable def moonMinR (r : ℤ → ℝ → ℝ) (t : ℝ) (min : Bool) : ℝ × ℝ :=
  let a := 27.55454988 / 36525
  let b := if min then -10.3302 / 36525 else 3.4471 / 36525
  let t := nearest a b t
  let dt := 2 / 36525
  let t := (three (r 10) t dt).top dt
  let dt := 0.5 / 36525
  let t := (three (r 20) t dt).top dt
  let dt := 1200 / 86400 / 36525
  let p := three (r (-1)) t dt
  (p.top dt, p.value)

/-- `earthMinR(t, min)` — eph0.cpp:719-747; `r n t` is `XL0_calc(0, 2, t, n)`, the distance of the Earth from the sun -/
noncomputable def earthMinR (r : ℤ → ℝ → ℝ) (t : ℝ) (min : Bool) : ℝ × ℝ :=
  let a := 365.25963586 / 36525
  let b := if min then 1.7 / 36525 else 184.5 / 36525
  let t := nearest a b t
  let dt := 3 / 36525
  let t := (three (r 10) t dt).top dt
  let dt := 0.2 / 36525
  let t := (three (r 80) t dt).top dt
  let dt := 0.01 / 36525
  let p := three (r (-1)) t dt
  (p.top dt, p.value)

/-- `daJu(xt, t, dx)` — eph.cpp:31-64, for `xt` = 1 (Mercury) or 2 (Venus); `r i t` is `xingJJ(xt, t, i)`, the elongation.  (For any other `xt` the period `a` is 0
and line 50 converts an infinite or undefined quotient to `int`.) -/
noncomputable def daJu (venus : Bool) (r : ℕ → ℝ → ℝ) (t : ℝ) (dx : Bool) : ℝ × ℝ :=
  let a := if venus then 583.9213708245 / 36525 else 115.8774777586 / 36525
  let c0 := if venus then 4 else 2
  let c3 := if venus then 382 else 46
  let c4 := if venus then 521 else 87
  let b := if dx then c3 / 36525 else c4 / 36525
  let t := nearest a b t
  let dt := c0 / 36525
  let t := (three (r 0) t dt).top dt
  let dt := 0.2 / 36525
  let t := (three (r 1) t dt).top dt
  let dt := 0.01 / 36525
  let p := three (r 2) t dt
  (p.top dt, p.value)

/-- the second half of `xingLiu` — eph.cpp:116-128: four rounds from the instant `t`; `z n g t` is `xingLiu0(xt, t, n, g)`, apparent right ascension, declination and
distance with the light time `g`, `agx` is `cs_Agx`; the first half (lines 90-115) gives the start -/
noncomputable def liuRounds (z : ℤ → ℝ → ℝ → Verif.Geom.V3) (agx t : ℝ) : ℝ :=
  let f := fun t => (z 8 0 t).x
  let t := (three f t (5 / 36525)).top (5 / 36525)
  let t := (three f t (1 / 36525)).top (1 / 36525)
  let g := (z 8 0 t).z * agx
  let t := (three f t (0.5 / 36525)).top (0.5 / 36525)
  (three (fun t => (z (-1) g t).x) t 2e-6).top 2e-6

/-- one secant round: speed from `w(t)`, `w(t + dt)` — eph0.cpp:705-708 -/
noncomputable def secant (w : ℝ → ℝ) (t dt : ℝ) : ℝ := t - w t / ((w (t + dt) - w t) / dt)

/-- `moonNode(t, asc)` — eph0.cpp:695-717; `w n t` is `XL1_calc(1, t, n)`, the latitude of the moon, `l` is `XL1_calc(0, t, -1)`, its longitude -/
noncomputable def moonNode (w : ℤ → ℝ → ℝ) (l : ℝ → ℝ) (t : ℝ) (asc : Bool) : ℝ × ℝ :=
  let a := 27.21222082 / 36525
  let b := if asc then 21 / 36525 else 35 / 36525
  let t := nearest a b t
  let dt := 0.5 / 36525
  let t := secant (w 10) t dt
  let dt := 0.05 / 36525
  let v := (w 40 (t + dt) - w 40 t) / dt
  let t := t - w 40 t / v
  let t := t - w (-1) t / v
  (t, l t)

/-- the second half of `xingHR` — eph.cpp:206-214, from the instant `t`: `sp n ts tp t` is `xingSP(xt, t, n, w1, ts, tp)`: difference of apparent longitudes less `w1`, of
latitudes, light times of sun and planet -/
noncomputable def hrRounds (sp : ℤ → ℝ → ℝ → ℝ → ℝ × ℝ × ℝ × ℝ) (t : ℝ) : ℝ × ℝ :=
  let dt := 2e-5
  let a := sp 8 0 0 t
  let b := sp 8 0 0 (t + dt)
  let v := (b.1 - a.1) / dt
  let a := sp 40 a.2.2.1 a.2.2.2 t
  let t := t - a.1 / v
  let a := sp (-1) a.2.2.1 a.2.2.2 t
  let t := t - a.1 / v
  (t, a.2.1)

/-- `t -= rad2rrad(D(t) - w0) / v`, `n` times — eph.cpp:93-94, 200-201 with the mean speed `v`; eph.cpp:151-155 with `v` = 8192 -/
noncomputable def meanRounds (D : ℝ → ℝ) (w0 v : ℝ) : ℕ → ℝ → ℝ
  | 0, t => t
  | n + 1, t => meanRounds D w0 v n (t - Verif.Geom.rrad (D t - w0) / v)

/-- `cs_xxHH`, synodic periods in days, `xt` = 1 … 8 — eph0.h:29 -/
def synodic : ℕ → ℝ
  | 1 => 116
  | 2 => 584
  | 3 => 780
  | 4 => 399
  | 5 => 378
  | 6 => 370
  | _ => 367

/-- mean speed of the planet's longitude relative to the Earth's, per century — eph.cpp:89-92, 197-199 -/
noncomputable def meanSpeed (xt : ℕ) : ℝ := if xt > 2 then -(2 * π / (synodic xt / 36525)) else 2 * π / (synodic xt / 36525)

/-- days from the opposition (lower conjunction) to the station — eph.cpp:98 -/
noncomputable def toStation : ℕ → ℝ
  | 1 => 17.4
  | 2 => 28
  | 3 => 52
  | 4 => 82
  | 5 => 86
  | 6 => 88
  | 7 => 89
  | _ => 90

/-- `xingLiu(xt, t, sn)` — eph.cpp:85-129; `D` is the difference of the heliocentric longitudes, planet less Earth, by eight terms -/
noncomputable def xingLiu (xt : ℕ) (D : ℝ → ℝ) (z : ℤ → ℝ → ℝ → Verif.Geom.V3) (agx t : ℝ) (sn : Bool) : ℝ :=
  let t := meanRounds D 0 (meanSpeed xt) 6 t
  let tc := toStation xt / 36525
  let t := if sn then (if xt > 2 then t - tc else t + tc) else (if xt > 2 then t + tc else t - tc)
  liuRounds z agx t

/-- `xingHR(xt, t, f)` — eph.cpp:189-215; `sp w1` is `xingSP` with its argument `w1` -/
noncomputable def xingHR (xt : ℕ) (D : ℝ → ℝ) (sp : ℝ → ℤ → ℝ → ℝ → ℝ → ℝ × ℝ × ℝ × ℝ) (t : ℝ) (f : Bool) : ℝ × ℝ :=
  let w0 := if f then 0 else π
  let w1 := if f then (if xt > 2 then π else 0) else 0
  hrRounds (sp w1) (meanRounds D w0 (meanSpeed xt) 6 t)

/-- the last part of `xingHY` — eph.cpp:160-171: `mp n t` is `xingMP(xt, t, n, E, g)` with the obliquity, light times and nutation already found: difference of right
ascensions, of declinations -/
noncomputable def hyRounds (mp : ℤ → ℝ → ℝ × ℝ) (t : ℝ) : ℝ × ℝ :=
  let v := ((mp 8 (t + 1e-6)).1 - (mp 8 t).1) / 1e-6
  let t := t - (mp 30 t).1 / v
  let d := mp (-1) t
  (t - d.1 / v, d.2)

/-- `xingHY(xt, t)` — eph.cpp:147-172: three rounds with the speed 8192 on the difference `D` of right ascensions without corrections, then the rounds above; `mp t₀` is `xingMP` with
the obliquity and nutation of `t₀` and the light times of the third round (eph.cpp:156-158; the light times are those of the instant before it was corrected) -/
noncomputable def xingHY (D : ℝ → ℝ) (mp : ℝ → ℝ → ℤ → ℝ → ℝ × ℝ) (t : ℝ) : ℝ × ℝ :=
  let t2 := meanRounds D 0 8192 2 t
  let t3 := meanRounds D 0 8192 3 t
  hyRounds (mp t2 t3) t3

end Verif.Apsides
