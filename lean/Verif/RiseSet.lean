import Verif.Geom
import Mathlib.Data.Int.Interval
import Mathlib.Algebra.Order.Floor.Ring

/-!
# Rising, culmination and setting — /repo/eph/eph_szj.cpp

Exact arithmetic on `ℝ` (see `Verif/Geom.lean`); the ephemeris is a parameter.
-/

namespace Verif.Geom

open Real

/-- `mod2(a, b)` — eph_szj.cpp:14-22 -/
noncomputable def mod2 (a b : ℝ) : ℝ :=
  let c := a / b
  let c := c - ⌊c⌋
  let c := if c > 0.5 then c - 1 else c
  c * b

/-- `SZJ::getH(h, w)` — eph_szj.cpp:24-30; `fa` is the static member -/
noncomputable def getH (fa h w : ℝ) : ℝ :=
  let c := (sin h - sin fa * sin w) / cos fa / cos w
  if |c| > 1 then π else arccos c

/-- `SJ` — eph_szj.h:4-23 (the sun's members; `H`, `H1 … H4` are intermediate results of the modelled functions) -/
structure Sj where
  z : ℝ
  x : ℝ
  s : ℝ
  j : ℝ
  c : ℝ
  h : ℝ
  c2 : ℝ
  h2 : ℝ
  c3 : ℝ
  h3 : ℝ
  sm : String

/-- the hour angle of the body for a site and its declination at an instant, before reduction: `pGST(jd, dt) + L - z[0]` and `z[1]` — eph_szj.cpp:33-37, 68-70 -/
structure Body where
  H : ℝ → ℝ
  dec : ℝ → ℝ

/-- altitudes — eph_szj.cpp:72-79: 50′, 6°, 12°, 18° below the horizon (`rad` = 180·3600/π, eph0.h) -/
noncomputable def alt (arcsec : ℝ) : ℝ := arcsec / (180 * 3600 / π)

/-- one refined time — e.g. eph_szj.cpp:91-92, 105-106: the first estimate from the hour angle at `jd`, then one correction reduced to (-π, π]; `sgn` is −1 for rising, +1 for setting -/
noncomputable def refine (b : Body) (sv jd : ℝ) (Hx : ℝ → ℝ) (sgn : ℝ) : ℝ :=
  let r := jd + (sgn * Hx jd - rrad (b.H jd)) / sv
  r + rrad (sgn * Hx r - rrad (b.H r)) / sv

open Classical in
/-- the remark for one time — e.g. eph_szj.cpp:107-108: the hour angle computed at the first estimate is `M_PI` -/
noncomputable def remark (b : Body) (sv jd : ℝ) (Hx : ℝ → ℝ) (sgn : ℝ) (text : String) : String :=
  if Hx (jd + (sgn * Hx jd - rrad (b.H jd)) / sv) = π then text else ""

/-- `SZJ::St(jd)` — eph_szj.cpp:82-144; `L`, `fa` are the static members.  The corrections of the upper culmination (line 140) are not reduced. -/
noncomputable def St (b : Body) (L fa jd : ℝ) : Sj :=
  let jd := jd - mod2 (jd + L / (2 * π)) 1
  let sv := 2 * π
  let H1 := fun t => getH fa (alt (-50 * 60)) (b.dec t)
  let H2 := fun t => getH fa (alt (-6 * 3600)) (b.dec t)
  let H3 := fun t => getH fa (alt (-12 * 3600)) (b.dec t)
  let H4 := fun t => getH fa (alt (-18 * 3600)) (b.dec t)
  let z := jd + (0 - rrad (b.H jd)) / sv
  let x := jd + (π - rrad (b.H jd)) / sv
  { s := refine b sv jd H1 (-1)
    j := refine b sv jd H1 1
    c := refine b sv jd H2 (-1)
    h := refine b sv jd H2 1
    c2 := refine b sv jd H3 (-1)
    h2 := refine b sv jd H3 1
    c3 := refine b sv jd H4 (-1)
    h3 := refine b sv jd H4 1
    z := z + (0 - rrad (b.H z)) / sv
    x := x + rrad (π - rrad (b.H x)) / sv
    sm := remark b sv jd H1 (-1) "无升起." ++ remark b sv jd H1 1 "无降落." ++ remark b sv jd H2 (-1) "无民用晨." ++ remark b sv jd H2 1 "无民用昏."
      ++ remark b sv jd H3 (-1) "无航海晨." ++ remark b sv jd H3 1 "无航海昏." ++ remark b sv jd H4 (-1) "无天文晨." ++ remark b sv jd H4 1 "无天文昏." }

/-! ## `SZJ::calcRTS` -/

/-- `SJ_S` — eph_szj.h:25-37 -/
structure Row where
  s : String
  z : String
  j : String
  c : String
  h : String
  ch : String
  sj : String
  Ms : String
  Mz : String
  Mj : String

/-- the default row `{}` -/
def Row.empty : Row := ⟨"", "", "", "", "", "", "", "", "", ""⟩

/-- the times of the moon that `calcRTS` uses: rising, culmination, setting -/
structure MoonTimes where
  s : ℝ
  z : ℝ
  j : ℝ

/-- `rts[i] = …`; `none`: outside the table -/
def setRow (l : List Row) (i : ℕ) (f : Row → Row) : Option (List Row) :=
  (l[i]?).map (fun r => l.set i (f r))

/-- the sun's part of one round — eph_szj.cpp:164-174 -/
noncomputable def sunRow (St : ℝ → Sj) (timeStr : ℝ → String) (jd sq : ℝ) (i : ℕ) (l : List Row) : Option (List Row) :=
  let r := St (jd + i + sq)
  setRow l i (fun row => { row with
    s := timeStr (r.s - sq), z := timeStr (r.z - sq), j := timeStr (r.j - sq), c := timeStr (r.c - sq), h := timeStr (r.h - sq),
    ch := timeStr (r.h - r.c - 0.5), sj := timeStr (r.j - r.s - 0.5) })

/-- one assignment of the moon's part — e.g. eph_szj.cpp:176-178; `c` is an `int`, its value is exact because `jd` is a whole number there (the local noon) -/
noncomputable def moonCell (timeStr : ℝ → String) (jd : ℤ) (sq : ℝ) (n : ℕ) (t : ℝ) (put : String → Row → Row) (l : List Row) : Option (List Row) :=
  let c := ⌊t - sq + 0.5⌋ - jd
  if 0 ≤ c ∧ c < n then setRow l c.toNat (put (timeStr (t - sq))) else some l

/-- one round, `i = -1 … n` — eph_szj.cpp:162-185 -/
noncomputable def rtsRound (St : ℝ → Sj) (Mt : ℝ → MoonTimes) (timeStr : ℝ → String) (jd : ℤ) (sq : ℝ) (n : ℕ) (i : ℤ) (l : List Row) : Option (List Row) := do
  let l ← (if 0 ≤ i ∧ i < n then sunRow St timeStr jd sq i.toNat l else some l)
  let r := Mt (jd + i + sq)
  let l ← moonCell timeStr jd sq n r.s (fun t row => { row with Ms := t }) l
  let l ← moonCell timeStr jd sq n r.z (fun t row => { row with Mz := t }) l
  moonCell timeStr jd sq n r.j (fun t row => { row with Mj := t }) l

/-- all rounds from `i` on -/
noncomputable def rtsLoop (St : ℝ → Sj) (Mt : ℝ → MoonTimes) (timeStr : ℝ → String) (jd : ℤ) (sq : ℝ) (n : ℕ) : ℕ → ℤ → List Row → Option (List Row)
  | 0, _, l => some l
  | k + 1, i, l => do
    let l ← rtsRound St Mt timeStr jd sq n i l
    rtsLoop St Mt timeStr jd sq n k (i + 1) l

/-- `SZJ::calcRTS(jd, n, Jdl, Wdl, sq)` — eph_szj.cpp:146-186.  `St` and `Mt` are the times for the site `(Jdl, Wdl)`; `l` is the static table `rts`; `none`: an access outside it.
The loop of lines 157-161 assigns "--:--:--" to a *copy* of each row (`rr = SZJ::rts[i]`), so that it changes nothing; it does read the rows `0 … n-1`. -/
noncomputable def calcRTS (St : ℝ → Sj) (Mt : ℝ → MoonTimes) (timeStr : ℝ → String) (l : List Row) (jd : ℤ) (n : ℕ) (sq : ℝ) : Option (List Row) :=
  let l := if l.length = 0 then List.replicate 31 Row.empty else l
  let sq := sq / 24
  if l.length < n then none
  else rtsLoop St Mt timeStr jd sq n (n + 2) (-1) l

end Verif.Geom
