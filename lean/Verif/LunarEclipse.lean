import Verif.Geom

/-!
# Lunar eclipse: circumstances and classification — /repo/eph/eph_yspl.cpp:42-103

Exact arithmetic on `ℝ` (see `Verif/Geom.lean`).  The ephemeris is a parameter: `lecXY` gives the position of the moon relative to the
centre of the Earth's shadow and the three radii at an instant (eph_yspl.cpp:17-40), and `near` the first approximation of the
time of greatest eclipse (eph_yspl.cpp:49-60, which uses the ephemeris only).
-/

namespace Verif.Geom

open Real

/-- `RE0` — eph_yspl.h: position, radii of the moon, the umbra and the penumbra, time -/
structure Re0 where
  x : ℝ
  y : ℝ
  mr : ℝ
  er : ℝ
  Er : ℝ
  t : ℝ

/-- the static members `lT`, `LX`, `sf` of `YS_PL` — eph_yspl.cpp:5-7 -/
structure Ys where
  lT : Fin 7 → ℝ
  LX : String
  sf : ℝ

/-- one contact time, computed twice — e.g. eph_yspl.cpp:75-77: `rad` selects the sum or difference of radii -/
noncomputable def contact (lecXY : ℝ → Re0) (G : Re0) (v u : ℝ) (rad : Re0 → ℝ) (n : Bool) : ℝ :=
  let t := lineT G.x G.y G.t v u (rad G) n
  let g := lecXY t
  lineT g.x g.y g.t v u (rad g) n

/-- assignment to one element of `lT` -/
def Ys.set (s : Ys) (i : Fin 7) (t : ℝ) : Ys := { s with lT := fun j => if j = i then t else s.lT j }

/-- `YS_PL::lecMax(jd)` — eph_yspl.cpp:42-103 -/
noncomputable def lecMax (lecXY : ℝ → Re0) (near : ℝ → ℝ) (s : Ys) (jd : ℝ) : Ys :=
  let s : Ys := { s with lT := fun _ => 0 }
  let s : Ys := { s with sf := 0 }
  let s : Ys := { s with LX := "" }
  let jd := near jd
  let dt := 60 / 86400
  let G := lecXY jd
  let g := lecXY (jd + dt)
  let u := (g.y - G.y) / dt
  let v := (g.x - G.x) / dt
  let dt := -(G.y * u + G.x * v) / (u * u + v * v)
  let jd := jd + dt
  let x := G.x + dt * v
  let y := G.y + dt * u
  let rmin := √(x * x + y * y)
  let s : Ys := if rmin ≤ G.mr + G.er then
      let s := s.set 1 jd
      let s : Ys := { s with LX := "偏" }
      let s : Ys := { s with sf := (G.mr + G.er - rmin) / G.mr / 2 }
      let s := s.set 0 (contact lecXY G v u (fun g => g.mr + g.er) false)
      s.set 2 (contact lecXY G v u (fun g => g.mr + g.er) true)
    else s
  let s : Ys := if rmin ≤ G.mr + G.Er then
      let s := s.set 3 (contact lecXY G v u (fun g => g.mr + g.Er) false)
      s.set 4 (contact lecXY G v u (fun g => g.mr + g.Er) true)
    else s
  if rmin ≤ G.er - G.mr then
    let s : Ys := { s with LX := "全" }
    let s := s.set 5 (contact lecXY G v u (fun g => g.er - g.mr) false)
    s.set 6 (contact lecXY G v u (fun g => g.er - g.mr) true)
  else s

end Verif.Geom
