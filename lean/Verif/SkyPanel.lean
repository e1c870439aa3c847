import Verif.Precession

/-!
# The sun and moon panel — /repo/eph/eph_msc.cpp:59-187, /repo/eph/eph0.cpp:287-290, /repo/eph/eph.cpp:322-334

Exact arithmetic on `ℝ` (see `Verif/Geom.lean`).  The ephemeris is a parameter (`SkyEnv`).
-/

namespace Verif.Geom

open Real Verif.Precession

/-- `MQC(h)`: refraction for the true altitude `h` — eph0.cpp:287-290 -/
noncomputable def mqc (h : ℝ) : ℝ := 0.0002967 / tan (h + 0.003138 / (h + 0.08919))

/-- `lineEar(P, Q, gst)` — eph.cpp:322-334: the intersection and the geographic longitude and latitude (100, 100 without one) -/
noncomputable def lineEar (P Q : V3) (gst : ℝ) : CoordP × ℝ × ℝ :=
  let p := llr2xyz P
  let q := llr2xyz Q
  let r := lineEll p q ba rEar
  if r.D < 0 then (r, 100, 100)
  else (r, rrad (atan2 r.y r.x - gst), arctan (r.z / (ba * ba) / √(r.x * r.x + r.y * r.y)))

/-- the ephemeris: everything `MSC::calc` reads from other modules -/
structure SkyEnv where
  /-- `dt_T` -/
  dtT : ℝ → ℝ
  /-- `nutation2` -/
  nut : ℝ → ℝ × ℝ
  /-- `hcjj` -/
  hcjj : ℝ → ℝ
  /-- `pGST` -/
  pGST : ℝ → ℝ → ℝ
  /-- `m_coord(T,-1,-1,-1)`, distance in kilometres -/
  moon : ℝ → V3
  gxcMoonLon : ℝ → ℝ
  gxcMoonLat : ℝ → ℝ
  /-- `e_coord(T,-1,-1,-1)`, distance in astronomical units -/
  earth : ℝ → V3
  gxcSunLon : ℝ → ℝ
  gxcSunLat : ℝ → ℝ
  /-- `moonIll` -/
  moonIll : ℝ → ℝ

/-- the members `mHJ … mPW` (or `sHJ … sPW`) of `MSC` — eph_msc.h -/
structure SkyBody where
  /-- apparent ecliptic coordinates and distance -/
  HJ : ℝ
  HW : ℝ
  R : ℝ
  /-- apparent equatorial coordinates -/
  CJ : ℝ
  CW : ℝ
  /-- hour angle -/
  ShiJ : ℝ
  /-- equatorial coordinates seen from the site -/
  CJ2 : ℝ
  CW2 : ℝ
  R2 : ℝ
  /-- azimuth and altitude -/
  DJ : ℝ
  DW : ℝ
  /-- azimuth and altitude with refraction -/
  PJ : ℝ
  PW : ℝ

/-- the block for one body — eph_msc.cpp:79-107 (moon), 114-146 (sun); the two blocks are the same code on different members, modelled
once -/
noncomputable def skyBody (z : V3) (E gst L fa high : ℝ) : SkyBody :=
  let HJ := z.x
  let HW := z.y
  let R := z.z
  let z := llrConv z E
  let CJ := z.x
  let CW := z.y
  let S := mrad (gst + L - z.x)
  let ShiJ := if S > π then S - 2 * π else S
  let z := parallax z ShiJ fa high
  let CJ2 := z.x
  let CW2 := z.y
  let R2 := z.z
  let z : V3 := ⟨z.x + (π / 2 - gst - L), z.y, z.z⟩
  let z := llrConv z (π / 2 - fa)
  let z : V3 := ⟨mrad (π / 2 - z.x), z.y, z.z⟩
  let DJ := z.x
  let DW := z.y
  let z : V3 := if z.y > 0 then ⟨z.x, z.y + mqc z.y, z.z⟩ else z
  ⟨HJ, HW, R, CJ, CW, ShiJ, CJ2, CW2, R2, DJ, DW, z.x, z.y⟩

/-- the static members of `MSC` — eph_msc.cpp:7-57 -/
structure Msc where
  T : ℝ
  L : ℝ
  fa : ℝ
  dt : ℝ
  jd : ℝ
  dL : ℝ
  dE : ℝ
  E : ℝ
  gst : ℝ
  m : SkyBody
  s : SkyBody
  sc : ℝ
  pty : ℝ
  zty : ℝ
  mRad : ℝ
  sRad : ℝ
  e_mRad : ℝ
  eShadow : ℝ
  eShadow2 : ℝ
  mIll : ℝ
  zx_J : ℝ
  zx_W : ℝ

/-- `rad`, `cs_rEarA`, `cs_sMoon` — eph0.h:8, 16, 25 -/
noncomputable def arcsec : ℝ := 180 * 3600 / π
noncomputable def rEarA : ℝ := 0.99834 * rEar
noncomputable def sMoon : ℝ := 0.2725076 * rEar * 1.0000036 * arcsec

/-- the mean longitude of the sun used for the equation of time — eph_msc.cpp:149-150 -/
noncomputable def meanSun (T : ℝ) : ℝ :=
  let t := T / 10
  let t2 := t * t
  let t3 := t2 * t
  let t4 := t3 * t
  let t5 := t4 * t
  (1753470142 + 6283319653318 * t + 529674 * t2 + 432 * t3 - 1124 * t4 - 9 * t5) / 1000000000 + π - 20.5 / arcsec

/-- `MSC::calc(T, L, fa, high)` — eph_msc.cpp:59-181 -/
noncomputable def mscCalc (e : SkyEnv) (c : Msc) (T L fa high : ℝ) : Msc :=
  let c : Msc := { c with T := T, L := L, fa := fa }
  let c : Msc := { c with dt := e.dtT T }
  let c : Msc := { c with jd := T - c.dt }
  let T := T / 36525
  let zd := e.nut T
  let c : Msc := { c with dL := zd.1 }
  let c : Msc := { c with dE := zd.2 }
  let c : Msc := { c with E := e.hcjj T + c.dE }
  let c : Msc := { c with gst := e.pGST c.jd c.dt + c.dL * cos c.E }
  let z := e.moon T
  let z : V3 := ⟨mrad (z.x + e.gxcMoonLon T + c.dL), z.y, z.z⟩
  let z : V3 := ⟨z.x, z.y + e.gxcMoonLat T, z.z⟩
  let c : Msc := { c with m := skyBody z c.E c.gst L fa high }
  let z := e.earth T
  let z : V3 := ⟨mrad (z.x + π + e.gxcSunLon T + c.dL), z.y, z.z⟩
  let z : V3 := ⟨z.x, -z.y + e.gxcSunLat T, z.z⟩
  let c : Msc := { c with s := skyBody z c.E c.gst L fa high }
  let Lon := meanSun T
  let Lon := mrad (Lon - (c.s.CJ - c.dL * cos c.E))
  let Lon := if Lon > π then Lon - 2 * π else Lon
  let c : Msc := { c with sc := Lon / (2 * π) }
  let c : Msc := { c with pty := c.jd + L / (2 * π) }
  let c : Msc := { c with zty := c.jd + L / (2 * π) + c.sc }
  let c : Msc := { c with mRad := sMoon / c.m.R2 }
  let c : Msc := { c with sRad := 959.63 / c.s.R2 }
  let c : Msc := { c with e_mRad := sMoon / c.m.R }
  let c : Msc := { c with eShadow := (rEarA / c.m.R * arcsec - (959.63 - 8.794) / c.s.R) * 51 / 50 }
  let c : Msc := { c with eShadow2 := (rEarA / c.m.R * arcsec + (959.63 + 8.794) / c.s.R) * 51 / 50 }
  let c : Msc := { c with mIll := e.moonIll T }
  let pp : ℝ × ℝ := if |rrad (c.m.CJ - c.s.CJ)| < 50 / 180 * π then
      (lineEar ⟨c.m.CJ, c.m.CW, c.m.R⟩ ⟨c.s.CJ, c.s.CW, c.s.R * AU⟩ c.gst).2
    else (100, 100)
  let c : Msc := { c with zx_J := pp.1 }
  { c with zx_W := pp.2 }

end Verif.Geom
