import Verif.Geom

/-!
# Local circumstances of a solar eclipse — /repo/eph/eph_rspl.cpp:60-195 and /repo/eph/eph0.cpp:756-776

Exact arithmetic on `ℝ` (see `Verif/Geom.lean`).  The ephemeris is a parameter (`PlEnv`): the position of the moon relative to the sun
and the two radii as seen from the site (`secXY`, eph_rspl.cpp:32-58), ΔT, the parallactic angle and the sun's rough place used by
`sunShengJ`.  The site (`L`, `fa`, `high`) is fixed in the environment.
-/

namespace Verif.Geom

open Real

/-- `_SECXY` — eph_rspl.h: the members `secMax` reads -/
structure Sec where
  x : ℝ
  y : ℝ
  mr : ℝ
  sr : ℝ
  sCJ : ℝ
  sCW : ℝ
  t : ℝ

/-- what `sunShengJ` computes from its argument before it looks at the horizon — eph0.cpp:761-769: sidereal time, right ascension,
declination of the sun -/
structure SunPlace where
  gst : ℝ
  A : ℝ
  D : ℝ

/-- one round of the loop of `sunShengJ` — eph0.cpp:760-773; `none` is `return 0` -/
noncomputable def shengRound (sun : ℝ → SunPlace) (L fa sj jd : ℝ) : Option ℝ :=
  let p := sun jd
  let cosH0 := (sin (-50 * 60 / (180 * 3600 / π)) - sin fa * sin p.D) / (cos fa * cos p.D)
  if |cosH0| ≥ 1 then none
  else some (jd + rrad (sj * arccos cosH0 - (p.gst + L - p.A)) / 6.28)

/-- `sunShengJ(jd, L, fa, sj)` — eph0.cpp:756-776 -/
noncomputable def sunShengJ (sun : ℝ → SunPlace) (L fa : ℝ) (jd sj : ℝ) : ℝ :=
  let jd := ⌊jd + 0.5⌋ - L / (2 * π)
  match shengRound sun L fa sj jd with
  | none => 0
  | some jd =>
    match shengRound sun L fa sj jd with
    | none => 0
    | some jd => jd

/-- the ephemeris and the site -/
structure PlEnv where
  /-- centre of the interpolation table after `RS_GS::init(jd,7)` — eph_rspl.cpp:86-87 -/
  near : ℝ → ℝ
  /-- `secXY` — eph_rspl.cpp:32-58 -/
  secXY : ℝ → Sec
  /-- `re.t = jd` — eph_rspl.cpp:57 -/
  time : ∀ t, (secXY t).t = t
  /-- `dt_T` — eph0.cpp:196-204 -/
  dtT : ℝ → ℝ
  sun : ℝ → SunPlace
  L : ℝ
  fa : ℝ
  /-- `shiChaJ(pGST2(t), L, fa, sCJ, sCW)` — eph0.cpp:135-141 -/
  viewJ : ℝ → ℝ → ℝ → ℝ

/-- the static members of `RS_PL` set by `secMax` — eph_rspl.cpp:8-22 -/
structure Pl where
  sT : Fin 5 → ℝ
  LX : String
  sf : ℝ
  sf2 : ℝ
  sf3 : ℝ
  sflx : String
  b1 : ℝ
  dur : ℝ
  sun_s : ℝ
  sun_j : ℝ
  P1 : ℝ
  V1 : ℝ
  P2 : ℝ
  V2 : ℝ

/-- assignment to one element of `sT` -/
def Pl.set (s : Pl) (i : Fin 5) (t : ℝ) : Pl := { s with sT := fun j => if j = i then t else s.sT j }

/-- `(g.mr+g.sr-sqrt(g.x*g.x+g.y*g.y))/g.sr/2` — eph_rspl.cpp:111 -/
noncomputable def Sec.depth (g : Sec) : ℝ := (g.mr + g.sr - √(g.x * g.x + g.y * g.y)) / g.sr / 2

/-- `RS_PL::lineT(G,v,u,r,n)` — eph_rspl.cpp:60-71 -/
noncomputable def Sec.line (G : Sec) (v u r : ℝ) (n : Bool) : ℝ := lineT G.x G.y G.t v u r n

/-- one approach to the instant of least distance — eph_rspl.cpp:96-101; the pair `(u, v)` and the new `jd` -/
noncomputable def PlEnv.approach (e : PlEnv) (jd : ℝ) : ℝ × ℝ × ℝ :=
  let dt : ℝ := 60 / 86400
  let G := e.secXY jd
  let g := e.secXY (jd + dt)
  let u := (g.y - G.y) / dt
  let v := (g.x - G.x) / dt
  let dt2 := -(G.y * u + G.x * v) / (u * u + v * v)
  (u, v, jd + dt2)

/-- one step of the scans — eph_rspl.cpp:109-112, 116-119: state `(maxsf, maxjd)` -/
noncomputable def PlEnv.probe (e : PlEnv) (jd : ℝ) (m : ℝ × ℝ) (i : ℤ) : ℝ × ℝ :=
  let tt := jd + i / 86400
  let ls := (e.secXY tt).depth
  if ls > m.1 then (ls, tt) else m

/-- the offsets in seconds of the first scan, `for (i = -30; i < 30; i += 6)` — eph_rspl.cpp:108 -/
def coarse : List ℤ := [-30, -24, -18, -12, -6, 0, 6, 12, 18, 24]

/-- the offsets of the second scan, `for (i = -5; i < 5; i += 1)` — eph_rspl.cpp:115 -/
def fine : List ℤ := [-5, -4, -3, -2, -1, 0, 1, 2, 3, 4]

/-- the two approaches and the two scans — eph_rspl.cpp:86-121: `(u, v, jd)` -/
noncomputable def PlEnv.greatest (e : PlEnv) (jd : ℝ) : ℝ × ℝ × ℝ :=
  let jd := e.near jd
  let G := e.secXY jd
  let jd := jd - G.x / 0.2128
  let p := e.approach jd
  let p := e.approach p.2.2
  let jd := p.2.2
  let m : ℝ × ℝ := (0, jd)
  let m := coarse.foldl (e.probe jd) m
  let m := fine.foldl (e.probe m.2) m
  (p.1, p.2.1, m.2)

/-- a contact of the outer kind: `lineT` and three recalculations — eph_rspl.cpp:143-148, 153-158; the time and the last `g` -/
noncomputable def PlEnv.contact3 (e : PlEnv) (G : Sec) (v u : ℝ) (rad : Sec → ℝ) (n : Bool) : ℝ × Sec :=
  let t := G.line v u (rad G) n
  let g := e.secXY t
  let t := g.line v u (rad g) n
  let g := e.secXY t
  let t := g.line v u (rad g) n
  let g := e.secXY t
  let t := g.line v u (rad g) n
  (t, g)

/-- a contact of the inner kind: `lineT` and one recalculation — eph_rspl.cpp:164-166 -/
noncomputable def PlEnv.contact1 (e : PlEnv) (G : Sec) (v u : ℝ) (rad : Sec → ℝ) (n : Bool) : ℝ :=
  let t := G.line v u (rad G) n
  let g := e.secXY t
  g.line v u (rad g) n

/-- the members are reset — eph_rspl.cpp:75-85 -/
def Pl.reset (s : Pl) : Pl :=
  let s : Pl := { s with sT := fun _ => 0 }
  let s : Pl := { s with LX := "" }
  let s : Pl := { s with sf := 0 }
  let s : Pl := { s with b1 := 1 }
  let s : Pl := { s with dur := 0 }
  let s : Pl := { s with P1 := 0, V1 := 0 }
  let s : Pl := { s with P2 := 0, V2 := 0 }
  let s : Pl := { s with sun_s := 0, sun_j := 0 }
  let s : Pl := { s with sf2 := 0 }
  let s : Pl := { s with sf3 := 0 }
  { s with sflx := " " }

/-- the block `if(rmin<=G.mr+G.sr)` — eph_rspl.cpp:128-161 -/
noncomputable def PlEnv.partialStage (e : PlEnv) (G : Sec) (u v jd rmin : ℝ) (s : Pl) : Pl :=
  if rmin ≤ G.mr + G.sr then
    let s := s.set 1 jd
    let s : Pl := { s with LX := "偏" }
    let s : Pl := { s with sf := (G.mr + G.sr - rmin) / G.sr / 2 }
    let s : Pl := { s with b1 := G.mr / G.sr }
    let g := e.secXY s.sun_s
    let s : Pl := { s with sf2 := g.depth }
    let s : Pl := if s.sf2 < 0 then { s with sf2 := 0 } else s
    let g := e.secXY s.sun_j
    let s : Pl := { s with sf3 := g.depth }
    let s : Pl := if s.sf3 < 0 then { s with sf3 := 0 } else s
    let c := e.contact3 G v u (fun g => g.mr + g.sr) false
    let s := s.set 0 c.1
    let s : Pl := { s with P1 := mrad (atan2 c.2.x c.2.y) }
    let s : Pl := { s with V1 := mrad (s.P1 - e.viewJ (s.sT 0) c.2.sCJ c.2.sCW) }
    let c := e.contact3 G v u (fun g => g.mr + g.sr) true
    let s := s.set 2 c.1
    let s : Pl := { s with P2 := mrad (atan2 c.2.x c.2.y) }
    { s with V2 := mrad (s.P2 - e.viewJ (s.sT 2) c.2.sCJ c.2.sCW) }
  else s

/-- the block `if(rmin<=G.mr-G.sr)` — eph_rspl.cpp:162-172 -/
noncomputable def PlEnv.totalStage (e : PlEnv) (G : Sec) (u v rmin : ℝ) (s : Pl) : Pl :=
  if rmin ≤ G.mr - G.sr then
    let s : Pl := { s with LX := "全" }
    let s := s.set 3 (e.contact1 G v u (fun g => g.mr - g.sr) false)
    let s := s.set 4 (e.contact1 G v u (fun g => g.mr - g.sr) true)
    { s with dur := s.sT 4 - s.sT 3 }
  else s

/-- the block `if(rmin<=G.sr-G.mr)` — eph_rspl.cpp:173-183 -/
noncomputable def PlEnv.ringStage (e : PlEnv) (G : Sec) (u v rmin : ℝ) (s : Pl) : Pl :=
  if rmin ≤ G.sr - G.mr then
    let s : Pl := { s with LX := "环" }
    let s := s.set 3 (e.contact1 G v u (fun g => g.sr - g.mr) false)
    let s := s.set 4 (e.contact1 G v u (fun g => g.sr - g.mr) true)
    { s with dur := s.sT 4 - s.sT 3 }
  else s

/-- magnitude at sunrise or sunset, times outside daylight erased, back to universal time — eph_rspl.cpp:186-194 -/
noncomputable def PlEnv.finish (e : PlEnv) (jd : ℝ) (s : Pl) : Pl :=
  let s : Pl := if s.sT 1 < s.sun_s ∧ s.sf2 > 0 then { s with sf := s.sf2, sflx := "#" } else s
  let s : Pl := if s.sT 1 > s.sun_j ∧ s.sf3 > 0 then { s with sf := s.sf3, sflx := "*" } else s
  let s : Pl := { s with sT := fun i => if s.sT i < s.sun_s ∨ s.sT i > s.sun_j then 0 else s.sT i }
  let s : Pl := { s with sun_s := s.sun_s - e.dtT jd }
  { s with sun_j := s.sun_j - e.dtT jd }

/-- `RS_PL::secMax(jd,L,fa,high)` — eph_rspl.cpp:72-195 -/
noncomputable def secMax (e : PlEnv) (s : Pl) (jd : ℝ) : Pl :=
  let s := s.reset
  let p := e.greatest jd
  let u := p.1
  let v := p.2.1
  let jd := p.2.2
  let G := e.secXY jd
  let rmin := √(G.x * G.x + G.y * G.y)
  let s : Pl := { s with sun_s := sunShengJ e.sun e.L e.fa (jd - e.dtT jd + e.L / (2 * π)) (-1) + e.dtT jd }
  let s : Pl := { s with sun_j := sunShengJ e.sun e.L e.fa (jd - e.dtT jd + e.L / (2 * π)) 1 + e.dtT jd }
  let s := e.partialStage G u v jd rmin s
  let s := e.totalStage G u v rmin s
  let s := e.ringStage G u v rmin s
  e.finish jd s

end Verif.Geom
