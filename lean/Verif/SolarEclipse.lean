import Verif.Geom

/-!
# Solar eclipses: quick classification, general circumstances, search — /repo/eph/eph.cpp:381-535, eph_rsgs.cpp:123-128,145-153,174-289,
eph_show.cpp:118-151,167

Exact arithmetic on `ℝ` (see `Verif/Geom.lean`).  The ephemeris is a parameter: the moon's latitude and distance, the sun's
distance and the velocities that `ecFast` computes from its series (eph.cpp:384-499), the moon's Bessel coordinates `bseM` and
the direction of the Bessel axis `bse` at an instant (eph_rsgs.cpp:123-128, eph_rsgs.h).
-/

namespace Verif.Geom

open Real

/-! ## `ecFast` -/

/-- what `ecFast` computes from its series — eph.cpp:384-499: the mean new moon, the argument of latitude, the true new moon, latitude and
distance of the moon, distance of the sun (both in Earth radii), velocities per day -/
structure EcIn where
  jd0 : ℝ
  L : ℝ
  jd : ℝ
  mB : ℝ
  mR : ℝ
  sR : ℝ
  vL : ℝ
  vB : ℝ
  vR : ℝ

/-- `_ECFAST` — eph.h -/
structure EcFast where
  jd : ℝ
  jdSuo : ℝ
  ac : Bool
  lx : String

/-- `mk` — eph.cpp:502 -/
noncomputable def kMoon : ℝ := 0.2725076
/-- `sk` — eph.cpp:502 -/
noncomputable def kSun : ℝ := 109.1222

/-- eph.cpp:501: `gm`, the distance of the shadow axis from the centre of the Earth -/
noncomputable def EcIn.gm (i : EcIn) : ℝ := i.mR * sin i.mB * i.vL / √(i.vB * i.vB + i.vL * i.vL)
/-- eph.cpp:503: `f1` -/
noncomputable def EcIn.f1 (i : EcIn) : ℝ := (kSun + kMoon) / (i.sR - i.mR)
/-- eph.cpp:503: `r1`, radius of the penumbra -/
noncomputable def EcIn.r1 (i : EcIn) : ℝ := kMoon + i.f1 * i.mR
/-- eph.cpp:504: `f2` -/
noncomputable def EcIn.f2 (i : EcIn) : ℝ := (kSun - kMoon) / (i.sR - i.mR)
/-- eph.cpp:504: `r2`, radius of the umbra -/
noncomputable def EcIn.r2 (i : EcIn) : ℝ := kMoon - i.f2 * i.mR
/-- eph.cpp:506: `fh2`, height of the vertex of the umbra -/
noncomputable def EcIn.fh2 (i : EcIn) : ℝ := i.mR - kMoon / i.f2
/-- eph.cpp:506: `h` -/
noncomputable def EcIn.h (i : EcIn) : ℝ := if |i.gm| < 1 then √(1 - i.gm * i.gm) else 0

open Classical in
/-- `ecFast(jd)` from line 394 on — eph.cpp:394-535 (`ac` is 0 or 1 in the code) -/
noncomputable def ecFast (i : EcIn) : EcFast :=
  if |sin i.L| > 0.4 then ⟨i.jd0, i.jd0, true, "N"⟩ else
  let b := 0.9972
  let Agm := |i.gm|
  let Ar2 := |i.r2|
  let lx := if i.fh2 < i.h then "T" else "A"
  let ac := true
  let ls1 := Agm - (b + i.r1)
  let ac := if |ls1| < 0.016 then false else ac
  let ls2 := Agm - (b + Ar2)
  let ac := if |ls2| < 0.016 then false else ac
  let ls3 := Agm - b
  let ac := if |ls3| < 0.016 then false else ac
  let ls4 := Agm - (b - Ar2)
  let ac := if |ls4| < 0.016 then false else ac
  if ls1 > 0 then ⟨i.jd, i.jd, ac, "N"⟩
  else if ls2 > 0 then ⟨i.jd, i.jd, ac, "P"⟩
  else if ls3 > 0 then ⟨i.jd, i.jd, ac, lx ++ "0"⟩
  else if ls4 > 0 then ⟨i.jd, i.jd, ac, lx ++ "1"⟩
  else
    let ac := if |i.fh2 - i.h| < 0.019 then false else ac
    if |i.fh2| < i.h then
      let dr := i.vR * i.h / i.vL / i.mR
      let H1 := i.mR - dr - kMoon / i.f2
      let H2 := i.mR + dr - kMoon / i.f2
      let lx := if H1 > 0 then "H3" else lx
      let lx := if H2 > 0 then "H2" else lx
      let lx := if H1 > 0 ∧ H2 > 0 then "H" else lx
      let ac := if |H1| < 0.019 then false else ac
      let ac := if |H2| < 0.019 then false else ac
      ⟨i.jd, i.jd, ac, lx⟩
    else ⟨i.jd, i.jd, ac, lx⟩

/-! ## `RS_GS::feature` -/

/-- `cs_k`, `cs_k2`, `cs_k0`, `cs_ba` — eph0.h:23-25,9 -/
noncomputable def cs_k : ℝ := 0.2725076
noncomputable def cs_k2 : ℝ := 0.2722810
noncomputable def cs_k0 : ℝ := 109.1222
noncomputable def cs_ba : ℝ := 0.99664719

/-- the members of `RS_GS` that `feature` reads — eph_rsgs.cpp:7-16 -/
structure RsState where
  Zjd : ℝ
  dyj : ℝ

/-- `tanf1` — eph_rsgs.cpp:65 -/
noncomputable def RsState.tanf1 (s : RsState) : ℝ := (cs_k0 + cs_k) / s.dyj
/-- `tanf2` — eph_rsgs.cpp:66 -/
noncomputable def RsState.tanf2 (s : RsState) : ℝ := (cs_k0 - cs_k2) / s.dyj

/-- `_RSM` — eph_rsgs.h:18-24 -/
structure Rsm where
  r1 : ℝ
  r2 : ℝ
  ar2 : ℝ
  sf : ℝ

/-- `RS_GS::rSM(mR)` — eph_rsgs.cpp:145-153 -/
noncomputable def RsState.rSM (s : RsState) (mR : ℝ) : Rsm :=
  { r1 := cs_k + s.tanf1 * mR, r2 := cs_k2 - s.tanf2 * mR, ar2 := |cs_k2 - s.tanf2 * mR|, sf := cs_k2 / mR / cs_k0 * (s.dyj + mR) }

/-- the fields of `_FEATURE` computed by the modelled part — eph_rsgs.h:26-64 -/
structure Feature where
  jdSuo : ℝ
  vx : ℝ
  vy : ℝ
  v : ℝ
  jd : ℝ
  xc : ℝ
  yc : ℝ
  zc : ℝ
  D : ℝ
  d : ℝ
  sf : ℝ
  lx : String

open Classical in
/-- magnitude and type — eph_rsgs.cpp:217-226, 245-275: `d` distance of the axis, `zc` height of the moon, `W` and `R2` latitude and distance given by `lineEar2`
(latitude 100: no intersection), `z2`, `z3` the height of the moon when the axis crosses the unit circle -/
noncomputable def RsState.kind (s : RsState) (d zc W R2 z2 z3 : ℝ) : ℝ × String :=
  let Bc := s.rSM zc
  let Bp := if W ≠ 100 then s.rSM (zc - R2) else Bc
  let B2 := if d < 1 then s.rSM z2 else Bc
  let B3 := if d < 1 then s.rSM z3 else Bc
  if W = 100 then
    let sf := (Bc.r1 - (d - 0.9972)) / (Bc.r1 - Bc.r2)
    if d > 0.9972 + Bc.r1 then (sf, "N")
    else if d > 0.9972 + Bc.ar2 then (sf, "P")
    else if Bc.sf < 1 then (sf, "A0") else (sf, "T0")
  else
    let sf := Bp.sf
    if d > 0.9966 - Bp.ar2 then (if Bp.sf < 1 then (sf, "A1") else (sf, "T1"))
    else if Bp.sf ≥ 1 then
      let lx := "H"
      let lx := if B2.sf > 1 then "H2" else lx
      let lx := if B3.sf > 1 then "H3" else lx
      let lx := if B2.sf > 1 ∧ B3.sf > 1 then "T" else lx
      (sf, lx)
    else (sf, "A")

/-- `RS_GS::feature(jd)` — eph_rsgs.cpp:174-289.  Not modelled: the entry and exit places `gk1 … gk5`, the place of greatest eclipse, the horizontal
coordinates, the width and the duration (lines 227-241, 245-249, 260, 278-287).  The argument is ignored by the code too (line 176). -/
noncomputable def feature (s : RsState) (bseM : ℝ → V3) (bse : ℝ → V3) (_jd : ℝ) : Feature :=
  let jd := s.Zjd
  let tg := 0.04
  let a := bseM (jd - tg)
  let b := bseM jd
  let c := bseM (jd + tg)
  let vx := (c.x - a.x) / tg / 2
  let vy := (c.y - a.y) / tg / 2
  let vz := (c.z - a.z) / tg / 2
  let v := √(vx * vx + vy * vy)
  let v2 := v * v
  let t0 := -(b.x * vx + b.y * vy) / v2
  let jdm := jd + t0
  let xc := b.x + vx * t0
  let yc := b.y + vy * t0
  let zc := b.z + vz * t0 - 1.37 * t0 * t0
  let D := (vx * b.y - vy * b.x) / v
  let d := |D|
  let I := bse jdm
  let F := lineEar2 ⟨xc, yc, 2⟩ ⟨xc, yc, 0⟩ cs_ba 1 I
  let dt := √(1 - d * d) / v
  let t2 := t0 - dt
  let t3 := t0 + dt
  let r := s.kind d zc F.2.2 F.1.R2 (t2 * vz + b.z - 1.37 * t2 * t2) (t3 * vz + b.z - 1.37 * t3 * t3)
  ⟨jd, vx, vy, v, jdm, xc, yc, zc, D, d, r.1, r.2⟩

/-! ## The labels and the search -/

/-- `lxb` — eph_show.cpp:167 -/
def lxb : List (String × String) :=
  [("T", "全食"), ("A", "环食"), ("P", "偏食"), ("T0", "无中心全食"), ("T1", "部分本影有中心全食"), ("A0", "无中心环食"),
   ("A1", "部分伪本影有中心全食"), ("H", "全环全"), ("H2", "全全环"), ("H3", "环全全")]

/-- state of the loop of `rs_search`: `jd`, `k`, `s`, `s2` -/
structure Search where
  jd : ℝ
  k : ℕ
  s : List Char
  s2 : List Char

/-- one round of the loop of `rs_search` — eph_show.cpp:127-148: `fast` is `ecFast`, `full` the pair `init`, `feature` of the chosen precision (time,
time of new moon and type), `date` is `JD2str(r.jd + J2000).substr(0, 11)` -/
noncomputable def searchStep (fast : ℝ → EcFast) (full : ℝ → ℝ × ℝ × String) (date : ℝ → List Char) (q : Search) : Search :=
  let r := fast q.jd
  if r.lx = "NN" then { q with jd := q.jd + 29.5306 }
  else
    let r : EcFast := if r.ac then r else ⟨(full q.jd).1, (full q.jd).2.1, r.ac, (full q.jd).2.2⟩
    let q : Search := if r.lx ≠ "N" then
        let s := q.s ++ date r.jd
        let s := s ++ r.lx.toList
        let k := q.k + 1
        let s := if k % 5 = 0 then s ++ ['\n'] else s
        if k % 100 = 0 then { q with k := k, s := [], s2 := q.s2 ++ s } else { q with k := k, s := s }
      else q
    { q with jd := r.jd + 29.5306 }

/-- the loop of `rs_search` — eph_show.cpp:126-150: `n` rounds from the new moon `jd` of line 125 -/
noncomputable def rsSearch (fast : ℝ → EcFast) (full : ℝ → ℝ × ℝ × String) (date : ℝ → List Char) (n : ℕ) (jd : ℝ) : List Char :=
  let q := (searchStep fast full date)^[n] ⟨jd, 0, [], []⟩
  q.s2 ++ q.s

end Verif.Geom
