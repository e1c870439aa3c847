import Verif.SolarEclipse
import Verif.Precession
import Verif.SkyPanel
import Verif.SunTimes

/-!
# Places of a solar eclipse: limit lines, centre line, the table of limits — /repo/eph/eph_rsgs.cpp:108-121, 131-143, 154-172, 227-241, 245-249, 260,
278-287, 301-351, 354-385, eph_rspl.cpp:204-300, eph.cpp:322-334

Exact arithmetic on `ℝ` (see `Verif/Geom.lean`).  The ephemeris is a parameter: the moon's Bessel coordinates `bseM`, the axis `bse`, the equatorial
places `sun`, `moon` at an instant.  Division by zero gives 0 where the code gets an infinity or a NaN; the theorems exclude it.
-/

namespace Verif.Geom

open Real Verif.Precession

/-- `_VXY` — eph_rsgs.h -/
structure Vxy where
  vx : ℝ
  vy : ℝ
  Vx : ℝ
  Vy : ℝ
  V : ℝ

open Classical in
/-- `RS_GS::Vxy(x, y, s, vx, vy)` — eph_rsgs.cpp:131-143 -/
noncomputable def vxy (x y s vx vy : ℝ) : Vxy :=
  let h := 1 - x * x - y * y
  let h := if h < 0 then 0 else √h
  let ex := 2 * π * (sin s * h - cos s * y)
  let ey := 2 * π * x * cos s
  let Vx := vx - ex
  let Vy := vy - ey
  ⟨ex, ey, Vx, Vy, √(Vx * Vx + Vy * Vy)⟩

open Classical in
/-- `RS_GS::bse2db(z, I, f)` — eph_rsgs.cpp:108-115 (`z` on a line through the centre of the Earth); longitude and latitude -/
noncomputable def bse2db (z I : V3) (f : Bool) : ℝ × ℝ :=
  let r := llrConv (xyz2llr z) I.y
  (rrad (r.x + I.x - I.z), if f then arctan (tan r.y / (cs_ba * cs_ba)) else r.y)

open Classical in
/-- `RS_GS::bseXY2db(x, y, I, f)` — eph_rsgs.cpp:116-121 -/
noncomputable def bseXY2db (x y : ℝ) (I : V3) (f : Bool) : ℝ × ℝ :=
  (lineEar2 ⟨x, y, 2⟩ ⟨x, y, 0⟩ (if f then cs_ba else 1) 1 I).2

/-- a place and an instant, the result of `qrd` -/
structure Gk where
  J : ℝ
  W : ℝ
  t : ℝ

/-- `RS_GS::qrd(jd, dx, dy, fs)` — eph_rsgs.cpp:154-172; `bba` is the static member -/
noncomputable def qrd (s : RsState) (bba : ℝ) (bseM bse : ℝ → V3) (jd dx dy : ℝ) (fs : Bool) : Gk :=
  let ba2 := bba * bba
  let M := bseM jd
  let x := M.x
  let y := M.y
  let B := s.rSM M.z
  let r := if fs then B.r1 else 0
  let d := 1 - (1 / ba2 - 1) * y * y / (x * x + y * y) / 2 + r
  let t := (d * d - x * x - y * y) / (dx * x + dy * y) / 2
  let x := x + t * dx
  let y := y + t * dy
  let jd := jd + t
  let c := (1 - ba2) * r * x * y / d / d / d
  let x := x + c * y
  let y := y - c * x
  let p := bse2db ⟨x / d, y / d, 0⟩ (bse jd) true
  ⟨p.1, p.2, jd⟩

/-- one surface estimate of `nanbei` and the direction that follows from it: `(x, y, sinA, cosA)` — eph_rsgs.cpp:316-323; `z` is the height -/
noncomputable def nbStep (M : V3) (vx0 vy0 h r s x y z : ℝ) : ℝ × ℝ × ℝ × ℝ :=
  let x := x - (x - M.x) * z / M.z
  let y := y - (y - M.y) * z / M.z
  let vx := vx0 - 2 * π * (sin s * z - cos s * y)
  let vy := vy0 - 2 * π * cos s * x
  let v := √(vx * vx + vy * vy)
  let sinA := h * vy / v
  let cosA := h * vx / v
  (M.x - r * sinA, M.y + r * cosA, sinA, cosA)

open Classical in
/-- the loop of `nanbei` — eph_rsgs.cpp:306-324; `js` is the counter as a flag, `n` the rounds left -/
noncomputable def nbLoop (M : V3) (vx0 vy0 h r s : ℝ) : ℕ → Bool → ℝ × ℝ × ℝ × ℝ → ℝ × ℝ × ℝ × ℝ
  | 0, _, q => q
  | n + 1, js, q =>
    let z := 1 - q.1 * q.1 - q.2.1 * q.2.1
    if z < 0 then
      if js then q else nbLoop M vx0 vy0 h r s n true (nbStep M vx0 vy0 h r s q.1 q.2.1 (√0))
    else nbLoop M vx0 vy0 h r s n js (nbStep M vx0 vy0 h r s q.1 q.2.1 (√z))

/-- the four numbers `nanbei` returns — eph_rsgs.cpp:301 -/
structure Limit where
  J : ℝ
  W : ℝ
  x : ℝ
  y : ℝ

/-- `RS_GS::nanbei(M, vx0, vy0, h, r, I)` — eph_rsgs.cpp:301-328 (`sinA`, `cosA` are uninitialised before the first round, which always runs) -/
noncomputable def nanbei (M : V3) (vx0 vy0 h r : ℝ) (I : V3) : Limit :=
  let q := nbLoop M vx0 vy0 h r I.y 3 false (M.x - vy0 / vx0 * r * h, M.y + h * r, 0, 0)
  let X := M.x - cs_k * q.2.2.1
  let Y := M.y + cs_k * q.2.2.2
  let p := lineEar2 ⟨X, Y, M.z⟩ ⟨q.1, q.2.1, 0⟩ cs_ba 1 I
  ⟨p.2.1, p.2.2, q.1, q.2.1⟩

/-- the accelerations of `feature` — eph_rsgs.cpp:187-188 -/
noncomputable def featureAcc (s : RsState) (bseM : ℝ → V3) : ℝ × ℝ :=
  let jd := s.Zjd
  let tg := 0.04
  let a := bseM (jd - tg)
  let b := bseM jd
  let c := bseM (jd + tg)
  ((c.x + a.x - 2 * b.x) / tg / tg, (c.y + a.y - 2 * b.y) / tg / tg)

/-- the five places of one row of the table — eph_rsgs.cpp:366-381: penumbra north, umbra north, centre, umbra south, penumbra south -/
noncomputable def limitRow (s : RsState) (bseM bse : ℝ → V3) (re : Feature) (acc : ℝ × ℝ) (t : ℝ) : List (ℝ × ℝ) :=
  let vx := re.vx + acc.1 * (t - re.jdSuo)
  let vy := re.vy + acc.2 * (t - re.jdSuo)
  let M := bseM t
  let B := s.rSM M.z
  let I := bse t
  let p1 := nanbei M vx vy 1 B.r1 I
  let p2 := nanbei M vx vy 1 B.r2 I
  let p3 := bseXY2db M.x M.y I true
  let p4 := nanbei M vx vy (-1) B.r2 I
  let p5 := nanbei M vx vy (-1) B.r1 I
  [(p1.J, p1.W), (p2.J, p2.W), p3, (p4.J, p4.W), (p5.J, p5.W)]

open Classical in
/-- one cell — eph_rsgs.cpp:375-381; `show_` is `rad2str2`; the last column ends with a blank instead of `|`, and separates its two angles by one blank -/
noncomputable def limitCell (ang : ℝ → List Char) (last : Bool) (p : ℝ × ℝ) : List Char :=
  if p.2 ≠ 100 then
    ang p.1 ++ (if last then " " else "  ").toList ++ ang p.2 ++ (if last then " " else " |").toList
  else (if last then "------------------- " else "-------------------|").toList

/-- the text of a row — eph_rsgs.cpp:373-382 -/
noncomputable def limitText (date ang : ℝ → List Char) (t : ℝ) (ps : List (ℝ × ℝ)) : List Char :=
  date (t + 2451545) ++ " ".toList ++ (ps.dropLast.flatMap (limitCell ang false)) ++ (ps.getLast?.map (limitCell ang true)).getD []

open Classical in
/-- the loop of `jieX3` — eph_rsgs.cpp:363-383 -/
noncomputable def jieLoop (row : ℝ → List (ℝ × ℝ)) (date ang : ℝ → List Char) : ℕ → ℝ → List Char → List Char
  | 0, _, s => s
  | n + 1, t, s =>
    let ps := row t
    let k := (ps.filter (fun p => p.2 ≠ 100)).length
    jieLoop row date ang n (t + 1 / 1440) (if k ≠ 0 then s ++ limitText date ang t ps ++ ['\n'] else s)

/-- the heading — eph_rsgs.cpp:384 -/
def jieHead : List Char :=
  "\x1b[41;37;1m 时间(力学时) 半影北界限 本影北界线 中心线 本影南界线 半影南界线\x1b[0m(伪本影南北界应互换)\n\n\n\n".toList

/-- `RS_GS::jieX3(jd)` — eph_rsgs.cpp:354-385; `date` is `JD2str`, `ang` is `rad2str2` -/
noncomputable def jieX3 (s : RsState) (bseM bse : ℝ → V3) (date ang : ℝ → List Char) (jd : ℝ) : List Char :=
  let re := feature s bseM bse jd
  let t := (⌊re.jd * 1440⌋ : ℝ) / 1440 - 3 / 24
  jieHead ++ jieLoop (limitRow s bseM bse re (featureAcc s bseM)) date ang 360 t []

/-! ## `RS_PL`: centre and limits at an instant -/

/-- `_ZB` — eph_rspl.h:32-41 -/
structure Zb where
  S : V3
  M : V3
  sr : ℝ
  mr : ℝ
  x : ℝ
  y : ℝ
  g : ℝ

/-- the static members `A`, `B`, `P`, `Q` — eph_rspl.cpp:198-200 -/
structure Zb0 where
  A : V3
  B : V3
  P : Zb
  Q : Zb

/-- ratio of the radii of sun and moon — eph_rspl.cpp:225 -/
noncomputable def radiusRatio : ℝ := 959.63 / sMoon * AU

/-- `RS_PL::zb0(jd)` — eph_rspl.cpp:204-238; `dt` is `dt_T(jd)`, `E` the obliquity `hcjj`, `zd` the two nutation angles; the fields `sr … y` keep what they had (taken as 0) -/
noncomputable def zb0 (sun moon : ℝ → V3) (dt E : ℝ) (zd : ℝ × ℝ) (jd : ℝ) : Zb0 :=
  let Pg := SunTimes.pGST (jd - dt) dt + zd.1 * cos (E + zd.2)
  let t2 := jd + 60 / 86400
  let Qg := SunTimes.pGST (t2 - dt) dt + zd.1 * cos (E + zd.2)
  let z1 := llr2xyz (sun jd)
  let z2 := llr2xyz (moon jd)
  let k := radiusRatio
  { A := xyz2llr ⟨(z1.x - z2.x) / (1 - k) + z2.x, (z1.y - z2.y) / (1 - k) + z2.y, (z1.z - z2.z) / (1 - k) + z2.z⟩
    B := xyz2llr ⟨(z1.x - z2.x) / (1 + k) + z2.x, (z1.y - z2.y) / (1 + k) + z2.y, (z1.z - z2.z) / (1 + k) + z2.z⟩
    P := ⟨sun jd, moon jd, 0, 0, 0, 0, Pg⟩
    Q := ⟨sun t2, moon t2, 0, 0, 0, 0, Qg⟩ }

/-- `RS_PL::zbXY(p, L, fa)` — eph_rspl.cpp:240-252 -/
noncomputable def zbXY (p : Zb) (L fa : ℝ) : Zb :=
  let s := parallax p.S (p.g + L - p.S.x) fa 0
  let m := parallax p.M (p.g + L - p.M.x) fa 0
  { p with
    mr := sMoon / m.z / arcsec
    sr := 959.63 / s.z / arcsec * AU
    x := rrad (m.x - s.x) * cos ((m.y + s.y) / 2)
    y := m.y - s.y }

/-- `RS_PL::p2p(L, fa, re, fAB, f)` — eph_rspl.cpp:254-267: the new place (the updated `P`, `Q` are not needed: every use recomputes them) -/
noncomputable def p2p (z : Zb0) (L fa : ℝ) (fAB : Bool) (f : ℝ) : ℝ × ℝ :=
  let p := zbXY z.P L fa
  let q := zbXY z.Q L fa
  let u := q.y - p.y
  let v := q.x - p.x
  let a := √(u * u + v * v)
  let r := 959.63 / p.S.z / arcsec * AU
  let W := p.S.y + f * r * v / a
  let J := p.S.x - f * r * u / a / cos ((W + p.S.y) / 2)
  let AA := if fAB then z.A else z.B
  (lineEar ⟨J, W, p.S.z⟩ AA p.g).2

open Classical in
/-- `RS_PL::pp0(re)` — eph_rspl.cpp:268-279: the place and the kind -/
noncomputable def pp0 (z : Zb0) : (ℝ × ℝ) × String :=
  let pp := (lineEar z.P.M z.P.S z.P.g).2
  if pp.2 = 100 then (pp, "")
  else
    let p := zbXY z.P pp.1 pp.2
    (pp, if p.sr > p.mr then "环" else "全")

/-- the rounds of `p2p` in `nbj` — eph_rspl.cpp:290-293 -/
noncomputable def p2pN (z : Zb0) (fAB : Bool) (f : ℝ) (n : ℕ) : ℝ × ℝ := (fun g : ℝ × ℝ => p2p z g.1 g.2 fAB f)^[n] (0, 0)

/-- the static members `V`, `Vc`, `Vb` after `nbj`; `V` as five places — eph_rspl.cpp:201-202 -/
structure Nbj where
  centre : ℝ × ℝ
  umbraN : ℝ × ℝ
  umbraS : ℝ × ℝ
  penumbraN : ℝ × ℝ
  penumbraS : ℝ × ℝ
  Vc : String
  Vb : List Char

open Classical in
/-- `RS_PL::nbj(jd)` after `init` — eph_rspl.cpp:280-300; `km` is `to_str(·, 0)` -/
noncomputable def nbj (z : Zb0) (km : ℝ → List Char) : Nbj :=
  let c := pp0 z
  let un := p2pN z true 1 2
  let us := p2pN z true (-1) 2
  let pn := p2pN z false (-1) 3
  let ps := p2pN z false 1 3
  let x := (un.1 - us.1) * cos ((un.2 + us.2) / 2)
  let y := un.2 - us.2
  ⟨c.1, un, us, pn, ps, c.2,
    if un.2 ≠ 100 ∧ us.2 ≠ 100 then km (rEarA * √(x * x + y * y)) ++ "千米".toList else []⟩

end Verif.Geom
