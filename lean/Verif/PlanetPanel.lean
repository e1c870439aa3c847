import Verif.SkyPanel

/-!
# The panel of a planet, the sun or the moon — /repo/eph/eph.cpp:215-291

Exact real arithmetic.  Parameters: the series (`p_coord`, `e_coord`, `m_coord`, `nutation2`, `hcjj`, `pGST2`) and the texts of numbers (`rad2str`, `to_str`, C36 and C28).
-/

namespace Verif.Geom

open Real Verif.Precession

/-- what `xingX` uses of the rest of the library -/
structure PlanetEnv where
  /-- `nutation2` -/
  nut : ℝ → ℝ × ℝ
  hcjj : ℝ → ℝ
  /-- `pGST2` -/
  pGST2 : ℝ → ℝ
  /-- `p_coord(xt, T, -1, -1, -1)`; 0: the Earth, 9: the sun (the origin) -/
  planet : ℕ → ℝ → V3
  /-- `e_coord(T, 15, 15, 15)` -/
  earth15 : ℝ → V3
  /-- `m_coord(T, 1, 1, -1)` -/
  moon1 : ℝ → V3
  /-- `m_coord(T, -1, -1, -1)` -/
  moon : ℝ → V3
  /-- `rad2str(d, tim)` -/
  ang : ℝ → Bool → String
  /-- `to_str(x, n)` -/
  num : ℝ → ℕ → String

/-- `cs_GS`, `cs_Agx` — eph0.h:14-15 -/
noncomputable def lightSpeed : ℝ := 299792.458
noncomputable def agx : ℝ := AU / lightSpeed / 86400.0 / 36525

/-- the lines common to all bodies — eph.cpp:275-288; `z` is the equatorial place -/
noncomputable def lastLines (e : PlanetEnv) (z : V3) (rc : ℝ) (rfn : ℕ) (gst gstPing L fa : ℝ) : String :=
  let sj := rrad (gst + L - z.x)
  let z := parallax z sj fa 0
  let s := "站赤经 " ++ e.ang z.x true ++ " 站赤纬 " ++ e.ang z.y false ++ " 视距离 " ++ e.num rc rfn ++ "\n"
  let z : V3 := ⟨z.x + (π / 2 - gst - L), z.y, z.z⟩
  let z := llrConv z (π / 2 - fa)
  let z : V3 := ⟨mrad (π / 2 - z.x), z.y, z.z⟩
  let z : V3 := if z.y > 0 then ⟨z.x, z.y + mqc z.y, z.z⟩ else z
  let s := s ++ "方位角 " ++ e.ang z.x false ++ " 高度角 " ++ e.ang z.y false ++ "\n"
  s ++ "恒星时 " ++ e.ang (mrad gstPing) true ++ "(平) " ++ e.ang (mrad gst) true ++ "(真)\n"

/-- the two lines of the apparent place — eph.cpp:246-250, 268-272 -/
noncomputable def twoLines (e : PlanetEnv) (z : V3) (E ra rb : ℝ) (rfn : ℕ) : String × V3 :=
  let s := "视黄经 " ++ e.ang z.x false ++ " 视黄纬 " ++ e.ang z.y false ++ " 地心距 " ++ e.num ra rfn ++ "\n"
  let z := llrConv z E
  (s ++ "视赤经 " ++ e.ang z.x true ++ " 视赤纬 " ++ e.ang z.y false ++ " 光行距 " ++ e.num rb rfn ++ "\n", z)

/-- `xingX(xt, jd, L, fa)` — eph.cpp:215-291; `none`: no branch is taken and the code uses values never set.  (C++ adds `π/2 - gst - L` as one number, as here.) -/
noncomputable def xingX (e : PlanetEnv) (xt : ℤ) (jd L fa : ℝ) : Option String :=
  let T := jd / 36525
  let dL := (e.nut T).1
  let dE := (e.nut T).2
  let E := e.hcjj T + dE
  let gstPing := e.pGST2 jd
  let gst := gstPing + dL * cos E
  if xt = 10 then
    let a := e.earth15 T
    let z := e.moon1 T
    let ra := z.z
    let T := T - ra * agx / AU
    let a2 := e.earth15 T
    let z := e.moon T
    let rc := z.z
    let a2 := h2g a a2
    let a2 : V3 := ⟨a2.x, a2.y, a2.z * AU⟩
    let z2 := h2g z a2
    let rb := z2.z
    let z : V3 := ⟨mrad (z.x + dL), z.y, z.z⟩
    let r := twoLines e z E ra rb 2
    some (r.1 ++ lastLines e r.2 rc 2 gst gstPing L fa)
  else if xt < 10 ∧ 0 ≤ xt then
    let a := e.planet 0 T
    let z := e.planet xt.toNat T
    let z : V3 := ⟨mrad z.x, z.y, z.z⟩
    let s := "黄经一 " ++ e.ang z.x false ++ " 黄纬一 " ++ e.ang z.y false ++ " 向径一 " ++ e.num z.z 8 ++ "\n"
    let z := h2g z a
    let ra := z.z
    let T := T - ra * agx
    let a2 := e.planet 0 T
    let z2 := e.planet xt.toNat T
    let z := h2g z2 a
    let rb := z.z
    let z := h2g z2 a2
    let rc := z.z
    let z : V3 := ⟨mrad (z.x + dL), z.y, z.z⟩
    let r := twoLines e z E ra rb 8
    some (s ++ r.1 ++ lastLines e r.2 rc 8 gst gstPing L fa)
  else none

end Verif.Geom
