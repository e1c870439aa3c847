import Verif.Series

/-!
# Precession rotations, parallax, nutation — /repo/eph/eph0.cpp:237-359

Exact arithmetic on `ℝ` (see `Verif/Geom.lean`).
-/

namespace Verif.Precession

open Real Verif.Geom

/-- the three tables of precession polynomials -/
structure Tables where
  p76 : List ℝ
  p00 : List ℝ
  p03 : List ℝ

/-- `preceTab_IAU1976` — eph_data.h:5-17 -/
noncomputable def p76 : List ℝ := [
  0, 5038.7784, -1.07259, -0.001147,
  84381.448, 0, 0.05127, -0.007726,
  0, 4.1976, 0.19447, -0.000179,
  0, -46.8150, 0.05059, 0.000344,
  84381.448, -46.8150, -0.00059, 0.001813,
  0, 10.5526, -2.38064, -0.001125,
  0, 47.0028, -0.03301, 0.000057,
  629554.886, -869.8192, 0.03666, -0.001504,
  0, 5029.0966, 1.11113, 0.000006,
  0, 2004.3109, -0.42665, -0.041833,
  0, 2306.2181, 0.30188, 0.017998,
  0, 2306.2181, 1.09468, 0.018203]

/-- `preceTab_IAU2000` — eph_data.h:19-31 -/
noncomputable def p00 : List ℝ := [
  0, 5038.478750, -1.07259, -0.001147, 0, 0,
  84381.448, -0.025240, 0.05127, -0.007726, 0, 0,
  0, 4.1976, 0.19447, -0.000179, 0, 0,
  0, -46.8150, 0.05059, 0.000344, 0, 0,
  84381.448, -46.84024, -0.00059, 0.001813, 0, 0,
  0, 10.5526, -2.38064, -0.001125, 0, 0,
  0, 47.0028, -0.03301, 0.000057, 0, 0,
  629554.886, -869.8192, 0.03666, -0.001504, 0, 0,
  0, 5028.79695, 1.11113, 0.000006, 0, 0,
  0, 2004.1917476, -0.4269353, -0.0418251, -0.0000601, -0.0000001,
  2.5976176, 2306.0809506, 0.3019015, 0.0179663, -0.0000327, -0.0000002,
  -2.5976176, 2306.0803226, 1.0947790, 0.0182273, 0.0000470, -0.0000003]

/-- `preceTab_P03` — eph_data.h:33-45 -/
noncomputable def p03 : List ℝ := [
  0, 5038.481507, -1.0790069, -0.00114045, 0.000132851, -9.51e-8,
  84381.406000, -0.025754, 0.0512623, -0.00772503, -4.67e-7, 3.337e-7,
  0, 4.199094, 0.1939873, -0.00022466, -9.12e-7, 1.20e-8,
  0, -46.811015, 0.0510283, 0.00052413, -6.46e-7, -1.72e-8,
  84381.406000, -46.836769, -0.0001831, 0.00200340, -5.76e-7, -4.34e-8,
  0, 10.556403, -2.3814292, -0.00121197, 0.000170663, -5.60e-8,
  0, 46.998973, -0.0334926, -0.00012559, 1.13e-7, -2.2e-9,
  629546.7936, -867.95758, 0.157992, -0.0005371, -0.00004797, 7.2e-8,
  0, 5028.796195, 1.1054348, 0.00007964, -0.000023857, 3.83e-8,
  0, 2004.191903, -0.4294934, -0.04182264, -7.089e-6, -1.274e-7,
  2.650545, 2306.083227, 0.2988499, 0.01801828, -5.971e-6, -3.173e-7,
  -2.650545, 2306.077181, 1.0927348, 0.01826837, -0.000028596, -2.904e-7]

/-- the built-in tables -/
noncomputable def builtin : Tables := ⟨p76, p00, p03⟩

/-- `prece(t, ss, mx)` with the built-in tables — eph0.cpp:210-235 -/
noncomputable def pr (T : Tables) (t : ℝ) (ss : List Char) (mx : String) : Option ℝ := Series.prece T.p76 T.p00 T.p03 t ss mx

/-- the common body of `CDllr_J2D` and `CDllr_D2J` — eph0.cpp:242-248 = 256-262; `Z` already contains the longitude -/
noncomputable def cdBody (Z z th W R : ℝ) : V3 :=
  let A := cos W * sin Z
  let B := cos th * cos W * cos Z - sin th * sin W
  let C := sin th * cos W * cos Z + cos th * sin W
  ⟨mrad (atan2 A B + z), arcsin C, R⟩

/-- `CDllr_J2D(t, llr, mx)` — eph0.cpp:237-249 -/
noncomputable def cdJ2D (T : Tables) (t : ℝ) (p : V3) (mx : String) : Option V3 := do
  let Z ← pr T t ['Z'] mx
  let z ← pr T t ['z'] mx
  let th ← pr T t ['t', 'h'] mx
  pure (cdBody (Z + p.x) z th p.y p.z)

/-- `CDllr_D2J(t, llr, mx)` — eph0.cpp:251-263 -/
noncomputable def cdD2J (T : Tables) (t : ℝ) (p : V3) (mx : String) : Option V3 := do
  let Z ← pr T t ['z'] mx
  let z ← pr T t ['Z'] mx
  let th ← pr T t ['t', 'h'] mx
  pure (cdBody (-Z + p.x) (-z) (-th) p.y p.z)

/-- `HDllr_J2D(t, llr, mx)` — eph0.cpp:265-274 -/
noncomputable def hdJ2D (T : Tables) (t : ℝ) (p : V3) (mx : String) : Option V3 := do
  let fi ← pr T t ['f', 'i'] mx
  let r : V3 := ⟨p.x + fi, p.y, p.z⟩
  let w ← pr T t ['w'] mx
  let r := llrConv r w
  let x ← pr T t ['x'] mx
  let r : V3 := ⟨r.x - x, r.y, r.z⟩
  let E ← pr T t ['E'] mx
  pure (llrConv r (-E))

/-- `HDllr_D2J(t, llr, mx)` — eph0.cpp:276-285 -/
noncomputable def hdD2J (T : Tables) (t : ℝ) (p : V3) (mx : String) : Option V3 := do
  let E ← pr T t ['E'] mx
  let r := llrConv p E
  let x ← pr T t ['x'] mx
  let r : V3 := ⟨r.x + x, r.y, r.z⟩
  let w ← pr T t ['w'] mx
  let r := llrConv r (-w)
  let fi ← pr T t ['f', 'i'] mx
  pure ⟨mrad (r.x - fi), r.y, r.z⟩

/-- `cs_rEar`, `cs_ba`, `cs_AU` — eph0.h:7-11 -/
noncomputable def rEar : ℝ := 6378.1366
noncomputable def ba : ℝ := 0.99664719
noncomputable def AU : ℝ := 149597870.691

/-- `parallax(z, H, fa, high)` — eph0.cpp:297-316 -/
noncomputable def parallax (z : V3) (H fa high : ℝ) : V3 :=
  let dw := if z.z < 500 then AU else 1
  let z : V3 := ⟨z.x, z.y, z.z * dw⟩
  let f := ba
  let u := arctan (f * tan fa)
  let g := z.x + H
  let r0 := rEar * cos u + high * cos fa
  let z0 := rEar * sin u * f + high * sin fa
  let x0 := r0 * cos g
  let y0 := r0 * sin g
  let s := llr2xyz z
  let s := xyz2llr ⟨s.x - x0, s.y - y0, s.z - z0⟩
  ⟨s.x, s.y, s.z / dw⟩

/-! ## Nutation -/

/-- the loop of `nutation2` — eph0.cpp:321-330; `i` counts rows of five -/
noncomputable def nut2Loop (B : List ℝ) (t : ℝ) : ℕ → ℕ → ℝ → ℝ → Option (ℝ × ℝ)
  | 0, _, _, _ => none
  | fuel + 1, i, dL, dE =>
    if i < B.length then do
      let b0 ← B[i]?
      let b1 ← B[i + 1]?
      let b2 ← B[i + 2]?
      let c := b0 + b1 * t + b2 * (t * t)
      let a := if i = 0 then -1.742 * t else 0
      let b3 ← B[i + 3]?
      let b4 ← B[i + 4]?
      nut2Loop B t fuel (i + 5) (dL + (b3 + a) * sin c) (dE + b4 * cos c)
    else some (dL, dE)

/-- `nutation2(t)` — eph0.cpp:318-333 -/
noncomputable def nutation2 (B : List ℝ) (t : ℝ) : Option (ℝ × ℝ) := do
  let (dL, dE) ← nut2Loop B t (B.length + 1) 0 0 0
  pure (dL / 100 / Series.radSec, dE / 100 / Series.radSec)

/-- the five arguments of `nutation` in arc seconds — eph0.cpp:339-343 -/
noncomputable def delaunay (t : ℝ) : ℝ × ℝ × ℝ × ℝ × ℝ :=
  let t2 := t * t
  let t3 := t2 * t
  let t4 := t3 * t
  (485868.249036 + 1717915923.2178 * t + 31.8792 * t2 + 0.051635 * t3 - 0.00024470 * t4,
   1287104.79305 + 129596581.0481 * t - 0.5532 * t2 + 0.000136 * t3 - 0.00001149 * t4,
   335779.526232 + 1739527262.8478 * t - 12.7512 * t2 - 0.001037 * t3 + 0.00000417 * t4,
   1072260.70369 + 1602961601.2090 * t - 6.3706 * t2 + 0.006593 * t3 - 0.00003169 * t4,
   450160.398036 - 6962890.5431 * t + 7.4722 * t2 + 0.007702 * t3 - 0.00005939 * t4)

/-- the period test — eph0.cpp:348-353: `true` when the row is skipped.  A division by zero gives an infinity of either sign or NaN: on `ℝ` the quotient is `0`, so rows with frequency `0` are not
covered by the theorems. -/
noncomputable def skipped (a b c d e : ℝ) (zq : ℤ) : Prop :=
  zq ≠ 0 ∧ 36526 * 2 * π * Series.radSec / (1717915923.2178 * a + 129596581.0481 * b + 1739527262.8478 * c + 1602961601.2090 * d + 6962890.5431 * e) < zq

open Classical in
/-- the loop of `nutation` — eph0.cpp:345-356; the array starts as zero (static_array.h value-initialises its data) -/
noncomputable def nutLoop (N : List ℝ) (t : ℝ) (zq : ℤ) : ℕ → ℕ → ℝ → ℝ → Option (ℝ × ℝ)
  | 0, _, dL, dE => some (dL, dE)
  | k + 1, i, dL, dE => do
    let n0 ← N[i]?
    let n1 ← N[i + 1]?
    let n2 ← N[i + 2]?
    let n3 ← N[i + 3]?
    let n4 ← N[i + 4]?
    let (l, l1, F, D, Om) := delaunay t
    let c := (n0 * l + n1 * l1 + n2 * F + n3 * D + n4 * Om) / Series.radSec
    if skipped n0 n1 n2 n3 n4 zq then nutLoop N t zq k (i + 11) dL dE
    else do
      let n5 ← N[i + 5]?
      let n6 ← N[i + 6]?
      let n7 ← N[i + 7]?
      let n8 ← N[i + 8]?
      let n9 ← N[i + 9]?
      let n10 ← N[i + 10]?
      nutLoop N t zq k (i + 11) (dL + ((n5 + n6 * t) * sin c + n7 * cos c)) (dE + ((n8 + n9 * t) * cos c + n10 * sin c))

/-- `nutation(t, zq)` — eph0.cpp:335-360 -/
noncomputable def nutation (N : List ℝ) (t : ℝ) (zq : ℤ) : Option (ℝ × ℝ) := do
  let (dL, dE) ← nutLoop N t zq 77 0 0 0
  pure (dL / (10000000 * Series.radSec), dE / (10000000 * Series.radSec))

end Verif.Precession
