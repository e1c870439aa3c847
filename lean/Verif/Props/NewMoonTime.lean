import Verif.EclipseSearch
import Verif.Props.HighTime

/-!
# C91: the accuracy of the new moons of the eclipse search
-/

namespace Verif.Longitude

open Real Verif.Geom Verif.Series Verif.EphTab

/-- one term of the series of `ecFast` against the same term of the moon's table -/
theorem termE {A' A θ φ Ω κ b w x y z t a d v : ℝ} (ht : |t| ≤ 4.01) (hθ : θ = φ + Ω * t + κ * (t * t)) (hA' : 0 ≤ A') (ha : |A' - A| ≤ a)
    (hd : |φ - b| + 4.01 * |Ω - w| + 4.01 ^ 2 * |κ - x / 1e4| + 4.01 ^ 3 * |y / 1e8| + 4.01 ^ 4 * |z / 1e8| ≤ d) (hv : a + A' * d ≤ v) :
    |A' * cos θ - A * cos (ph b w x y z t)| ≤ v := by
  have e : A' * cos θ - A * cos (ph b w x y z t) = (A' - A) * cos (ph b w x y z t) + A' * (cos θ - cos (ph b w x y z t)) := by ring
  rw [e]
  have h1 : |(A' - A) * cos (ph b w x y z t)| ≤ a := by
    rw [abs_mul]
    exact (mul_le_of_le_one_right (abs_nonneg _) (abs_cos_le_one _)).trans ha
  have hp : ∀ n : ℕ, |t ^ n| ≤ 4.01 ^ n := fun n => by rw [abs_pow]; exact pow_le_pow_left₀ (abs_nonneg _) ht n
  have h2 : |A' * (cos θ - cos (ph b w x y z t))| ≤ A' * d := by
    rw [abs_mul, abs_of_nonneg hA']
    refine mul_le_mul_of_nonneg_left ((abs_cos_sub_cos _ _).trans (le_trans ?_ hd)) hA'
    have e2 : θ - ph b w x y z t = (φ - b) + t ^ 1 * (Ω - w) + t ^ 2 * (κ - x / 1e4) + -(t ^ 3 * (y / 1e8)) + -(t ^ 4 * (z / 1e8)) := by
      rw [hθ]; unfold ph; ring
    rw [e2]
    have m : ∀ (n : ℕ) (c : ℝ), |t ^ n * c| ≤ 4.01 ^ n * |c| := fun n c => by
      rw [abs_mul]; exact mul_le_mul_of_nonneg_right (hp n) (abs_nonneg _)
    have m1 := m 1 (Ω - w)
    have m2 := m 2 (κ - x / 1e4)
    have m3 := m 3 (y / 1e8)
    have m4 := m 4 (z / 1e8)
    rw [pow_one] at m1
    rw [pow_one]
    have t1 := abs_add_le (φ - b + t * (Ω - w) + t ^ 2 * (κ - x / 1e4) + -(t ^ 3 * (y / 1e8))) (-(t ^ 4 * (z / 1e8)))
    have t2 := abs_add_le (φ - b + t * (Ω - w) + t ^ 2 * (κ - x / 1e4)) (-(t ^ 3 * (y / 1e8)))
    have t3 := abs_add_le (φ - b + t * (Ω - w)) (t ^ 2 * (κ - x / 1e4))
    have t4 := abs_add_le (φ - b) (t * (Ω - w))
    rw [abs_neg] at t1 t2
    rw [pow_one] at m1
    linarith
  linarith [abs_add_le ((A' - A) * cos (ph b w x y z t)) (A' * (cos θ - cos (ph b w x y z t)))]

theorem mT_head18 : ((mT 0).take 20).take 18 = [(22639586000000, 784758220, 8328691424623, 1522924100, 25071900000, -123598000), (4586438000000, 187397400, 7214062865360, -2184756000, -18860000000, 82800000), (2369914000000, 2542952000, 15542754289980, -661832000, 6212000000, -40800000), (769026000000, 3140313000, 16657382849250, 3045850000, 50144000000, -247200000), (666418000000, 1527671000, 628301955210, -26640000, 62000000, -5400000), (411596000000, 4826607000, 16866932315000, -1280120000, -1070000000, -5900000), (211656000000, 4115028000, -1114628559300, -3707680000, -43930000000, 206400000), (205436000000, 230523000, 6585760910100, -2158120000, -18920000000, 88200000), (191956000000, 4898507000, 23871445714600, 861090000, 31280000000, -164000000), (164729000000, 2586078000, 14914452334800, -635200000, 6150000000, -35000000), (147321000000, 5455300000, -7700389469400, -1549600000, -25010000000, 118000000), (124988000000, 486080000, 7771377145000, -330900000, 3110000000, -20000000), (109380000000, 3883230000, 8956993379800, 1496300000, 25130000000, -129000000), (55177000000, 5570330000, -1324178025000, 618300000, 7300000000, -35000000), (45100000000, 898980000, 25195623740000, 242800000, 24000000000, -129000000), (39533000000, 3812130000, -8538240890000, 2803000000, 26100000000, -118000000), (38430000000, 4301150000, 22756817155000, -2846600000, -12600000000, 42000000), (36124000000, 5495870000, 24986074274000, 4568800000, 75200000000, -371000000)] := by decide +kernel

theorem ord0_split18 (t : ℝ) : ordM 0 ((mT 0).take 20) t = dec 22639586000000 * cos (ph (dec 784758220) (dec 8328691424623) (dec 1522924100) (dec 25071900000) (dec (-123598000)) t)
    + dec 4586438000000 * cos (ph (dec 187397400) (dec 7214062865360) (dec (-2184756000)) (dec (-18860000000)) (dec 82800000) t)
    + dec 2369914000000 * cos (ph (dec 2542952000) (dec 15542754289980) (dec (-661832000)) (dec 6212000000) (dec (-40800000)) t)
    + dec 769026000000 * cos (ph (dec 3140313000) (dec 16657382849250) (dec 3045850000) (dec 50144000000) (dec (-247200000)) t)
    + dec 666418000000 * cos (ph (dec 1527671000) (dec 628301955210) (dec (-26640000)) (dec 62000000) (dec (-5400000)) t)
    + dec 411596000000 * cos (ph (dec 4826607000) (dec 16866932315000) (dec (-1280120000)) (dec (-1070000000)) (dec (-5900000)) t)
    + dec 211656000000 * cos (ph (dec 4115028000) (dec (-1114628559300)) (dec (-3707680000)) (dec (-43930000000)) (dec 206400000) t)
    + dec 205436000000 * cos (ph (dec 230523000) (dec 6585760910100) (dec (-2158120000)) (dec (-18920000000)) (dec 88200000) t)
    + dec 191956000000 * cos (ph (dec 4898507000) (dec 23871445714600) (dec 861090000) (dec 31280000000) (dec (-164000000)) t)
    + dec 164729000000 * cos (ph (dec 2586078000) (dec 14914452334800) (dec (-635200000)) (dec 6150000000) (dec (-35000000)) t)
    + dec 147321000000 * cos (ph (dec 5455300000) (dec (-7700389469400)) (dec (-1549600000)) (dec (-25010000000)) (dec 118000000) t)
    + dec 124988000000 * cos (ph (dec 486080000) (dec 7771377145000) (dec (-330900000)) (dec 3110000000) (dec (-20000000)) t)
    + dec 109380000000 * cos (ph (dec 3883230000) (dec 8956993379800) (dec 1496300000) (dec 25130000000) (dec (-129000000)) t)
    + dec 55177000000 * cos (ph (dec 5570330000) (dec (-1324178025000)) (dec 618300000) (dec 7300000000) (dec (-35000000)) t)
    + dec 45100000000 * cos (ph (dec 898980000) (dec 25195623740000) (dec 242800000) (dec 24000000000) (dec (-129000000)) t)
    + dec 39533000000 * cos (ph (dec 3812130000) (dec (-8538240890000)) (dec 2803000000) (dec 26100000000) (dec (-118000000)) t)
    + dec 38430000000 * cos (ph (dec 4301150000) (dec 22756817155000) (dec (-2846600000)) (dec (-12600000000)) (dec 42000000) t)
    + dec 36124000000 * cos (ph (dec 5495870000) (dec 24986074274000) (dec 4568800000) (dec 75200000000) (dec (-371000000)) t)
    + ordM 0 (((mT 0).take 20).drop 18) t := by
  have e : ordM 0 ((mT 0).take 20) t = ordM 0 (((mT 0).take 20).take 18) t + ordM 0 (((mT 0).take 20).drop 18) t := by rw [← ordM_append, List.take_append_drop]
  rw [e, mT_head18]
  simp only [ordM, ser6_cons, ser6_nil, pow_zero]
  ring

/-- the eighteen terms of the moon -/
theorem moon18 {t : ℝ} (ht : |t| ≤ 4.01) : |(22640 * cos (0.785 + 8328.6914 * t + 0.000152 * (t * t)) + 4586 * cos (0.19 + 7214.063 * t - 0.000218 * (t * t)) + 2370 * cos (2.54 + 15542.754 * t - 0.000070 * (t * t)) + 769 * cos (3.1 + 16657.383 * t) + 666 * cos (1.5 + 628.302 * t) + 412 * cos (4.8 + 16866.93 * t) + 212 * cos (4.1 - 1114.63 * t) + 205 * cos (0.2 + 6585.76 * t) + 192 * cos (4.9 + 23871.45 * t) + 165 * cos (2.6 + 14914.45 * t) + 147 * cos (5.5 - 7700.39 * t) + 125 * cos (0.5 + 7771.38 * t) + 109 * cos (3.9 + 8956.99 * t) + 55 * cos (5.6 - 1324.18 * t) + 45 * cos (0.9 + 25195.62 * t) + 40 * cos (3.8 - 8538.24 * t) + 38 * cos (4.3 + 22756.82 * t) + 36 * cos (5.5 + 24986.07 * t)) - (ordM 0 ((mT 0).take 20) t - ordM 0 (((mT 0).take 20).drop 18) t)| ≤ 148 := by
  rw [ord0_split18]
  have a0 := abs_le.1 (termE (A' := 22640) (A := dec 22639586000000) (θ := 0.785 + 8328.6914 * t + 0.000152 * (t * t)) (φ := 0.785) (Ω := (8328.6914)) (κ := (0.000152)) (b := (dec 784758220)) (w := (dec 8328691424623)) (x := (dec 1522924100)) (y := (dec 25071900000)) (z := (dec (-123598000))) (a := 0.415) (d := 0.000363) (v := 8.634) ht (by ring) (by norm_num)
    (by norm_num [dec, abs_of_pos, abs_of_neg]) (by norm_num [dec, abs_of_pos, abs_of_neg]) (by norm_num))
  have a1 := abs_le.1 (termE (A' := 4586) (A := dec 4586438000000) (θ := 0.19 + 7214.063 * t - 0.000218 * (t * t)) (φ := 0.19) (Ω := (7214.063)) (κ := (-0.000218)) (b := (dec 187397400)) (w := (dec 7214062865360)) (x := (dec (-2184756000))) (y := (dec (-18860000000))) (z := (dec 82800000)) (a := 0.439) (d := 0.003164) (v := 14.95) ht (by ring) (by norm_num)
    (by norm_num [dec, abs_of_pos, abs_of_neg]) (by norm_num [dec, abs_of_pos, abs_of_neg]) (by norm_num))
  have a2 := abs_le.1 (termE (A' := 2370) (A := dec 2369914000000) (θ := 2.54 + 15542.754 * t - 0.000070 * (t * t)) (φ := 2.54) (Ω := (15542.754)) (κ := (-0.000070000)) (b := (dec 2542952000)) (w := (dec 15542754289980)) (x := (dec (-661832000))) (y := (dec 6212000000)) (z := (dec (-40800000))) (a := 0.087) (d := 0.004181) (v := 9.997) ht (by ring) (by norm_num)
    (by norm_num [dec, abs_of_pos, abs_of_neg]) (by norm_num [dec, abs_of_pos, abs_of_neg]) (by norm_num))
  have a3 := abs_le.1 (termE (A' := 769) (A := dec 769026000000) (θ := 3.1 + 16657.383 * t) (φ := 3.1) (Ω := (16657.383)) (κ := (0)) (b := (dec 3140313000)) (w := (dec 16657382849250)) (x := (dec 3045850000)) (y := (dec 50144000000)) (z := (dec (-247200000))) (a := 0.027) (d := 0.045849) (v := 35.286) ht (by ring) (by norm_num)
    (by norm_num [dec, abs_of_pos, abs_of_neg]) (by norm_num [dec, abs_of_pos, abs_of_neg]) (by norm_num))
  have a4 := abs_le.1 (termE (A' := 666) (A := dec 666418000000) (θ := 1.5 + 628.302 * t) (φ := 1.5) (Ω := (628.302)) (κ := (0)) (b := (dec 1527671000)) (w := (dec 628301955210)) (x := (dec (-26640000))) (y := (dec 62000000)) (z := (dec (-5400000))) (a := 0.419) (d := 0.027894) (v := 18.997) ht (by ring) (by norm_num)
    (by norm_num [dec, abs_of_pos, abs_of_neg]) (by norm_num [dec, abs_of_pos, abs_of_neg]) (by norm_num))
  have a5 := abs_le.1 (termE (A' := 412) (A := dec 411596000000) (θ := 4.8 + 16866.93 * t) (φ := 4.8) (Ω := (16866.93)) (κ := (0)) (b := (dec 4826607000)) (w := (dec 16866932315000)) (x := (dec (-1280120000))) (y := (dec (-1070000000))) (z := (dec (-5900000))) (a := 0.405) (d := 0.03795) (v := 16.041) ht (by ring) (by norm_num)
    (by norm_num [dec, abs_of_pos, abs_of_neg]) (by norm_num [dec, abs_of_pos, abs_of_neg]) (by norm_num))
  have a6 := abs_le.1 (termE (A' := 212) (A := dec 211656000000) (θ := 4.1 - 1114.63 * t) (φ := 4.1) (Ω := (-1114.63)) (κ := (0)) (b := (dec 4115028000)) (w := (dec (-1114628559300))) (x := (dec (-3707680000))) (y := (dec (-43930000000))) (z := (dec 206400000)) (a := 0.345) (d := 0.026797) (v := 6.027) ht (by ring) (by norm_num)
    (by norm_num [dec, abs_of_pos, abs_of_neg]) (by norm_num [dec, abs_of_pos, abs_of_neg]) (by norm_num))
  have a7 := abs_le.1 (termE (A' := 205) (A := dec 205436000000) (θ := 0.2 + 6585.76 * t) (φ := 0.2) (Ω := (6585.76)) (κ := (0)) (b := (dec 230523000)) (w := (dec 6585760910100)) (x := (dec (-2158120000))) (y := (dec (-18920000000))) (z := (dec 88200000)) (a := 0.437) (d := 0.037656) (v := 8.157) ht (by ring) (by norm_num)
    (by norm_num [dec, abs_of_pos, abs_of_neg]) (by norm_num [dec, abs_of_pos, abs_of_neg]) (by norm_num))
  have a8 := abs_le.1 (termE (A' := 192) (A := dec 191956000000) (θ := 4.9 + 23871.45 * t) (φ := 4.9) (Ω := (23871.45)) (κ := (0)) (b := (dec 4898507000)) (w := (dec 23871445714600)) (x := (dec 861090000)) (y := (dec 31280000000)) (z := (dec (-164000000))) (a := 0.045) (d := 0.020084) (v := 3.902) ht (by ring) (by norm_num)
    (by norm_num [dec, abs_of_pos, abs_of_neg]) (by norm_num [dec, abs_of_pos, abs_of_neg]) (by norm_num))
  have a9 := abs_le.1 (termE (A' := 165) (A := dec 164729000000) (θ := 2.6 + 14914.45 * t) (φ := 2.6) (Ω := (14914.45)) (κ := (0)) (b := (dec 2586078000)) (w := (dec 14914452334800)) (x := (dec (-635200000))) (y := (dec 6150000000)) (z := (dec (-35000000))) (a := 0.272) (d := 0.024311) (v := 4.284) ht (by ring) (by norm_num)
    (by norm_num [dec, abs_of_pos, abs_of_neg]) (by norm_num [dec, abs_of_pos, abs_of_neg]) (by norm_num))
  have a10 := abs_le.1 (termE (A' := 147) (A := dec 147321000000) (θ := 5.5 - 7700.39 * t) (φ := 5.5) (Ω := (-7700.39)) (κ := (0)) (b := (dec 5455300000)) (w := (dec (-7700389469400))) (x := (dec (-1549600000))) (y := (dec (-25010000000))) (z := (dec 118000000)) (a := 0.322) (d := 0.049337) (v := 7.576) ht (by ring) (by norm_num)
    (by norm_num [dec, abs_of_pos, abs_of_neg]) (by norm_num [dec, abs_of_pos, abs_of_neg]) (by norm_num))
  have a11 := abs_le.1 (termE (A' := 125) (A := dec 124988000000) (θ := 0.5 + 7771.38 * t) (φ := 0.5) (Ω := (7771.38)) (κ := (0)) (b := (dec 486080000)) (w := (dec 7771377145000)) (x := (dec (-330900000))) (y := (dec 3110000000)) (z := (dec (-20000000))) (a := 0.013) (d := 0.025904) (v := 3.252) ht (by ring) (by norm_num)
    (by norm_num [dec, abs_of_pos, abs_of_neg]) (by norm_num [dec, abs_of_pos, abs_of_neg]) (by norm_num))
  have a12 := abs_le.1 (termE (A' := 109) (A := dec 109380000000) (θ := 3.9 + 8956.99 * t) (φ := 3.9) (Ω := (8956.99)) (κ := (0)) (b := (dec 3883230000)) (w := (dec 8956993379800)) (x := (dec 1496300000)) (y := (dec 25130000000)) (z := (dec (-129000000))) (a := 0.381) (d := 0.032747) (v := 3.951) ht (by ring) (by norm_num)
    (by norm_num [dec, abs_of_pos, abs_of_neg]) (by norm_num [dec, abs_of_pos, abs_of_neg]) (by norm_num))
  have a13 := abs_le.1 (termE (A' := 55) (A := dec 55177000000) (θ := 5.6 - 1324.18 * t) (φ := 5.6) (Ω := (-1324.18)) (κ := (0)) (b := (dec 5570330000)) (w := (dec (-1324178025000))) (x := (dec 618300000)) (y := (dec 7300000000)) (z := (dec (-35000000))) (a := 0.178) (d := 0.03859) (v := 2.301) ht (by ring) (by norm_num)
    (by norm_num [dec, abs_of_pos, abs_of_neg]) (by norm_num [dec, abs_of_pos, abs_of_neg]) (by norm_num))
  have a14 := abs_le.1 (termE (A' := 45) (A := dec 45100000000) (θ := 0.9 + 25195.62 * t) (φ := 0.9) (Ω := (25195.62)) (κ := (0)) (b := (dec 898980000)) (w := (dec 25195623740000)) (x := (dec 242800000)) (y := (dec 24000000000)) (z := (dec (-129000000))) (a := 0.101) (d := 0.016425) (v := 0.841) ht (by ring) (by norm_num)
    (by norm_num [dec, abs_of_pos, abs_of_neg]) (by norm_num [dec, abs_of_pos, abs_of_neg]) (by norm_num))
  have a15 := abs_le.1 (termE (A' := 40) (A := dec 39533000000) (θ := 3.8 - 8538.24 * t) (φ := 3.8) (Ω := (-8538.24)) (κ := (0)) (b := (dec 3812130000)) (w := (dec (-8538240890000))) (x := (dec 2803000000)) (y := (dec 26100000000)) (z := (dec (-118000000))) (a := 0.468) (d := 0.020224) (v := 1.278) ht (by ring) (by norm_num)
    (by norm_num [dec, abs_of_pos, abs_of_neg]) (by norm_num [dec, abs_of_pos, abs_of_neg]) (by norm_num))
  have a16 := abs_le.1 (termE (A' := 38) (A := dec 38430000000) (θ := 4.3 + 22756.82 * t) (φ := 4.3) (Ω := (22756.82)) (κ := (0)) (b := (dec 4301150000)) (w := (dec 22756817155000)) (x := (dec (-2846600000))) (y := (dec (-12600000000))) (z := (dec 42000000)) (a := 0.431) (d := 0.017145) (v := 1.084) ht (by ring) (by norm_num)
    (by norm_num [dec, abs_of_pos, abs_of_neg]) (by norm_num [dec, abs_of_pos, abs_of_neg]) (by norm_num))
  have a17 := abs_le.1 (termE (A' := 36) (A := dec 36124000000) (θ := 5.5 + 24986.07 * t) (φ := 5.5) (Ω := (24986.07)) (κ := (0)) (b := (dec 5495870000)) (w := (dec 24986074274000)) (x := (dec 4568800000)) (y := (dec 75200000000)) (z := (dec (-371000000))) (a := 0.125) (d := 0.028666) (v := 1.158) ht (by ring) (by norm_num)
    (by norm_num [dec, abs_of_pos, abs_of_neg]) (by norm_num [dec, abs_of_pos, abs_of_neg]) (by norm_num))
  rw [abs_le]
  constructor
  · linarith [a0.1, a1.1, a2.1, a3.1, a4.1, a5.1, a6.1, a7.1, a8.1, a9.1, a10.1, a11.1, a12.1, a13.1, a14.1, a15.1, a16.1, a17.1]
  · linarith [a0.2, a1.2, a2.2, a3.2, a4.2, a5.2, a6.2, a7.2, a8.2, a9.2, a10.2, a11.2, a12.2, a13.2, a14.2, a15.2, a16.2, a17.2]

theorem amp_rest : amp6 (((mT 0).take 20).drop 18) ≤ 59170000000 ∧ amp6 ((mT 1).take (useM 20 1)) ≤ 3632250000 ∧ amp6 ((mT 2).take (useM 20 2)) ≤ 8650000
    ∧ amp6 ((mT 3).take (useM 20 3)) ≤ 12000 ∧ useM 20 0 = 20 := by decide +kernel

/-- cosine terms of the sun -/
theorem sunE {A A' θ θ' a d v : ℝ} (hA : 0 ≤ A') (ha : |A - A'| ≤ a) (hd : |θ - θ'| ≤ d) (hv : a + A' * d ≤ v) : |A * cos θ - A' * cos θ'| ≤ v := by
  have e : A * cos θ - A' * cos θ' = (A - A') * cos θ + A' * (cos θ - cos θ') := by ring
  have h1 : |(A - A') * cos θ| ≤ a := by
    rw [abs_mul]; exact (mul_le_of_le_one_right (abs_nonneg _) (abs_cos_le_one _)).trans ha
  have h2 : |A' * (cos θ - cos θ')| ≤ A' * d := by
    rw [abs_mul, abs_of_nonneg hA]; exact mul_le_mul_of_nonneg_left ((abs_cos_sub_cos _ _).trans hd) hA
  rw [e]
  linarith [abs_add_le ((A - A') * cos θ) (A' * (cos θ - cos θ'))]

/-- the lead `ecFast` computes is within 0.00113 (four minutes of arc) of that of `MS_aLon_t2` -/
theorem lead_gM {t : ℝ} (ht : |t| ≤ 4.01) : |ecLead t - gM t| ≤ 0.00113 := by
  have r1 := radSec_gt'
  have r2 := radSec_lt'
  have r0 : 0 < radSec := by norm_num at r1; linarith
  obtain ⟨b0, b1, b2, b3, u0⟩ := amp_rest
  have o0 := ordM_bd (R := 4.01) (by norm_num) 0 (((mT 0).take 20).drop 18) t ht
  have o1 := ordM_bd (R := 4.01) (by norm_num) 1 ((mT 1).take (useM 20 1)) t ht
  have o2 := ordM_bd (R := 4.01) (by norm_num) 2 ((mT 2).take (useM 20 2)) t ht
  have o3 := ordM_bd (R := 4.01) (by norm_num) 3 ((mT 3).take (useM 20 3)) t ht
  have c0 : ((amp6 (((mT 0).take 20).drop 18) : ℕ) : ℝ) ≤ 59170000000 := by exact_mod_cast b0
  have c1 : ((amp6 ((mT 1).take (useM 20 1)) : ℕ) : ℝ) ≤ 3632250000 := by exact_mod_cast b1
  have c2 : ((amp6 ((mT 2).take (useM 20 2)) : ℕ) : ℝ) ≤ 8650000 := by exact_mod_cast b2
  have c3 : ((amp6 ((mT 3).take (useM 20 3)) : ℕ) : ℝ) ≤ 12000 := by exact_mod_cast b3
  have m := moon18 ht
  have pb := polyM_bd (R := 4.01) (by norm_num) t ht
  have ht' := abs_le.1 ht
  have sq : |t ^ 2| ≤ 4.01 ^ 2 := Bd.pow (by norm_num) 2 t ht
  -- the sun
  obtain ⟨q, hq⟩ : ∃ q, q = 1 / radSec := ⟨_, rfl⟩
  have q1 : 1 / 206264.9 ≤ q := by rw [hq]; exact one_div_le_one_div_of_le r0 r2.le
  have q2 : q ≤ 1 / 206264.7 := by rw [hq]; exact one_div_le_one_div_of_le (by norm_num) r1.le
  have s1 := sunE (A := 6893 * q) (A' := 0.0334166) (θ := 4.669257 + 628.3076 * t) (θ' := 4.669257 + 628.307585 * t) (a := 0.00000165) (d := 0.0000602) (v := 0.0000037) (by norm_num)
    (by rw [abs_le]; norm_num at q1 q2 ⊢; constructor <;> linarith) (by rw [abs_le]; norm_num at ht' ⊢; constructor <;> linarith [ht'.1, ht'.2]) (by norm_num)
  have s2 := sunE (A := 72 * q) (A' := 0.000349) (θ := 4.6261 + 1256.62 * t) (θ' := 4.6261 + 1256.61517 * t) (a := 0.0000001) (d := 0.0194) (v := 0.0000069) (by norm_num)
    (by rw [abs_le]; norm_num at q1 q2 ⊢; constructor <;> linarith) (by rw [abs_le]; norm_num at ht' ⊢; constructor <;> linarith [ht'.1, ht'.2]) (by norm_num)
  have s3 := sunE (A := 43 * q) (A' := 0.0002061) (θ := 2.67823 + 628.31 * t) (θ' := 2.67823 + 628.307585 * t) (a := 0.0000024) (d := 0.0097) (v := 0.0000045) (by norm_num)
    (by rw [abs_le]; norm_num at q1 q2 ⊢; constructor <;> linarith) (by rw [abs_le]; norm_num at ht' ⊢; constructor <;> linarith [ht'.1, ht'.2]) (by norm_num)
  have s3' : |(43 * q * cos (2.67823 + 628.31 * t) - 0.0002061 * cos (2.67823 + 628.307585 * t)) * t| ≤ 0.0000045 * 4.01 := by
    rw [abs_mul]; exact mul_le_mul s3 ht (abs_nonneg _) (by norm_num)
  -- together
  obtain ⟨X, hX⟩ : ∃ X, X = 22640 * cos (0.785 + 8328.6914 * t + 0.000152 * (t * t)) + 4586 * cos (0.19 + 7214.063 * t - 0.000218 * (t * t)) + 2370 * cos (2.54 + 15542.754 * t - 0.000070 * (t * t)) + 769 * cos (3.1 + 16657.383 * t) + 666 * cos (1.5 + 628.302 * t) + 412 * cos (4.8 + 16866.93 * t) + 212 * cos (4.1 - 1114.63 * t) + 205 * cos (0.2 + 6585.76 * t) + 192 * cos (4.9 + 23871.45 * t) + 165 * cos (2.6 + 14914.45 * t) + 147 * cos (5.5 - 7700.39 * t) + 125 * cos (0.5 + 7771.38 * t) + 109 * cos (3.9 + 8956.99 * t) + 55 * cos (5.6 - 1324.18 * t) + 45 * cos (0.9 + 25195.62 * t) + 40 * cos (3.8 - 8538.24 * t) + 38 * cos (4.3 + 22756.82 * t) + 36 * cos (5.5 + 24986.07 * t) := ⟨_, rfl⟩
  rw [← hX] at m
  have hmS : mS 20 t = 3.81034409 + 8399.709110372 * t + -0.0000277967 * t ^ 2 + polyM t + (ordM 0 ((mT 0).take 20) t + ordM 1 ((mT 1).take (useM 20 1)) t + ordM 2 ((mT 2).take (useM 20 2)) t
      + ordM 3 ((mT 3).take (useM 20 3)) t) * q := by
    unfold mS
    rw [u0, add_div, meanS_eq, hq]; ring
  have hE : ecLead t = -1.084719 + 7771.377145013 * t - 0.0000331 * t ^ 2 + (X - 6893 * cos (4.669257 + 628.3076 * t) - 72 * cos (4.6261 + 1256.62 * t) - 43 * cos (2.67823 + 628.31 * t) * t + 21) * q := by
    unfold ecLead
    simp only []
    rw [hX, hq, show secRad = radSec from rfl]
    ring
  have hG : gM t = mS 20 t - (4.8950632 + 628.3319653318 * t + (0.000005297 * t ^ 2 + 0.0334166 * cos (4.669257 + 628.307585 * t) + 0.0002061 * cos (2.67823 + 628.307585 * t) * t + 0.000349 * cos (4.6261 + 1256.61517 * t)) - 20.5 * q) := by
    unfold gM pS3 pS
    rw [hq]; ring
  have e : ecLead t - gM t = (-0.0000001 + 0.000000010 * 0) + ((-1.084719 - 3.81034409 + 4.8950632 + 0.0000001) + (7771.377145013 - 8399.709110372 + 628.3319653318) * t + (-0.0000331 + 0.0000277967 + 0.000005297) * t ^ 2)
      - polyM t + (X - (ordM 0 ((mT 0).take 20) t - ordM 0 (((mT 0).take 20).drop 18) t)) * q
      - (ordM 0 (((mT 0).take 20).drop 18) t + ordM 1 ((mT 1).take (useM 20 1)) t + ordM 2 ((mT 2).take (useM 20 2)) t + ordM 3 ((mT 3).take (useM 20 3)) t) * q
      - (6893 * q * cos (4.669257 + 628.3076 * t) - 0.0334166 * cos (4.669257 + 628.307585 * t)) - (72 * q * cos (4.6261 + 1256.62 * t) - 0.000349 * cos (4.6261 + 1256.61517 * t))
      - (43 * q * cos (2.67823 + 628.31 * t) - 0.0002061 * cos (2.67823 + 628.307585 * t)) * t + 0.5 * q := by
    rw [hE, hG, hmS]; ring
  have q0 : 0 ≤ q := le_trans (by norm_num) q1
  have mq : |(X - (ordM 0 ((mT 0).take 20) t - ordM 0 (((mT 0).take 20).drop 18) t)) * q| ≤ 148 * (1 / 206264.7) := by
    rw [abs_mul, abs_of_nonneg q0]
    exact mul_le_mul m q2 q0 (by norm_num)
  have oq : |(ordM 0 (((mT 0).take 20).drop 18) t + ordM 1 ((mT 1).take (useM 20 1)) t + ordM 2 ((mT 2).take (useM 20 2)) t + ordM 3 ((mT 3).take (useM 20 3)) t) * q| ≤ 74 * (1 / 206264.7) := by
    rw [abs_mul, abs_of_nonneg q0]
    refine mul_le_mul ?_ q2 q0 (by norm_num)
    have t1 := abs_add_le (ordM 0 (((mT 0).take 20).drop 18) t + ordM 1 ((mT 1).take (useM 20 1)) t + ordM 2 ((mT 2).take (useM 20 2)) t) (ordM 3 ((mT 3).take (useM 20 3)) t)
    have t2 := abs_add_le (ordM 0 (((mT 0).take 20).drop 18) t + ordM 1 ((mT 1).take (useM 20 1)) t) (ordM 2 ((mT 2).take (useM 20 2)) t)
    have t3 := abs_add_le (ordM 0 (((mT 0).take 20).drop 18) t) (ordM 1 ((mT 1).take (useM 20 1)) t)
    have d0 := o0.trans (mul_le_mul_of_nonneg_left (div_le_div_of_nonneg_right c0 (by norm_num : (0 : ℝ) ≤ 10 ^ 9)) (by norm_num))
    have d1 := o1.trans (mul_le_mul_of_nonneg_left (div_le_div_of_nonneg_right c1 (by norm_num : (0 : ℝ) ≤ 10 ^ 9)) (by norm_num))
    have d2 := o2.trans (mul_le_mul_of_nonneg_left (div_le_div_of_nonneg_right c2 (by norm_num : (0 : ℝ) ≤ 10 ^ 9)) (by norm_num))
    have d3 := o3.trans (mul_le_mul_of_nonneg_left (div_le_div_of_nonneg_right c3 (by norm_num : (0 : ℝ) ≤ 10 ^ 9)) (by norm_num))
    have n0 : (4.01 : ℝ) ^ 0 * (59170000000 / 10 ^ 9) + 4.01 ^ 1 * (3632250000 / 10 ^ 9) + 4.01 ^ 2 * (8650000 / 10 ^ 9) + 4.01 ^ 3 * (12000 / 10 ^ 9) ≤ 74 := by norm_num
    linarith
  clear hmS hE hG o0 o1 o2 o3 c0 c1 c2 c3 b0 b1 b2 b3 hX m hq r1 r2 s3
  rw [e]
  clear e
  generalize polyM t = p at *
  generalize (X - (ordM 0 ((mT 0).take 20) t - ordM 0 (((mT 0).take 20).drop 18) t)) * q = y1 at *
  generalize (ordM 0 (((mT 0).take 20).drop 18) t + ordM 1 ((mT 1).take (useM 20 1)) t + ordM 2 ((mT 2).take (useM 20 2)) t + ordM 3 ((mT 3).take (useM 20 3)) t) * q = y2 at *
  generalize 6893 * q * cos (4.669257 + 628.3076 * t) - 0.0334166 * cos (4.669257 + 628.307585 * t) = y3 at *
  generalize 72 * q * cos (4.6261 + 1256.62 * t) - 0.000349 * cos (4.6261 + 1256.61517 * t) = y4 at *
  generalize (43 * q * cos (2.67823 + 628.31 * t) - 0.0002061 * cos (2.67823 + 628.307585 * t)) * t = y5 at *
  generalize t ^ 2 = z at *
  rw [abs_le] at pb sq s1 s2 s3' mq oq ⊢
  norm_num at pb sq s1 s2 s3' mq oq q1 q2 ht' ⊢
  obtain ⟨k1, k2⟩ := pb
  obtain ⟨k3, k4⟩ := sq
  obtain ⟨k5, k6⟩ := s1
  obtain ⟨k7, k8⟩ := s2
  obtain ⟨k9, k10⟩ := s3'
  obtain ⟨k11, k12⟩ := mq
  obtain ⟨k13, k14⟩ := oq
  obtain ⟨k15, k16⟩ := ht'
  constructor <;> linarith

/-- the first correction of `ecFast` -/
noncomputable def dE (t : ℝ) : ℝ := -0.0000331 * t * t + 0.10976 * cos (0.785 + 8328.6914 * t)

theorem dE_pM {z s : ℝ} (hz : |z| ≤ 4.01) (hs : |s| ≤ 4.01) (hd : |s - z| ≤ 0.0000253) : |pM z - dE s| ≤ 0.0793 := by
  have hz' := abs_le.1 hz
  have hs' := abs_le.1 hs
  have hd' := abs_le.1 hd
  have zz : |z * z| ≤ 4.01 * 4.01 := by rw [abs_mul]; exact mul_le_mul hz hz (abs_nonneg _) (by norm_num)
  have ds : |(s - z) * (s + z)| ≤ 0.0000253 * 8.02 := by
    rw [abs_mul]
    refine mul_le_mul hd ?_ (abs_nonneg _) (by norm_num)
    rw [abs_le]; norm_num at hz' hs' ⊢; constructor <;> linarith [hz'.1, hz'.2, hs'.1, hs'.2]
  have c := abs_cos_sub_cos (aX z) (0.785 + 8328.6914 * s)
  have ca : |aX z - (0.785 + 8328.6914 * s)| ≤ 0.2136 := by
    have e : aX z - (0.785 + 8328.6914 * s) = -0.000242 + 0.0000246 * z + 0.000152292 * (z * z) - 8328.6914 * (s - z) := by unfold aX; ring
    rw [e]
    have zz' := abs_le.1 zz
    generalize z * z = y at *
    generalize s - z = x at *
    rw [abs_le]
    norm_num at hz' hd' zz' ⊢
    constructor <;> linarith [hz'.1, hz'.2, hd'.1, hd'.2, zz'.1, zz'.2]
  have y1 := abs_le.1 (c.trans ca)
  have y2 := abs_le.1 (abs_cos_le_one (aY z))
  have y3 := abs_le.1 (abs_cos_le_one (aU z))
  have e : pM z - dE s = 0.00000001 * (z * z) + 0.0000331 * ((s - z) * (s + z)) + 0.10976 * (cos (aX z) - cos (0.785 + 8328.6914 * s)) + 0.02224 * cos (aY z) - 0.03342 * cos (aU z) := by
    unfold pM dE; ring
  rw [e]
  have zz' := abs_le.1 zz
  have ds' := abs_le.1 ds
  generalize z * z = w1 at *
  generalize (s - z) * (s + z) = w2 at *
  generalize cos (aX z) - cos (0.785 + 8328.6914 * s) = w3 at *
  generalize cos (aY z) = w4 at *
  generalize cos (aU z) = w5 at *
  rw [abs_le]
  norm_num at y1 zz' ds' ⊢
  constructor <;> linarith [y1.1, y1.2, y2.1, y2.2, y3.1, y3.2, zz'.1, zz'.2, ds'.1, ds'.2]

/-- the new moon of `ecFast` against the instant at which the lead is really `W` -/
theorem ecNew_near4 {z : ℝ} (hz : |z| ≤ 4) : |ecNew (fS (-1) (-1) z) - z| ≤ 0.00000114 := by
  obtain ⟨W, hW⟩ : ∃ W, W = fS (-1) (-1) z := ⟨_, rfl⟩
  rw [← hW]
  have hzR : |z| ≤ 4.01 := hz.trans (by norm_num)
  have close : ∀ {t e : ℝ}, |t - z| ≤ e → e ≤ 0.01 → |t| ≤ 4.01 := by
    intro t e h he
    have h5 := abs_add_le (t - z) z
    rw [sub_add_cancel] at h5
    norm_num at hz he ⊢
    linarith
  obtain ⟨t0, ht0⟩ : ∃ t0, t0 = ecMean W := ⟨_, rfl⟩
  obtain ⟨r, hr⟩ : ∃ r, r = fS (-1) (-1) z - (-1.08472 + 7771.37714500204 * z) - pM z := ⟨_, rfl⟩
  have hrb : |r| ≤ 0.0306 := by rw [hr]; exact fS_approx z hzR
  have hdv : 7771.37714500204 * (t0 - z) = pM z + r := by
    rw [ht0, hr, hW]
    unfold ecMean
    ring
  have hdD : |t0 - z| ≤ 0.0000253 := by
    have : |7771.37714500204 * (t0 - z)| ≤ 0.0000253 * 7771.37714500204 := by
      rw [hdv]
      refine ((abs_add_le _ _).trans (add_le_add (pM_bd (by norm_num) hzR) hrb)).trans ?_
      norm_num
    rw [abs_mul, abs_of_pos (by norm_num), mul_comm] at this
    exact le_of_mul_le_mul_right this (by norm_num)
  have t0R : |t0| ≤ 4.01 := close hdD (by norm_num)
  have st := dE_pM hzR t0R hdD
  obtain ⟨t1, ht1⟩ : ∃ t1, t1 = ecNear t0 := ⟨_, rfl⟩
  have ht1' : t1 = t0 - dE t0 / 7771 := by rw [ht1]; rfl
  have dEb : |dE t0| ≤ 0.112 := by
    unfold dE
    have zz : |t0 * t0| ≤ 4.01 * 4.01 := by rw [abs_mul]; exact mul_le_mul t0R t0R (abs_nonneg _) (by norm_num)
    have zz' := abs_le.1 zz
    have y2 := abs_le.1 (abs_cos_le_one (0.785 + 8328.6914 * t0))
    rw [mul_assoc (-0.0000331 : ℝ), abs_le]
    generalize t0 * t0 = w1 at *
    generalize cos (0.785 + 8328.6914 * t0) = w2 at *
    norm_num at zz' ⊢
    constructor <;> linarith [zz'.1, zz'.2, y2.1, y2.2]
  have E1 : |t1 - z| ≤ 0.0000142 := by
    have e : t1 - z = (r + (pM z - dE t0) - (7771.37714500204 / 7771 - 1) * dE t0) / 7771.37714500204 := by
      rw [ht1', eq_div_iff (by norm_num)]
      have : (t0 - dE t0 / 7771 - z) * 7771.37714500204 = 7771.37714500204 * (t0 - z) - 7771.37714500204 / 7771 * dE t0 := by ring
      rw [this, hdv]; ring
    rw [e, abs_div, abs_of_pos (by norm_num : (0 : ℝ) < 7771.37714500204), div_le_iff₀ (by norm_num)]
    have h1 := abs_le.1 hrb
    have h2 := abs_le.1 st
    have h3 := abs_le.1 dEb
    generalize pM z - dE t0 = w at *
    generalize dE t0 = y at *
    rw [abs_le]
    norm_num at h1 h2 h3 ⊢
    constructor <;> linarith [h1.1, h1.2, h2.1, h2.2, h3.1, h3.2]
  have t1R := close E1 (by norm_num)
  have hT : |ecLead t1 - fS (-1) (-1) t1| ≤ 0.003 := by
    have h1 := lead_gM t1R
    have h2 := gM_fS (R := 4.01) (by norm_num) (by norm_num) t1 t1R
    have h3 := abs_add_le (ecLead t1 - gM t1) (gM t1 - fS (-1) (-1) t1)
    rw [sub_add_sub_cancel] at h3
    refine h3.trans ((add_le_add h1 h2).trans ?_)
    norm_num
  have hs : ecSpeed t1 = vF t1 := by unfold ecSpeed vF; ring_nf
  have E2 := newton_step (g := ecLead) (V := 6518) fS_nearF (by norm_num) (by norm_num) t1R hzR (by norm_num) (vF_ge t1) hT E1
  rw [← hW, ← hs] at E2
  have hN : ecNew W = t1 + (W - ecLead t1) / ecSpeed t1 := by unfold ecNew; rw [← ht0, ← ht1]
  rw [hN]
  exact E2.trans (by norm_num)

/-- **C91 (accuracy).**  From 1600 to 2400 the new moon `ecFast` computes for the lead `W` (a whole number of turns) is within an hour of the instant at which the moon's lead over the
sun is `W` according to the full theory. -/
theorem c91_new_moon (b : Tab) (hb : Builtin b) (W : ℝ) (hW : |W + 1.08472| ≤ 31085) :
    ∃ z, |z| ≤ 4 ∧ msALon b z (-1) (-1) = some W ∧ |ecNew W - z| * 36525 * 24 ≤ 1 := by
  obtain ⟨z, q, h4, hz, -, -⟩ := c77_fast b hb W hW
  refine ⟨z, h4, hz, ?_⟩
  have hf : fS (-1) (-1) z = W := by
    rw [msALon_fS b hb (by have := (abs_le.1 h4).2; linarith) (-1) (-1) (by norm_num) (by norm_num) (by norm_num)] at hz
    exact Option.some.inj hz
  have := ecNew_near4 h4
  rw [hf] at this
  norm_num at this ⊢
  linarith

/-- the new moon number 300, in the year 2024 -/
example : ∃ z, |z| ≤ 4 ∧ msALon builtinTab z (-1) (-1) = some (300 * π * 2) ∧ |ecNew (300 * π * 2) - z| * 36525 * 24 ≤ 1 :=
  c91_new_moon builtinTab builtinTab_ok _ (by
    have p1 := pi_gt_d6
    have p2 := pi_lt_d6
    rw [abs_le]; norm_num at p1 p2 ⊢; constructor <;> linarith)

end Verif.Longitude
