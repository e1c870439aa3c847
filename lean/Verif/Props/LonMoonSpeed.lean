import Verif.Props.LonMoonNear

/-!
# The moon's longitude moves with the speed `M_v` (used by C75)
-/

namespace Verif.Longitude

open Real Verif.Series Verif.EphTab

/-- the longitude of the moon without the terms added after the year 3000 -/
noncomputable def mS (n : ℤ) (t : ℝ) : ℝ :=
  (meanS t + (ordM 0 ((mT 0).take (useM n 0)) t + ordM 1 ((mT 1).take (useM n 1)) t + ordM 2 ((mT 2).take (useM n 2)) t
    + ordM 3 ((mT 3).take (useM n 3)) t)) / radSec

theorem mR_mS (n : ℤ) {t : ℝ} (h : t ≤ 10) : mR n t = mS n t := by
  unfold mR mS
  rw [moonMean_meanS h]

theorem mT_len : (mT 0).length = 442 ∧ (mT 1).length = 149 ∧ (mT 2).length = 34 ∧ (mT 3).length = 2 := by decide +kernel
theorem useM_all : useM (-1) 0 = 442 ∧ useM (-1) 1 = 149 ∧ useM (-1) 2 = 34 ∧ useM (-1) 3 = 2 := by decide +kernel

theorem mS_all (t : ℝ) : mS (-1) t = (meanS t + (ordM 0 (mT 0) t + ordM 1 (mT 1) t + ordM 2 (mT 2) t + ordM 3 (mT 3) t)) / radSec := by
  obtain ⟨l0, l1, l2, l3⟩ := mT_len
  obtain ⟨u0, u1, u2, u3⟩ := useM_all
  unfold mS
  rw [u0, u1, u2, u3, List.take_of_length_le l0.le, List.take_of_length_le l1.le, List.take_of_length_le l2.le, List.take_of_length_le l3.le]

theorem mT_head : (mT 0).take 15 = [(22639586000000, 784758220, 8328691424623, 1522924100, 25071900000, -123598000), (4586438000000, 187397400, 7214062865360, -2184756000, -18860000000, 82800000), (2369914000000, 2542952000, 15542754289980, -661832000, 6212000000, -40800000), (769026000000, 3140313000, 16657382849250, 3045850000, 50144000000, -247200000), (666418000000, 1527671000, 628301955210, -26640000, 62000000, -5400000), (411596000000, 4826607000, 16866932315000, -1280120000, -1070000000, -5900000), (211656000000, 4115028000, -1114628559300, -3707680000, -43930000000, 206400000), (205436000000, 230523000, 6585760910100, -2158120000, -18920000000, 88200000), (191956000000, 4898507000, 23871445714600, 861090000, 31280000000, -164000000), (164729000000, 2586078000, 14914452334800, -635200000, 6150000000, -35000000), (147321000000, 5455300000, -7700389469400, -1549600000, -25010000000, 118000000), (124988000000, 486080000, 7771377145000, -330900000, 3110000000, -20000000), (109380000000, 3883230000, 8956993379800, 1496300000, 25130000000, -129000000), (55177000000, 5570330000, -1324178025000, 618300000, 7300000000, -35000000), (45100000000, 898980000, 25195623740000, 242800000, 24000000000, -129000000)] := by decide +kernel
/-- the strong terms without a counterpart in the speed -/
def mX : List T6 := [(666418000000, 1527671000, 628301955210, -26640000, 62000000, -5400000), (211656000000, 4115028000, -1114628559300, -3707680000, -43930000000, 206400000), (147321000000, 5455300000, -7700389469400, -1549600000, -25010000000, 118000000), (55177000000, 5570330000, -1324178025000, 618300000, 7300000000, -35000000)]
theorem ord0_split (t : ℝ) : ordM 0 (mT 0) t = dec 22639586000000 * cos (ph (dec 784758220) (dec 8328691424623) (dec 1522924100) (dec 25071900000) (dec (-123598000)) t)
    + dec 4586438000000 * cos (ph (dec 187397400) (dec 7214062865360) (dec (-2184756000)) (dec (-18860000000)) (dec 82800000) t)
    + dec 2369914000000 * cos (ph (dec 2542952000) (dec 15542754289980) (dec (-661832000)) (dec 6212000000) (dec (-40800000)) t)
    + dec 769026000000 * cos (ph (dec 3140313000) (dec 16657382849250) (dec 3045850000) (dec 50144000000) (dec (-247200000)) t)
    + dec 411596000000 * cos (ph (dec 4826607000) (dec 16866932315000) (dec (-1280120000)) (dec (-1070000000)) (dec (-5900000)) t)
    + dec 205436000000 * cos (ph (dec 230523000) (dec 6585760910100) (dec (-2158120000)) (dec (-18920000000)) (dec 88200000) t)
    + dec 191956000000 * cos (ph (dec 4898507000) (dec 23871445714600) (dec 861090000) (dec 31280000000) (dec (-164000000)) t)
    + dec 164729000000 * cos (ph (dec 2586078000) (dec 14914452334800) (dec (-635200000)) (dec 6150000000) (dec (-35000000)) t)
    + dec 124988000000 * cos (ph (dec 486080000) (dec 7771377145000) (dec (-330900000)) (dec 3110000000) (dec (-20000000)) t)
    + dec 109380000000 * cos (ph (dec 3883230000) (dec 8956993379800) (dec 1496300000) (dec 25130000000) (dec (-129000000)) t)
    + dec 45100000000 * cos (ph (dec 898980000) (dec 25195623740000) (dec 242800000) (dec 24000000000) (dec (-129000000)) t)
    + (ordM 0 mX t + ordM 0 ((mT 0).drop 15) t) := by
  have e : ordM 0 (mT 0) t = ordM 0 ((mT 0).take 15) t + ordM 0 ((mT 0).drop 15) t := by rw [← ordM_append, List.take_append_drop]
  rw [e, mT_head]
  simp only [ordM, mX, ser6_cons, ser6_nil, pow_zero]
  ring

theorem mT_head3 : (mT 0).take 3 = [(22639586000000, 784758220, 8328691424623, 1522924100, 25071900000, -123598000), (4586438000000, 187397400, 7214062865360, -2184756000, -18860000000, 82800000), (2369914000000, 2542952000, 15542754289980, -661832000, 6212000000, -40800000)] := by decide +kernel
theorem ord0_split3 (t : ℝ) : ordM 0 (mT 0) t = dec 22639586000000 * cos (ph (dec 784758220) (dec 8328691424623) (dec 1522924100) (dec 25071900000) (dec (-123598000)) t)
    + dec 4586438000000 * cos (ph (dec 187397400) (dec 7214062865360) (dec (-2184756000)) (dec (-18860000000)) (dec 82800000) t)
    + dec 2369914000000 * cos (ph (dec 2542952000) (dec 15542754289980) (dec (-661832000)) (dec 6212000000) (dec (-40800000)) t)
    + ordM 0 ((mT 0).drop 3) t := by
  have e : ordM 0 (mT 0) t = ordM 0 ((mT 0).take 3) t + ordM 0 ((mT 0).drop 3) t := by rw [← ordM_append, List.take_append_drop]
  rw [e, mT_head3]
  simp only [ordM, ser6_cons, ser6_nil, pow_zero]
  ring

theorem mT_spd : spd6 ((mT 0).drop 15) ≤ 71791 * 10 ^ 28 ∧ spd6 mX ≤ 18622 * 10 ^ 28 ∧ spd6 ((mT 0).drop 3) ≤ 40273 * 10 ^ 29 ∧ spd6 (mT 1) ≤ 23048 * 10 ^ 26 ∧ spd6 (mT 2) ≤ 65436 * 10 ^ 23 ∧ spd6 (mT 3) ≤ 28942 * 10 ^ 17 := by
  decide +kernel
theorem mT_amp : amp6 (mT 0) ≤ 33178680000000 ∧ amp6 (mT 1) ≤ 4176880000 ∧ amp6 (mT 2) ≤ 14045000 ∧ amp6 (mT 3) ≤ 13700 := by
  decide +kernel

/-- the part of a series whose increments are only bounded -/
theorem restM_lip {R : ℝ} (hR : 0 ≤ R) (hR30 : R ≤ 30) (i : ℕ) (l : List T6) (S A : ℕ) (hS : spd6 l ≤ S) (hA : amp6 l ≤ A) :
    Lip R (fun t => ordM i l t / radSec) ((R ^ i * ((S : ℝ) / 10 ^ 26) + i * R ^ (i - 1) * ((A : ℝ) / 10 ^ 9)) / 206264.7) := by
  have h1 : ((spd6 l : ℕ) : ℝ) ≤ S := by exact_mod_cast hS
  have h2 : ((amp6 l : ℕ) : ℝ) ≤ A := by exact_mod_cast hA
  have r1 := radSec_gt'
  have r0 : 0 < radSec := by norm_num at r1; linarith
  intro s t hs ht
  have h := (ordM_lip hR hR30 i l) s t hs ht
  rw [← sub_div, abs_div, abs_of_pos r0]
  rw [div_mul_eq_mul_div]
  refine div_le_div₀ (by positivity) (h.trans ?_) (by norm_num) r1.le
  gcongr
theorem restM_bd {R : ℝ} (hR : 0 ≤ R) (i : ℕ) (l : List T6) (A : ℕ) (hA : amp6 l ≤ A) :
    Bd R (fun t => ordM i l t / radSec) (R ^ i * ((A : ℝ) / 10 ^ 9) / 206264.7) := by
  have h2 : ((amp6 l : ℕ) : ℝ) ≤ A := by exact_mod_cast hA
  have r1 := radSec_gt'
  have r0 : 0 < radSec := by norm_num at r1; linarith
  intro t ht
  have h := ordM_bd hR i l t ht
  show |ordM i l t / radSec| ≤ _
  rw [abs_div, abs_of_pos r0]
  refine div_le_div₀ (by positivity) (h.trans ?_) (by norm_num) r1.le
  gcongr

theorem mS_near30 : Near 30 (mS (-1)) mV 133.78 7058958 := by
  have t0 := near_term (R := 30) (A := dec 22639586000000) (b := dec 784758220) (w := dec 8328691424623) (x := dec 1522924100) (y := dec 25071900000) (z := dec (-123598000)) (V := 914) (φ := 0.7848) (Ω := 8328.691425) (κ := 0.0001523) (d := 0.1561) (e := 0.00784) (δ := 0.00995) (a1 := 0.10975987)
    (by norm_num) (by norm_num [dec]) (by norm_num [dec]) (by norm_num [dec]) (by norm_num) (by norm_num) (by norm_num [dec]) (by norm_num [dec]) (by norm_num [dec, abs_of_pos, abs_of_neg]) (by norm_num [dec, abs_of_pos, abs_of_neg])
  have t1 := near_term (R := 30) (A := dec 4586438000000) (b := dec 187397400) (w := dec 7214062865360) (x := dec (-2184756000)) (y := dec (-18860000000)) (z := dec 82800000) (V := 160) (φ := 0.1874) (Ω := 7214.0629) (κ := 0) (d := 0.4097) (e := 0.20344) (δ := 0.01371) (a1 := 0.0222357)
    (by norm_num) (by norm_num [dec]) (by norm_num [dec]) (by norm_num [dec]) (by norm_num) (by norm_num) (by norm_num [dec]) (by norm_num [dec]) (by norm_num [dec, abs_of_pos, abs_of_neg]) (by norm_num [dec, abs_of_pos, abs_of_neg])
  have t2 := near_term (R := 30) (A := dec 2369914000000) (b := dec 2542952000) (w := dec 15542754289980) (x := dec (-661832000)) (y := dec 6212000000) (z := dec (-40800000)) (V := 179) (φ := 2.543) (Ω := 15542.7543) (κ := 0) (d := 0.4191) (e := 0.06193) (δ := 0.00419) (a1 := 0.01148968)
    (by norm_num) (by norm_num [dec]) (by norm_num [dec]) (by norm_num [dec]) (by norm_num) (by norm_num) (by norm_num [dec]) (by norm_num [dec]) (by norm_num [dec, abs_of_pos, abs_of_neg]) (by norm_num [dec, abs_of_pos, abs_of_neg])
  have t3 := near_term (R := 30) (A := dec 769026000000) (b := dec 3140313000) (w := dec 16657382849250) (x := dec 3045850000) (y := dec 50144000000) (z := dec (-247200000)) (V := 62) (φ := 3.14) (Ω := 16657.3828) (κ := 0) (d := 0.1045) (e := 0.29146) (δ := 0.0199) (a1 := 0.00372835)
    (by norm_num) (by norm_num [dec]) (by norm_num [dec]) (by norm_num [dec]) (by norm_num) (by norm_num) (by norm_num [dec]) (by norm_num [dec]) (by norm_num [dec, abs_of_pos, abs_of_neg]) (by norm_num [dec, abs_of_pos, abs_of_neg])
  have t5 := near_term (R := 30) (A := dec 411596000000) (b := dec 4826607000) (w := dec 16866932315000) (x := dec (-1280120000)) (y := dec (-1070000000)) (z := dec (-5900000)) (V := 34) (φ := 4.827) (Ω := 16866.9323) (κ := 0) (d := 0.3425) (e := 0.1164) (δ := 0.00772) (a1 := 0.00199548)
    (by norm_num) (by norm_num [dec]) (by norm_num [dec]) (by norm_num [dec]) (by norm_num) (by norm_num) (by norm_num [dec]) (by norm_num [dec]) (by norm_num [dec, abs_of_pos, abs_of_neg]) (by norm_num [dec, abs_of_pos, abs_of_neg])
  have t7 := near_term (R := 30) (A := dec 205436000000) (b := dec 230523000) (w := dec 6585760910100) (x := dec (-2158120000)) (y := dec (-18920000000)) (z := dec 88200000) (V := 7) (φ := 0.23) (Ω := 6585.7609) (κ := 0) (d := 0.4408) (e := 0.20088) (δ := 0.01356) (a1 := 0.00099599)
    (by norm_num) (by norm_num [dec]) (by norm_num [dec]) (by norm_num [dec]) (by norm_num) (by norm_num) (by norm_num [dec]) (by norm_num [dec]) (by norm_num [dec, abs_of_pos, abs_of_neg]) (by norm_num [dec, abs_of_pos, abs_of_neg])
  have t8 := near_term (R := 30) (A := dec 191956000000) (b := dec 4898507000) (w := dec 23871445714600) (x := dec 861090000) (y := dec 31280000000) (z := dec (-164000000)) (V := 22) (φ := 4.9) (Ω := 23871.4457) (κ := 0) (d := 0.2155) (e := 0.08921) (δ := 0.00619) (a1 := 0.00093063)
    (by norm_num) (by norm_num [dec]) (by norm_num [dec]) (by norm_num [dec]) (by norm_num) (by norm_num) (by norm_num [dec]) (by norm_num [dec]) (by norm_num [dec, abs_of_pos, abs_of_neg]) (by norm_num [dec, abs_of_pos, abs_of_neg])
  have t9 := near_term (R := 30) (A := dec 164729000000) (b := dec 2586078000) (w := dec 14914452334800) (x := dec (-635200000)) (y := dec 6150000000) (z := dec (-35000000)) (V := 12) (φ := 2.59) (Ω := 14914.4523) (κ := 0) (d := 0.0889) (e := 0.06408) (δ := 0.00402) (a1 := 0.00079863)
    (by norm_num) (by norm_num [dec]) (by norm_num [dec]) (by norm_num [dec]) (by norm_num) (by norm_num) (by norm_num [dec]) (by norm_num [dec]) (by norm_num [dec, abs_of_pos, abs_of_neg]) (by norm_num [dec, abs_of_pos, abs_of_neg])
  have t11 := near_term (R := 30) (A := dec 124988000000) (b := dec 486080000) (w := dec 7771377145000) (x := dec (-330900000)) (y := dec 3110000000) (z := dec (-20000000)) (V := 5) (φ := 0.49) (Ω := 7771.3771) (κ := 0) (d := 0.2909) (e := 0.03606) (δ := 0.0021) (a1 := 0.00060596)
    (by norm_num) (by norm_num [dec]) (by norm_num [dec]) (by norm_num [dec]) (by norm_num) (by norm_num) (by norm_num [dec]) (by norm_num [dec]) (by norm_num [dec, abs_of_pos, abs_of_neg]) (by norm_num [dec, abs_of_pos, abs_of_neg])
  have t12 := near_term (R := 30) (A := dec 109380000000) (b := dec 3883230000) (w := dec 8956993379800) (x := dec 1496300000) (y := dec 25130000000) (z := dec (-129000000)) (V := 5) (φ := 3.88) (Ω := 8956.9934) (κ := 0) (d := 0.2503) (e := 0.14634) (δ := 0.0098) (a1 := 0.00053029)
    (by norm_num) (by norm_num [dec]) (by norm_num [dec]) (by norm_num [dec]) (by norm_num) (by norm_num) (by norm_num [dec]) (by norm_num [dec]) (by norm_num [dec, abs_of_pos, abs_of_neg]) (by norm_num [dec, abs_of_pos, abs_of_neg])
  have t14 := near_term (R := 30) (A := dec 45100000000) (b := dec 898980000) (w := dec 25195623740000) (x := dec 242800000) (y := dec 24000000000) (z := dec (-129000000)) (V := 5) (φ := 0.9) (Ω := 25195.624) (κ := 0) (d := 0.5091) (e := 0.0382) (δ := 0.00225) (a1 := 0.00021866)
    (by norm_num) (by norm_num [dec]) (by norm_num [dec]) (by norm_num [dec]) (by norm_num) (by norm_num) (by norm_num [dec]) (by norm_num [dec]) (by norm_num [dec, abs_of_pos, abs_of_neg]) (by norm_num [dec, abs_of_pos, abs_of_neg])
  obtain ⟨s15, sX, -, s1, s2, s3⟩ := mT_spd
  obtain ⟨a0, a1, a2, a3⟩ := mT_amp
  have aX : amp6 mX ≤ 10 ^ 15 := by decide +kernel
  have a15 : amp6 ((mT 0).drop 15) ≤ 10 ^ 15 := by decide +kernel
  have u15 := Near.of_lip (restM_lip (R := 30) (by norm_num) (by norm_num) 0 ((mT 0).drop 15) _ _ s15 a15)
  have uX := Near.of_lip (restM_lip (R := 30) (by norm_num) (by norm_num) 0 mX _ _ sX aX)
  have u1 := Near.of_lip (restM_lip (R := 30) (by norm_num) (by norm_num) 1 (mT 1) _ _ s1 a1)
  have u2 := Near.of_lip (restM_lip (R := 30) (by norm_num) (by norm_num) 2 (mT 2) _ _ s2 a2)
  have u3 := Near.of_lip (restM_lip (R := 30) (by norm_num) (by norm_num) 3 (mT 3) _ _ s3 a3)
  have c0 := Near.of_lip (Lip.const (R := 30) 3.81034409)
  have c1 := (Near.linear (R := 30) 8399.709110372).speed (w := fun _ => 8399.71) (L := 0.00089) (fun s _ => by norm_num [abs_le])
  have c2 := Near.of_lip ((Lip.pow (R := 30) (by norm_num) 2).smul (-0.0000277967))
  have c3 := Near.of_lip (polyM_lip (R := 30) (by norm_num))
  have c4 := (Near.of_lip (Lip.const (R := 30) 0)).speed (w := fun s => -(5 * sin (2.32 - 7700.3895 * s))) (L := 5) (fun s _ => by
    rw [zero_sub, neg_neg, abs_mul, abs_of_pos (by norm_num : (0 : ℝ) < 5)]
    have := abs_sin_le_one (2.32 - 7700.3895 * s)
    linarith)
  have F := ((((((((((((((((((((c0.add c1).add c2).add c3).add c4).add t0).add t1).add t2).add t3).add t5).add t7).add t8).add t9).add t11).add t12).add t14).add uX).add u15).add u1).add u2).add u3)
  refine (F.congr (fun t => ?_) (fun t => ?_)).mono ?_ ?_
  · rw [mS_all, add_div, meanS_eq, ord0_split]
    ring
  · unfold mV
    simp only [zero_mul, add_zero]
    ring
  · push_cast
    norm_num [abs_of_pos, abs_of_neg]
  · norm_num [dec]

theorem mS_near5 : Near 5 (mS (-1)) mV 54.84 7058946 := by
  have t0 := near_term (R := 5) (A := dec 22639586000000) (b := dec 784758220) (w := dec 8328691424623) (x := dec 1522924100) (y := dec 25071900000) (z := dec (-123598000)) (V := 914) (φ := 0.7848) (Ω := 8328.691425) (κ := 0.0001523) (d := 0.1561) (e := 0.00008) (δ := 0.00155) (a1 := 0.10975987)
    (by norm_num) (by norm_num [dec]) (by norm_num [dec]) (by norm_num [dec]) (by norm_num) (by norm_num) (by norm_num [dec]) (by norm_num [dec]) (by norm_num [dec, abs_of_pos, abs_of_neg]) (by norm_num [dec, abs_of_pos, abs_of_neg])
  have t1 := near_term (R := 5) (A := dec 4586438000000) (b := dec 187397400) (w := dec 7214062865360) (x := dec (-2184756000)) (y := dec (-18860000000)) (z := dec 82800000) (V := 160) (φ := 0.1874) (Ω := 7214.0629) (κ := 0) (d := 0.4097) (e := 0.00567) (δ := 0.0022) (a1 := 0.0222357)
    (by norm_num) (by norm_num [dec]) (by norm_num [dec]) (by norm_num [dec]) (by norm_num) (by norm_num) (by norm_num [dec]) (by norm_num [dec]) (by norm_num [dec, abs_of_pos, abs_of_neg]) (by norm_num [dec, abs_of_pos, abs_of_neg])
  have t2 := near_term (R := 5) (A := dec 2369914000000) (b := dec 2542952000) (w := dec 15542754289980) (x := dec (-661832000)) (y := dec 6212000000) (z := dec (-40800000)) (V := 179) (φ := 2.543) (Ω := 15542.7543) (κ := 0) (d := 0.4191) (e := 0.00177) (δ := 0.00067) (a1 := 0.01148968)
    (by norm_num) (by norm_num [dec]) (by norm_num [dec]) (by norm_num [dec]) (by norm_num) (by norm_num) (by norm_num [dec]) (by norm_num [dec]) (by norm_num [dec, abs_of_pos, abs_of_neg]) (by norm_num [dec, abs_of_pos, abs_of_neg])
  have t3 := near_term (R := 5) (A := dec 769026000000) (b := dec 3140313000) (w := dec 16657382849250) (x := dec 3045850000) (y := dec 50144000000) (z := dec (-247200000)) (V := 62) (φ := 3.14) (Ω := 16657.3828) (κ := 0) (d := 0.1045) (e := 0.00824) (δ := 0.00309) (a1 := 0.00372835)
    (by norm_num) (by norm_num [dec]) (by norm_num [dec]) (by norm_num [dec]) (by norm_num) (by norm_num) (by norm_num [dec]) (by norm_num [dec]) (by norm_num [dec, abs_of_pos, abs_of_neg]) (by norm_num [dec, abs_of_pos, abs_of_neg])
  have t5 := near_term (R := 5) (A := dec 411596000000) (b := dec 4826607000) (w := dec 16866932315000) (x := dec (-1280120000)) (y := dec (-1070000000)) (z := dec (-5900000)) (V := 34) (φ := 4.827) (Ω := 16866.9323) (κ := 0) (d := 0.3425) (e := 0.00367) (δ := 0.00129) (a1 := 0.00199548)
    (by norm_num) (by norm_num [dec]) (by norm_num [dec]) (by norm_num [dec]) (by norm_num) (by norm_num) (by norm_num [dec]) (by norm_num [dec]) (by norm_num [dec, abs_of_pos, abs_of_neg]) (by norm_num [dec, abs_of_pos, abs_of_neg])
  have t7 := near_term (R := 5) (A := dec 205436000000) (b := dec 230523000) (w := dec 6585760910100) (x := dec (-2158120000)) (y := dec (-18920000000)) (z := dec 88200000) (V := 7) (φ := 0.23) (Ω := 6585.7609) (κ := 0) (d := 0.4408) (e := 0.006) (δ := 0.00218) (a1 := 0.00099599)
    (by norm_num) (by norm_num [dec]) (by norm_num [dec]) (by norm_num [dec]) (by norm_num) (by norm_num) (by norm_num [dec]) (by norm_num [dec]) (by norm_num [dec, abs_of_pos, abs_of_neg]) (by norm_num [dec, abs_of_pos, abs_of_neg])
  have t8 := near_term (R := 5) (A := dec 191956000000) (b := dec 4898507000) (w := dec 23871445714600) (x := dec 861090000) (y := dec 31280000000) (z := dec (-164000000)) (V := 22) (φ := 4.9) (Ω := 23871.4457) (κ := 0) (d := 0.2155) (e := 0.00376) (δ := 0.00089) (a1 := 0.00093063)
    (by norm_num) (by norm_num [dec]) (by norm_num [dec]) (by norm_num [dec]) (by norm_num) (by norm_num) (by norm_num [dec]) (by norm_num [dec]) (by norm_num [dec, abs_of_pos, abs_of_neg]) (by norm_num [dec, abs_of_pos, abs_of_neg])
  have t9 := near_term (R := 5) (A := dec 164729000000) (b := dec 2586078000) (w := dec 14914452334800) (x := dec (-635200000)) (y := dec 6150000000) (z := dec (-35000000)) (V := 12) (φ := 2.59) (Ω := 14914.4523) (κ := 0) (d := 0.0889) (e := 0.0057) (δ := 0.00064) (a1 := 0.00079863)
    (by norm_num) (by norm_num [dec]) (by norm_num [dec]) (by norm_num [dec]) (by norm_num) (by norm_num) (by norm_num [dec]) (by norm_num [dec]) (by norm_num [dec, abs_of_pos, abs_of_neg]) (by norm_num [dec, abs_of_pos, abs_of_neg])
  have t11 := near_term (R := 5) (A := dec 124988000000) (b := dec 486080000) (w := dec 7771377145000) (x := dec (-330900000)) (y := dec 3110000000) (z := dec (-20000000)) (V := 5) (φ := 0.49) (Ω := 7771.3771) (κ := 0) (d := 0.2909) (e := 0.00498) (δ := 0.00034) (a1 := 0.00060596)
    (by norm_num) (by norm_num [dec]) (by norm_num [dec]) (by norm_num [dec]) (by norm_num) (by norm_num) (by norm_num [dec]) (by norm_num [dec]) (by norm_num [dec, abs_of_pos, abs_of_neg]) (by norm_num [dec, abs_of_pos, abs_of_neg])
  have t12 := near_term (R := 5) (A := dec 109380000000) (b := dec 3883230000) (w := dec 8956993379800) (x := dec 1496300000) (y := dec 25130000000) (z := dec (-129000000)) (V := 5) (φ := 3.88) (Ω := 8956.9934) (κ := 0) (d := 0.2503) (e := 0.00711) (δ := 0.00152) (a1 := 0.00053029)
    (by norm_num) (by norm_num [dec]) (by norm_num [dec]) (by norm_num [dec]) (by norm_num) (by norm_num) (by norm_num [dec]) (by norm_num [dec]) (by norm_num [dec, abs_of_pos, abs_of_neg]) (by norm_num [dec, abs_of_pos, abs_of_neg])
  have t14 := near_term (R := 5) (A := dec 45100000000) (b := dec 898980000) (w := dec 25195623740000) (x := dec 242800000) (y := dec 24000000000) (z := dec (-129000000)) (V := 5) (φ := 0.9) (Ω := 25195.624) (κ := 0) (d := 0.5091) (e := 0.00296) (δ := 0.00027) (a1 := 0.00021866)
    (by norm_num) (by norm_num [dec]) (by norm_num [dec]) (by norm_num [dec]) (by norm_num) (by norm_num) (by norm_num [dec]) (by norm_num [dec]) (by norm_num [dec, abs_of_pos, abs_of_neg]) (by norm_num [dec, abs_of_pos, abs_of_neg])
  obtain ⟨s15, sX, -, s1, s2, s3⟩ := mT_spd
  obtain ⟨a0, a1, a2, a3⟩ := mT_amp
  have aX : amp6 mX ≤ 10 ^ 15 := by decide +kernel
  have a15 : amp6 ((mT 0).drop 15) ≤ 10 ^ 15 := by decide +kernel
  have u15 := Near.of_lip (restM_lip (R := 5) (by norm_num) (by norm_num) 0 ((mT 0).drop 15) _ _ s15 a15)
  have uX := Near.of_lip (restM_lip (R := 5) (by norm_num) (by norm_num) 0 mX _ _ sX aX)
  have u1 := Near.of_lip (restM_lip (R := 5) (by norm_num) (by norm_num) 1 (mT 1) _ _ s1 a1)
  have u2 := Near.of_lip (restM_lip (R := 5) (by norm_num) (by norm_num) 2 (mT 2) _ _ s2 a2)
  have u3 := Near.of_lip (restM_lip (R := 5) (by norm_num) (by norm_num) 3 (mT 3) _ _ s3 a3)
  have c0 := Near.of_lip (Lip.const (R := 5) 3.81034409)
  have c1 := (Near.linear (R := 5) 8399.709110372).speed (w := fun _ => 8399.71) (L := 0.00089) (fun s _ => by norm_num [abs_le])
  have c2 := Near.of_lip ((Lip.pow (R := 5) (by norm_num) 2).smul (-0.0000277967))
  have c3 := Near.of_lip (polyM_lip (R := 5) (by norm_num))
  have c4 := (Near.of_lip (Lip.const (R := 5) 0)).speed (w := fun s => -(5 * sin (2.32 - 7700.3895 * s))) (L := 5) (fun s _ => by
    rw [zero_sub, neg_neg, abs_mul, abs_of_pos (by norm_num : (0 : ℝ) < 5)]
    have := abs_sin_le_one (2.32 - 7700.3895 * s)
    linarith)
  have F := ((((((((((((((((((((c0.add c1).add c2).add c3).add c4).add t0).add t1).add t2).add t3).add t5).add t7).add t8).add t9).add t11).add t12).add t14).add uX).add u15).add u1).add u2).add u3)
  refine (F.congr (fun t => ?_) (fun t => ?_)).mono ?_ ?_
  · rw [mS_all, add_div, meanS_eq, ord0_split]
    ring
  · unfold mV
    simp only [zero_mul, add_zero]
    ring
  · push_cast
    norm_num [abs_of_pos, abs_of_neg]
  · norm_num [dec]

end Verif.Longitude
