import Verif.Props.LonMoonSpeed
import Verif.Props.LonSunTime

/-!
# C75: the instant at which the moon is a given angle ahead of the sun
-/

namespace Verif.Longitude

open Real Verif.Series Verif.EphTab

/-! ## The sun: increments and truncations -/

theorem eT_spd1 : spdI ((eT 0).drop 1) ≤ 2183045638281469842186000000000 ∧ spdI ((eT 1).drop 1) ≤ 135376888017791601140000000000
    ∧ spdI (eT 2) ≤ 5999602845709800000000000000 := by
  decide +kernel

theorem eR_lip : Lip 30 (fun t => eR (-1) t - 628.33196674749 * t) 26.6 := by
  obtain ⟨u0, u1, -⟩ := useE_all
  have h0 : 1 ≤ useE (-1) 0 := by omega
  have h1 : 1 ≤ useE (-1) 1 := by omega
  have M := eT_amp
  have S := eT_spd
  have S1 := eT_spd1
  have B0 := rest_lip 0 ((eT 0).drop 1) (useE (-1) 0 - 1) _ _ S1.1 M.1
  have B1 := rest_lip 1 ((eT 1).drop 1) (useE (-1) 1 - 1) _ _ S1.2.1 M.2.1
  have B2 := rest_lip 2 (eT 2) (useE (-1) 2) _ _ S1.2.2 M.2.2.1
  have B3 := rest_lip 3 (eT 3) (useE (-1) 3) _ _ S.2.2.2.1 M.2.2.2.2.2.1
  have B4 := rest_lip 4 (eT 4) (useE (-1) 4) _ _ S.2.2.2.2.1 M.2.2.2.2.2.2.1
  have B5 := rest_lip 5 (eT 5) (useE (-1) 5) _ _ S.2.2.2.2.2 M.2.2.2.2.2.2.2
  refine (((((((B0.add B1).add B2).add B3).add B4).add B5).add corrE_lip).add (Lip.const 1.7534704567)).congr (fun t => ?_) |>.mono ?_
  · unfold eR
    have e0 : ordL 0 ((eT 0).take 1) t / 10 ^ 10 = 1.7534704567 := by
      rw [eT_head01, ordL, ser_cons, ser_nil]
      simp only [dec]
      norm_num
    have e1 : ordL 1 ((eT 1).take 1) t / 10 ^ 10 = 628.33196674749 * t := by
      rw [eT_head11, ordL, ser_cons, ser_nil]
      simp only [dec]
      norm_num
      ring
    rw [take_split (eT 0) h0, take_split (eT 1) h1, ordL_append, ordL_append]
    rw [add_div, add_div, add_div, add_div, add_div, add_div, add_div, e0, e1]
    ring
  · push_cast
    norm_num

theorem eR_near_all : Near 30 (eR (-1)) eV 0.73 16500 := by
  obtain ⟨u0, u1, u2, -⟩ := useE_all
  exact eR_near (-1) (by omega) (by omega) (by omega)
theorem eR_mean_all : Bd 30 (fun t => eR (-1) t - (1.7534704567 + 628.33196674749 * t)) 0.0465 := by
  obtain ⟨u0, u1, -⟩ := useE_all
  exact eR_mean (-1) (by omega) (by omega)
theorem eR_trunc3 : Bd 30 (fun t => eR 3 t - eR (-1) t) 0.00042 := by
  refine (eR_trunc 3 4200000000000000 (by decide +kernel)).mono ?_
  norm_num
theorem eR_trunc10 : Bd 30 (fun t => eR 10 t - eR (-1) t) 0.0001702 := by
  refine (eR_trunc 10 1701532000000000 (by decide +kernel)).mono ?_
  norm_num
theorem eR_trunc60 : Bd 30 (fun t => eR 60 t - eR (-1) t) 0.0000183 := by
  refine (eR_trunc 60 183000000000000 (by decide +kernel)).mono ?_
  norm_num

/-! ## The moon: bounds and truncations -/

theorem mS_lip {R : ℝ} (hR : 0 ≤ R) (h30 : R ≤ 30) : Lip R (fun t => mS (-1) t - 8399.709110372 * t) 1452.1 := by
  have hs : spd6 (mT 0) ≤ 29875320738766503854964000000000000 := by decide +kernel
  obtain ⟨-, -, -, s1, s2, s3⟩ := mT_spd
  obtain ⟨a0, a1, a2, a3⟩ := mT_amp
  have u0 := restM_lip (R := 30) (by norm_num) (by norm_num) 0 (mT 0) _ _ hs a0
  have u1 := restM_lip (R := 30) (by norm_num) (by norm_num) 1 (mT 1) _ _ s1 a1
  have u2 := restM_lip (R := 30) (by norm_num) (by norm_num) 2 (mT 2) _ _ s2 a2
  have u3 := restM_lip (R := 30) (by norm_num) (by norm_num) 3 (mT 3) _ _ s3 a3
  have c2 := ((Lip.pow (R := 30) (by norm_num) 2).smul (-0.0000277967))
  have c3 := (polyM_lip (R := 30) (by norm_num))
  refine (((((((Lip.const 3.81034409).add c2).add c3).add u0).add u1).add u2).add u3).congr (fun t => ?_) |>.mono ?_ |>.restrict h30
  · rw [mS_all, add_div, meanS_eq]
    ring
  · push_cast
    norm_num [abs_of_pos, abs_of_neg]

theorem mS_mean {R : ℝ} (hR : 0 ≤ R) : Bd R (fun t => mS (-1) t - (3.81034409 + 8399.709110372 * t))
    (0.0000277967 * R ^ 2 + (0.0000001 * R + 0.0000000001 * R ^ 2 + 0.0000000315 * R ^ 3 + 0.00000000032 * R ^ 4 + 0.0000000000001 * R ^ 5)
      + 0.160856 + R * 0.000020251 + R ^ 2 * 0.0000000681 + R ^ 3 * 0.0000000001) := by
  obtain ⟨a0, a1, a2, a3⟩ := mT_amp
  have u0 := restM_bd hR 0 (mT 0) _ a0
  have u1 := restM_bd hR 1 (mT 1) _ a1
  have u2 := restM_bd hR 2 (mT 2) _ a2
  have u3 := restM_bd hR 3 (mT 3) _ a3
  have c2 := ((Bd.pow hR 2).smul (-0.0000277967))
  refine ((((((c2.add (polyM_bd hR)).add u0).add u1).add u2).add u3).congr (fun t => ?_)).mono ?_
  · rw [mS_all, add_div, meanS_eq]
    ring
  · push_cast
    rw [mul_div_assoc, mul_div_assoc, mul_div_assoc, mul_div_assoc]
    rw [abs_of_neg (by norm_num : (-0.0000277967 : ℝ) < 0), pow_zero, one_mul, pow_one]
    gcongr <;> norm_num

theorem mS_trunc {R : ℝ} (hR : 0 ≤ R) (n : ℤ) (A0 A1 A2 A3 : ℕ) (h0 : amp6 ((mT 0).drop (useM n 0)) ≤ A0) (h1 : amp6 ((mT 1).drop (useM n 1)) ≤ A1)
    (h2 : amp6 ((mT 2).drop (useM n 2)) ≤ A2) (h3 : amp6 ((mT 3).drop (useM n 3)) ≤ A3) :
    Bd R (fun t => mS n t - mS (-1) t) ((R ^ 0 * ((A0 : ℝ) / 10 ^ 9) / 206264.7 + R ^ 1 * ((A1 : ℝ) / 10 ^ 9) / 206264.7) + R ^ 2 * ((A2 : ℝ) / 10 ^ 9) / 206264.7 + R ^ 3 * ((A3 : ℝ) / 10 ^ 9) / 206264.7) := by
  have u0 := restM_bd hR 0 _ _ h0
  have u1 := restM_bd hR 1 _ _ h1
  have u2 := restM_bd hR 2 _ _ h2
  have u3 := restM_bd hR 3 _ _ h3
  have key : ∀ i t, ordM i (mT i) t = ordM i ((mT i).take (useM n i)) t + ordM i ((mT i).drop (useM n i)) t := fun i t => by
    rw [← ordM_append, List.take_append_drop]
  intro t ht
  have := (((u0.add u1).add u2).add u3) t ht
  show |mS n t - mS (-1) t| ≤ _
  rw [mS_all, key 0, key 1, key 2, key 3, ← abs_neg]
  refine le_trans (le_of_eq ?_) this
  congr 1
  unfold mS
  ring

theorem mS_trunc3 : Bd 30 (fun t => mS 3 t - mS (-1) t) 0.0177 := by
  refine (mS_trunc (R := 30) (by norm_num) 3 3582742000000 1983660000 6895000 1700 (by decide +kernel) (by decide +kernel) (by decide +kernel) (by decide +kernel)).mono ?_
  push_cast
  norm_num
theorem mS_trunc20 {R : ℝ} (hR : 0 ≤ R) : Bd R (fun t => mS 20 t - mS (-1) t) (0.001487 + R * 0.00000265 + R ^ 2 * 0.0000000262 + R ^ 3 * 0.0000000001) := by
  refine (mS_trunc hR 20 306702000000 544630000 5395000 1700 (by decide +kernel) (by decide +kernel) (by decide +kernel) (by decide +kernel)).mono ?_
  push_cast
  rw [mul_div_assoc, mul_div_assoc, mul_div_assoc, mul_div_assoc, pow_zero, one_mul, pow_one]
  gcongr <;> norm_num

/-! ## The difference -/

/-- `MS_aLon(t, Mn, Sn)` up to the year 3000, as a real function -/
noncomputable def fS (Mn Sn : ℤ) (t : ℝ) : ℝ := mS Mn t + gxcMoonLon t - (eR Sn t + gxcSunLon t + π)

theorem msALon_fS (b : Tab) (hb : Builtin b) {t : ℝ} (ht : t ≤ 10) (Mn Sn : ℤ) (h1 : -357913941 ≤ Mn) (h2 : Mn ≤ 130000) (h3 : Sn ≤ 600000) :
    msALon b t Mn Sn = some (fS Mn Sn t) := by
  unfold msALon
  rw [mLon_mR b hb t Mn h1 h2, eLon_eR b hb t Sn h3, mR_mS Mn ht]
  rfl

theorem Near.neg' {R K1 K2 : ℝ} {f v : ℝ → ℝ} (hf : Near R f v K1 K2) : Near R (fun t => -f t) (fun t => -v t) K1 K2 := hf.neg

theorem fS_near_of {R K1 K2 : ℝ} (h30 : R ≤ 30) (h : Near R (mS (-1)) mV K1 K2) : Near R (fS (-1) (-1)) (fun t => mV t - eV t) (K1 + 0.7312) (K2 + 16500) := by
  have h2 := ((eR_near_all.add (Near.of_lip gxc_lip)).add (Near.of_lip (Lip.const π))).neg.restrict h30
  refine ((h.add h2).add (Near.of_lip (Lip.const (-3.4E-6)))).congr (fun t => ?_) (fun t => ?_) |>.mono ?_ ?_
  · unfold fS gxcMoonLon; ring
  · ring
  · norm_num
  · norm_num

theorem fS_lip {R : ℝ} (hR : 0 ≤ R) (h30 : R ≤ 30) : Lip R (fun t => fS (-1) (-1) t - 7771.37714500204 * t) 1478.8 := by
  have h2 := ((eR_lip.add gxc_lip).add (Lip.const π)).restrict h30
  have h3 := (h2.smul (-1))
  have h4 := (Lip.id (R := R)).smul (8399.709110372 - 628.33196674749 - 7771.37714500204)
  refine ((((mS_lip hR h30).add h3).add h4).add (Lip.const (-3.4E-6))).congr (fun t => ?_) |>.mono ?_
  · unfold fS gxcMoonLon; ring
  · rw [abs_of_neg (by norm_num), abs_of_neg (by norm_num)]; norm_num

theorem fS_mean {R : ℝ} (hR : 0 ≤ R) (h30 : R ≤ 30) : Bd R (fun t => fS (-1) (-1) t - (-1.08472 + 7771.37714500204 * t))
    (0.0000277967 * R ^ 2 + (0.0000001 * R + 0.0000000001 * R ^ 2 + 0.0000000315 * R ^ 3 + 0.00000000032 * R ^ 4 + 0.0000000000001 * R ^ 5)
      + 0.160856 + R * 0.000020251 + R ^ 2 * 0.0000000681 + R ^ 3 * 0.0000000001 + 0.04661 + R * 0.0000015) := by
  have p1 := pi_gt_d6
  have p2 := pi_lt_d6
  intro t ht
  have a := mS_mean hR t ht
  have b := eR_mean_all t (ht.trans h30)
  have c := gxc_bd t (ht.trans h30)
  simp only at a b c ⊢
  have e : fS (-1) (-1) t - (-1.08472 + 7771.37714500204 * t) = (mS (-1) t - (3.81034409 + 8399.709110372 * t))
      + (-(eR (-1) t - (1.7534704567 + 628.33196674749 * t)) - gxcSunLon t + (3.81034409 - 3.4E-6 - 1.7534704567 - π + 1.08472)
        + (8399.709110372 - 628.33196674749 - 7771.37714500204) * t) := by
    unfold fS gxcMoonLon; ring
  rw [e]
  refine (abs_add_le _ _).trans ?_
  have e2 : |-(eR (-1) t - (1.7534704567 + 628.33196674749 * t)) - gxcSunLon t + (3.81034409 - 3.4E-6 - 1.7534704567 - π + 1.08472)
        + (8399.709110372 - 628.33196674749 - 7771.37714500204) * t| ≤ 0.04661 + R * 0.0000015 := by
    have h1 : |(8399.709110372 - 628.33196674749 - 7771.37714500204) * t| ≤ R * 0.0000015 := by
      rw [abs_mul, mul_comm]
      refine mul_le_mul ht ?_ (abs_nonneg _) hR
      rw [abs_of_neg (by norm_num)]; norm_num
    have h2 : |(3.81034409 - 3.4E-6 - 1.7534704567 - π + 1.08472)| ≤ 0.000008 := by
      rw [abs_le]; norm_num at *; constructor <;> linarith
    have tri : ∀ a b c d : ℝ, |-a - b + c + d| ≤ |a| + |b| + |c| + |d| := fun a b c d => by
      have h3 := abs_add_le (-a - b + c) d
      have h4 := abs_add_le (-a - b) c
      have h5 := abs_sub (-a) b
      rw [abs_neg] at h5
      linarith
    refine (tri _ _ _ _).trans ?_
    norm_num at *
    linarith
  linarith

theorem fS_trunc {R T U : ℝ} {n m : ℤ} (h : Bd R (fun t => mS n t - mS (-1) t) T) (h' : Bd R (fun t => eR m t - eR (-1) t) U) :
    Bd R (fun t => fS n m t - fS (-1) (-1) t) (T + U) := fun t ht => by
  have a := h t ht
  have b := h' t ht
  simp only at a b ⊢
  rw [show fS n m t - fS (-1) (-1) t = (mS n t - mS (-1) t) - (eR m t - eR (-1) t) by unfold fS; ring]
  exact (abs_sub _ _).trans (add_le_add a b)

/-! ## The speed -/

noncomputable def vD (t : ℝ) : ℝ := mV t - eV t

theorem vD_ge {t : ℝ} (ht : |t| ≤ 30) : 6334 ≤ vD t := by
  have h := (eV_bds t ht).2
  unfold vD mV
  simp only
  have s0 := sin_le_one (0.7848 + 8328.691425 * t + 0.0001523 * t * t)
  have s1 := sin_le_one (2.543 + 15542.7543 * t)
  have s2 := sin_le_one (0.1874 + 7214.0629 * t)
  have s3 := sin_le_one (3.14 + 16657.3828 * t)
  have s4 := sin_le_one (4.827 + 16866.9323 * t)
  have s5 := sin_le_one (4.9 + 23871.4457 * t)
  have s6 := sin_le_one (2.59 + 14914.4523 * t)
  have s7 := sin_le_one (0.23 + 6585.7609 * t)
  have s8 := sin_le_one (0.9 + 25195.624 * t)
  have s9 := sin_le_one (2.32 - 7700.3895 * t)
  have s10 := sin_le_one (3.88 + 8956.9934 * t)
  have s11 := sin_le_one (0.49 + 7771.3771 * t)
  norm_num at *
  linarith

theorem eV_lip : Lip 30 eV 17000 := by
  have l1 := (sq_lip 1.527 628.307585 0).smul 21
  have l2 := (sq_lip 1.48 1256.61517 0).smul 0.44
  have l3 := ((sq_lip 5.82 628.307585 0).mul (Lip.id) (sq_bd 5.82 628.307585 0) (B := 30) (fun t ht => ht)).smul 0.129
  have l4 := ((sq_lip 4.21 628.307585 0).mul (Lip.pow (R := 30) (by norm_num) 2) (sq_bd 4.21 628.307585 0) (Bd.pow (by norm_num) 2)).smul 0.00055
  refine (((((Lip.const 628.332).add l1).add l2).add l3).add l4).congr (fun t => ?_) |>.mono ?_
  · unfold eV sq
    simp only [zero_mul, add_zero]
    rw [show 628.307585 * t * 2 = 1256.61517 * t by ring]
    ring
  · norm_num [abs_of_pos]

theorem mV_lip : Lip 30 mV 14155000 := by
  have l0 := (sq_lip 0.7848 8328.691425 0.0001523).smul (-914)
  have l1 := (sq_lip 2.543 15542.7543 0).smul (-179)
  have l2 := (sq_lip 0.1874 7214.0629 0).smul (-160)
  have l3 := (sq_lip 3.14 16657.3828 0).smul (-62)
  have l4 := (sq_lip 4.827 16866.9323 0).smul (-34)
  have l5 := (sq_lip 4.9 23871.4457 0).smul (-22)
  have l6 := (sq_lip 2.59 14914.4523 0).smul (-12)
  have l7 := (sq_lip 0.23 6585.7609 0).smul (-7)
  have l8 := (sq_lip 0.9 25195.624 0).smul (-5)
  have l9 := (sq_lip 2.32 (-7700.3895) 0).smul (-5)
  have l10 := (sq_lip 3.88 8956.9934 0).smul (-5)
  have l11 := (sq_lip 0.49 7771.3771 0).smul (-5)
  refine ((((((((((((Lip.const 8399.71).add l0).add l1).add l2).add l3).add l4).add l5).add l6).add l7).add l8).add l9).add l10).add l11 |>.congr (fun t => ?_) |>.mono ?_
  · unfold mV sq
    simp only [zero_mul, add_zero]
    rw [show 2.32 + -7700.3895 * t = 2.32 - 7700.3895 * t by ring, ← mul_assoc (0.0001523 : ℝ)]
    ring
  · norm_num [abs_of_pos, abs_of_neg]

theorem vD_lip : Lip 30 vD 14172000 := by
  refine ((mV_lip.add (eV_lip.smul (-1))).congr (fun t => by unfold vD; ring)).mono ?_
  norm_num

end Verif.Longitude
