import Verif.Props.EqTimeAngle
import Verif.Props.LonFastSun
import Verif.Props.DeltaTReal

/-!
# C80: the equation of time
-/

namespace Verif.EqTime

open Real Verif.Series Verif.Geom Verif.Longitude Verif.EphTab

/-! ## Mean sun and true sun -/

/-- the mean longitude of the Earth -/
noncomputable def mean (t : ℝ) : ℝ := 1.753470142 + 628.3319653318 * t + 0.00000529674 * t ^ 2

theorem eT_amp1 : ampI ((eT 0).drop 1) ≤ 340629577000000000 ∧ ampI ((eT 1).drop 1) ≤ 21193360000000000 ∧ ampI ((eT 2).drop 1) ≤ 917471000000000
    ∧ ampI (eT 3) ≤ 34701000000000 ∧ ampI (eT 4) ≤ 12299000000000 ∧ ampI (eT 5) ≤ 113000000000 := by decide +kernel
theorem eT_spd1 : spdI ((eT 0).drop 1) ≤ 2183045638281469842186000000000 ∧ spdI ((eT 1).drop 1) ≤ 135376888017791601140000000000
    ∧ spdI ((eT 2).drop 1) ≤ 5999602845709800000000000000 ∧ spdI (eT 3) ≤ 204284101605950000000000000
    ∧ spdI (eT 4) ≤ 5824655862000000000000000 ∧ spdI (eT 5) ≤ 145287910000000000000000 := by decide +kernel

/-- mean motion minus longitude, as a sum -/
theorem mean_split (n : ℤ) (h0 : 1 ≤ useE n 0) (h1 : 1 ≤ useE n 1) (h2 : 1 ≤ useE n 2) (t : ℝ) :
    eR n t - mean t = ordL 0 (((eT 0).drop 1).take (useE n 0 - 1)) t / 10 ^ 10 + ordL 1 (((eT 1).drop 1).take (useE n 1 - 1)) t / 10 ^ 10
      + ordL 2 (((eT 2).drop 1).take (useE n 2 - 1)) t / 10 ^ 10 + ordL 3 ((eT 3).take (useE n 3)) t / 10 ^ 10 + ordL 4 ((eT 4).take (useE n 4)) t / 10 ^ 10
      + ordL 5 ((eT 5).take (useE n 5)) t / 10 ^ 10 + corrE t + (0.0000003147 + 0.00000141569 * t + (-0.000000004853) * t ^ 2) := by
  unfold eR mean
  have e0 : ordL 0 ((eT 0).take 1) t / 10 ^ 10 = 1.7534704567 := by
    rw [eT_head01, ordL, ser_cons, ser_nil]
    simp only [dec]
    norm_num
  have e1 : ordL 1 ((eT 1).take 1) t / 10 ^ 10 = 628.33196674749 * t := by
    rw [eT_head11, ordL, ser_cons, ser_nil]
    simp only [dec]
    norm_num
    ring
  have e2 : ordL 2 ((eT 2).take 1) t / 10 ^ 10 = 0.000005291887 * t ^ 2 := by
    rw [eT_head21, ordL, ser_cons, ser_nil]
    simp only [dec]
    norm_num
    ring
  rw [take_split (eT 0) h0, take_split (eT 1) h1, take_split (eT 2) h2, ordL_append, ordL_append, ordL_append]
  rw [add_div, add_div, add_div, add_div, add_div, add_div, add_div, add_div, e0, e1, e2]
  ring

theorem mean_bd {R : ℝ} (hR : 0 ≤ R) (n : ℤ) (h0 : 1 ≤ useE n 0) (h1 : 1 ≤ useE n 1) (h2 : 1 ≤ useE n 2) :
    Bd R (fun t => eR n t - mean t) (0.0340637 + 0.002147 * (R / 10) + 0.00009841 * (R / 10) ^ 2 + 0.000005 * (R / 10) ^ 3 + 0.00000123 * (R / 10) ^ 4
      + 0.00000002 * (R / 10) ^ 5) := by
  obtain ⟨a0, a1, a2, a3, a4, a5⟩ := eT_amp1
  have A0 := ordL_bdR hR 0 _ _ ((ampI_take _ (useE n 0 - 1)).trans a0)
  have A1 := ordL_bdR hR 1 _ _ ((ampI_take _ (useE n 1 - 1)).trans a1)
  have A2 := ordL_bdR hR 2 _ _ ((ampI_take _ (useE n 2 - 1)).trans a2)
  have A3 := ordL_bdR hR 3 _ _ ((ampI_take _ (useE n 3)).trans a3)
  have A4 := ordL_bdR hR 4 _ _ ((ampI_take _ (useE n 4)).trans a4)
  have A5 := ordL_bdR hR 5 _ _ ((ampI_take _ (useE n 5)).trans a5)
  have C := corrE_bdR hR
  have P : Bd R (fun t => 0.0000003147 + 0.00000141569 * t + (-0.000000004853) * t ^ 2) (0.0000003147 + 0.0000141569 * (R / 10) + 0.0000004853 * (R / 10) ^ 2) := by
    intro t ht
    have h2 : |t ^ 2| ≤ R ^ 2 := by rw [abs_pow]; exact pow_le_pow_left₀ (abs_nonneg _) ht 2
    rw [abs_le] at ht h2
    show |_| ≤ _
    rw [abs_le]
    constructor <;> norm_num at * <;> linarith
  refine (((((((A0.add A1).add A2).add A3).add A4).add A5).add C).add P).congr (mean_split n h0 h1 h2) |>.mono ?_
  obtain ⟨x, hx⟩ : ∃ x, x = R / 10 := ⟨_, rfl⟩
  rw [← hx]
  have x0 : 0 ≤ x := by rw [hx]; positivity
  have x2 := pow_nonneg x0 2
  have x3 := pow_nonneg x0 3
  have x4 := pow_nonneg x0 4
  have x5 := pow_nonneg x0 5
  norm_num
  linarith

theorem mean_lip (n : ℤ) (h0 : 1 ≤ useE n 0) (h1 : 1 ≤ useE n 1) (h2 : 1 ≤ useE n 2) : Lip 30 (fun t => eR n t - mean t) 26.6 := by
  obtain ⟨a0, a1, a2, a3, a4, a5⟩ := eT_amp1
  obtain ⟨s0, s1, s2, s3, s4, s5⟩ := eT_spd1
  have A0 := rest_lip 0 _ (useE n 0 - 1) _ _ s0 a0
  have A1 := rest_lip 1 _ (useE n 1 - 1) _ _ s1 a1
  have A2 := rest_lip 2 _ (useE n 2 - 1) _ _ s2 a2
  have A3 := rest_lip 3 _ (useE n 3) _ _ s3 a3
  have A4 := rest_lip 4 _ (useE n 4) _ _ s4 a4
  have A5 := rest_lip 5 _ (useE n 5) _ _ s5 a5
  have P : Lip 30 (fun t => 0.0000003147 + 0.00000141569 * t + (-0.000000004853) * t ^ 2) (0 + |(0.00000141569 : ℝ)| * 1 + |(-0.000000004853 : ℝ)| * ((2 : ℕ) * 30 ^ (2 - 1))) :=
    ((Lip.const _).add (Lip.id.smul _)).add ((Lip.pow (by norm_num) 2).smul _)
  refine (((((((A0.add A1).add A2).add A3).add A4).add A5).add corrE_lip).add P).congr (mean_split n h0 h1 h2) |>.mono ?_
  norm_num [abs_of_pos]

theorem useE_5 : useE 5 0 = 5 ∧ useE 5 1 = 4 ∧ useE 5 2 = 3 := by decide +kernel
theorem useE_50 : useE 50 0 = 50 ∧ useE 50 1 = 32 ∧ useE 50 2 = 17 := by decide +kernel

/-! ## The obliquity -/

/-- the obliquity used by `pty_zty2` -/
noncomputable def obl2 (t : ℝ) : ℝ := (84381.4088 - 46.836051 * t) / radSec

theorem cos_low {x B : ℝ} (h : |x| ≤ B) : 1 - B ^ 2 / 2 ≤ cos x := by
  have h1 := one_sub_sq_div_two_le_cos (x := x)
  have h2 : x ^ 2 ≤ B ^ 2 := sq_le_sq' (by linarith [(abs_le.mp h).1]) (abs_le.mp h).2
  linarith

theorem obl2_bd {R : ℝ} : Bd R obl2 ((84381.4088 + 46.836051 * R) / 206264) := by
  intro t ht
  have hr := radSec_gt
  unfold obl2
  rw [abs_div, abs_of_pos (by linarith : 0 < radSec)]
  rw [abs_le] at ht
  refine div_le_div₀ (by norm_num at *; linarith) ?_ (by norm_num) hr.le
  rw [abs_le]
  constructor <;> norm_num at * <;> linarith

theorem obl2_lip (s t : ℝ) : |obl2 t - obl2 s| ≤ 0.00023 * |t - s| := by
  have hr := radSec_gt
  unfold obl2
  rw [← sub_div, abs_div, abs_of_pos (by linarith : 0 < radSec), div_le_iff₀ (by linarith),
    show (84381.4088 - 46.836051 * t - (84381.4088 - 46.836051 * s) : ℝ) = -46.836051 * (t - s) by ring, abs_mul]
  have : (46.836051 : ℝ) ≤ 0.00023 * radSec := by norm_num at *; linarith
  have h2 := mul_le_mul_of_nonneg_right this (abs_nonneg (t - s))
  rw [show |(-46.836051 : ℝ)| = 46.836051 by norm_num [abs_of_neg]]
  linarith

/-! ## The estimate used for true solar time -/

/-- `pty_zty2` in radians -/
noncomputable def u2 (t : ℝ) : ℝ := mean t - eR 5 t - red (cos (obl2 t)) 0 (eR 5 t + π)

theorem obl2_cos {t : ℝ} (ht : |t| ≤ 30) : 0.9135 ≤ cos (obl2 t) := by
  have := cos_low (obl2_bd t ht)
  norm_num at *; linarith

theorem u2_bd {R B C : ℝ} (hR : 0 ≤ R) (hB : 0 ≤ B) (hC : 0 < C) (h : 1 - ((84381.4088 + 46.836051 * R) / 206264) ^ 2 / 2 ≥ C) (hC1 : C ≤ 1)
    (hB2 : (1 - C) ^ 2 ≤ 4 * C * B ^ 2) :
    Bd R u2 (0.0340637 + 0.002147 * (R / 10) + 0.00009841 * (R / 10) ^ 2 + 0.000005 * (R / 10) ^ 3 + 0.00000123 * (R / 10) ^ 4
      + 0.00000002 * (R / 10) ^ 5 + B) := by
  intro t ht
  have h1 := mean_bd hR 5 (by rw [useE_5.1]; norm_num) (by rw [useE_5.2.1]; norm_num) (by rw [useE_5.2.2]; norm_num) t ht
  have hc : C ≤ cos (obl2 t) := h.le.trans (cos_low (obl2_bd t ht))
  have hc1 := cos_le_one (obl2 t)
  have hk : (1 - cos (obl2 t)) ^ 2 ≤ 4 * cos (obl2 t) * B ^ 2 := by
    have a1 : (1 - cos (obl2 t)) ^ 2 ≤ (1 - C) ^ 2 := pow_le_pow_left₀ (by linarith) (by linarith) 2
    have a2 := mul_le_mul_of_nonneg_right hc (sq_nonneg B)
    linarith
  have h2 := red_bd (c := cos (obl2 t)) (J := eR 5 t + π) (by linarith) hc1 hB hk
  simp only at h1
  unfold u2
  rw [abs_le] at *
  constructor <;> linarith [h1.1, h1.2, h2.1, h2.2]

theorem u2_bd30 : Bd 30 u2 0.0872 := by
  refine (u2_bd (R := 30) (B := 0.0454) (C := 0.9135) (by norm_num) (by norm_num) (by norm_num) (by norm_num) (by norm_num) (by norm_num)).mono ?_
  norm_num

theorem u2_bd1 : Bd 1 u2 0.0785 := by
  refine (u2_bd (R := 1) (B := 0.0439) (C := 0.9162) (by norm_num) (by norm_num) (by norm_num) (by norm_num) (by norm_num) (by norm_num)).mono ?_
  norm_num

theorem ptyZty2_eq (b : Tab) (hb : Builtin b) {t : ℝ} (ht : |t| ≤ 30) : ptyZty2 b t = some (u2 t / (2 * π)) := by
  have hl : xl0Calc b.X b.xzb 0 0 t 5 = some (eR 5 t) := eLon_eR b hb t 5 (by norm_num)
  have hc := obl2_cos ht
  obtain ⟨k, hk⟩ := ra_eq (eR 5 t + π) 0 (obl2 t) (lt_of_lt_of_le (by norm_num at *; linarith) (along_ge (cos_le_one _)))
  rw [tan_zero, zero_mul] at hk
  have hb := abs_le.mp (u2_bd30 t ht)
  have hp := pi_gt_three
  unfold ptyZty2
  rw [hl]
  show some (rrad ((1753470142 + 628331965331.8 * t + 5296.74 * t * t) / 1000000000 + π - (llrConv ⟨eR 5 t + π, 0, 0⟩ (obl2 t)).x) / (2 * π)) = _
  rw [c36_rrad_unique _ (u2 t) ⟨by norm_num at *; linarith, by norm_num at *; linarith⟩ k]
  rw [hk]
  unfold u2 mean
  ring

theorem u2_lip : Lip 30 u2 95 := by
  intro s t hs ht
  have n0 : 1 ≤ useE 5 0 := by rw [useE_5.1]; norm_num
  have n1 : 1 ≤ useE 5 1 := by rw [useE_5.2.1]; norm_num
  have n2 : 1 ≤ useE 5 2 := by rw [useE_5.2.2]; norm_num
  have h1 := mean_lip 5 n0 n1 n2 s t hs ht
  have hcs := obl2_cos hs
  have hct := obl2_cos ht
  have hm : |mean t - mean s| ≤ 628.34 * |t - s| := by
    have e : mean t - mean s = (628.3319653318 + 0.00000529674 * (t + s)) * (t - s) := by unfold mean; ring
    rw [e, abs_mul]
    refine mul_le_mul_of_nonneg_right ?_ (abs_nonneg _)
    rw [abs_le] at *
    constructor <;> norm_num at * <;> linarith [hs.1, hs.2, ht.1, ht.2]
  have hJ : |(eR 5 t + π) - (eR 5 s + π)| ≤ 654.94 * |t - s| := by
    have e : (eR 5 t + π) - (eR 5 s + π) = (eR 5 t - mean t - (eR 5 s - mean s)) + (mean t - mean s) := by ring
    rw [e]
    refine (abs_add_le _ _).trans ?_
    simp only at h1
    norm_num at *
    linarith
  have r1 := red_lip (c := cos (obl2 t)) (J := eR 5 t + π) (J' := eR 5 s + π) (by norm_num at *; linarith) (cos_le_one _)
  have r2 := red_obl (c := cos (obl2 t)) (c' := cos (obl2 s)) (J := eR 5 s + π) (by norm_num at *; linarith) (cos_le_one _) (by norm_num at *; linarith) (cos_le_one _)
  have k1 : (1 - cos (obl2 t)) / cos (obl2 t) ^ 2 ≤ 0.104 := by
    rw [div_le_iff₀ (by norm_num at *; positivity)]
    have : (0.9135 : ℝ) ^ 2 ≤ cos (obl2 t) ^ 2 := pow_le_pow_left₀ (by norm_num) hct 2
    norm_num at *
    linarith
  have k2 : |cos (obl2 t) - cos (obl2 s)| / (2 * (cos (obl2 t) * cos (obl2 s))) ≤ 0.00023 * |t - s| := by
    have p : (0.9135 : ℝ) * 0.9135 ≤ cos (obl2 t) * cos (obl2 s) := mul_le_mul hct hcs (by norm_num) (by norm_num at *; linarith)
    rw [div_le_iff₀ (by norm_num at *; linarith)]
    have q := (abs_cos_sub_cos (obl2 t) (obl2 s)).trans (obl2_lip s t)
    have : 0.00023 * |t - s| * 1 ≤ 0.00023 * |t - s| * (2 * (cos (obl2 t) * cos (obl2 s))) :=
      mul_le_mul_of_nonneg_left (by norm_num at *; linarith) (by positivity)
    linarith
  have k3 := mul_le_mul k1 hJ (abs_nonneg _) (by norm_num)
  have e : u2 t - u2 s = -(eR 5 t - mean t - (eR 5 s - mean s)) - (red (cos (obl2 t)) 0 (eR 5 t + π) - red (cos (obl2 t)) 0 (eR 5 s + π))
      - (red (cos (obl2 t)) 0 (eR 5 s + π) - red (cos (obl2 s)) 0 (eR 5 s + π)) := by unfold u2; ring
  rw [e]
  refine (abs_sub _ _).trans ?_
  refine (add_le_add_left (abs_sub _ _) _).trans ?_
  rw [abs_neg]
  simp only at h1
  norm_num at *
  linarith [abs_nonneg (t - s)]

end Verif.EqTime
