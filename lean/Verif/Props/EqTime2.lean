import Verif.Props.EqTime

/-!
# C80: the equation of time — the precise version, and the property
-/

namespace Verif.EqTime

open Real Verif.Series Verif.Geom Verif.Longitude Verif.EphTab

/-! ## The precise version -/

noncomputable def nutL (t : ℝ) : ℝ := -17.2 * sin (2.1824 - 33.75705 * t) / radSec
noncomputable def nutO (t : ℝ) : ℝ := 9.2 * cos (2.1824 - 33.75705 * t) / radSec
noncomputable def lat (t : ℝ) : ℝ :=
  -(2796 * cos (3.1987 + 8433.46616 * t) + 1016 * cos (5.4225 + 550.75532 * t) + 804 * cos (3.88 + 522.3694 * t)) / 1000000000
noncomputable def obl1 (t : ℝ) : ℝ := hcjj t + nutO t
/-- the terms of the mean longitude that only the precise version has -/
noncomputable def meanTail (t : ℝ) : ℝ := 0.000000000432 * t ^ 3 - 0.0000000001124 * t ^ 4 - 0.00000000000009 * t ^ 5
noncomputable def lon1 (t : ℝ) : ℝ := eR 50 t + π + gxcSunLon t + nutL t
/-- `pty_zty` in radians -/
noncomputable def u1 (t : ℝ) : ℝ := mean t - eR 50 t + meanTail t - (gxcSunLon t + 20.5 / radSec) - nutL t * (1 - cos (obl1 t))
    - red (cos (obl1 t)) (tan (lat t) * sin (obl1 t)) (lon1 t)

theorem over_rad {x B : ℝ} (h : |x| ≤ B) : |x / radSec| ≤ B / 206264 := by
  have hr := radSec_gt
  rw [abs_div, abs_of_pos (by linarith : 0 < radSec)]
  exact div_le_div₀ ((abs_nonneg _).trans h) h (by norm_num) hr.le

theorem nutL_bd (t : ℝ) : |nutL t| ≤ 0.0000834 := by
  refine (over_rad (B := 17.2) ?_).trans (by norm_num)
  rw [abs_mul]
  have := abs_sin_le_one (2.1824 - 33.75705 * t)
  rw [show |(-17.2 : ℝ)| = 17.2 by norm_num [abs_of_neg]]
  norm_num at *
  linarith
theorem nutO_bd' (t : ℝ) : |9.2 * cos (2.1824 - 33.75705 * t)| ≤ 9.2 := by
  rw [abs_mul]
  have := abs_cos_le_one (2.1824 - 33.75705 * t)
  rw [show |(9.2 : ℝ)| = 9.2 by norm_num [abs_of_pos]]
  norm_num at *
  linarith

theorem lat_bd (t : ℝ) : |lat t| ≤ 0.00000462 := by
  unfold lat
  obtain ⟨x, hx⟩ : ∃ x, x = cos (3.1987 + 8433.46616 * t) := ⟨_, rfl⟩
  obtain ⟨y, hy⟩ : ∃ y, y = cos (5.4225 + 550.75532 * t) := ⟨_, rfl⟩
  obtain ⟨z, hz⟩ : ∃ z, z = cos (3.88 + 522.3694 * t) := ⟨_, rfl⟩
  rw [← hx, ← hy, ← hz]
  have a1 : |x| ≤ 1 := by rw [hx]; exact abs_cos_le_one _
  have a2 : |y| ≤ 1 := by rw [hy]; exact abs_cos_le_one _
  have a3 : |z| ≤ 1 := by rw [hz]; exact abs_cos_le_one _
  rw [abs_le] at *
  constructor <;> norm_num <;> linarith [a1.1, a1.2, a2.1, a2.2, a3.1, a3.2]

theorem tan_small {x : ℝ} (h : |x| ≤ 0.00000462) : |tan x| ≤ 0.0000047 := by
  have c := cos_low h
  have s := abs_sin_sub_sin x 0
  rw [sin_zero, sub_zero, sub_zero] at s
  have hc : (0.99 : ℝ) ≤ cos x := by norm_num at *; linarith
  have hp : 0 < cos x := by norm_num at *; linarith
  rw [tan_eq_sin_div_cos, abs_div, abs_of_pos hp, div_le_iff₀ hp]
  norm_num at *
  linarith

/-- the difference between the two obliquities -/
theorem obl_diff {R : ℝ} (_ : 0 ≤ R) : Bd R (fun t => obl1 t - obl2 t) ((9.2028 + 0.000718 * R + 0.0001831 * R ^ 2 + 0.0020034 * R ^ 3 + 5.76e-7 * R ^ 4 + 4.34e-8 * R ^ 5) / 206264) := by
  intro t ht
  have h2 : |t ^ 2| ≤ R ^ 2 := by rw [abs_pow]; exact pow_le_pow_left₀ (abs_nonneg _) ht 2
  have h3 : |t ^ 3| ≤ R ^ 3 := by rw [abs_pow]; exact pow_le_pow_left₀ (abs_nonneg _) ht 3
  have h4 : |t ^ 4| ≤ R ^ 4 := by rw [abs_pow]; exact pow_le_pow_left₀ (abs_nonneg _) ht 4
  have h5 : |t ^ 5| ≤ R ^ 5 := by rw [abs_pow]; exact pow_le_pow_left₀ (abs_nonneg _) ht 5
  have h6 := nutO_bd' t
  have e : obl1 t - obl2 t = (-0.0028 + (-0.000718) * t + (-0.0001831) * t ^ 2 + 0.0020034 * t ^ 3 + (-5.76e-7) * t ^ 4 + (-4.34e-8) * t ^ 5 + 9.2 * cos (2.1824 - 33.75705 * t)) / radSec := by
    unfold obl1 obl2 hcjj nutO
    ring
  show |obl1 t - obl2 t| ≤ _
  rw [e]
  apply over_rad
  obtain ⟨z, hz⟩ : ∃ z, z = 9.2 * cos (2.1824 - 33.75705 * t) := ⟨_, rfl⟩
  rw [← hz] at h6 ⊢
  clear e hz
  rw [abs_le] at *
  obtain ⟨b1, b2⟩ := ht
  obtain ⟨c1, c2⟩ := h2
  obtain ⟨d1, d2⟩ := h3
  obtain ⟨e1, e2⟩ := h4
  obtain ⟨f1, f2⟩ := h5
  obtain ⟨g1, g2⟩ := h6
  constructor <;> norm_num at * <;> linarith

theorem obl1_bd {R : ℝ} (hR : 0 ≤ R) : Bd R obl1 ((84381.4088 + 46.836051 * R) / 206264
    + (9.2028 + 0.000718 * R + 0.0001831 * R ^ 2 + 0.0020034 * R ^ 3 + 5.76e-7 * R ^ 4 + 4.34e-8 * R ^ 5) / 206264) :=
  (obl2_bd.add (obl_diff hR)).congr (fun t => by ring)

theorem gxc_bd {t : ℝ} (ht : |t| ≤ 30) : |gxcSunLon t + 20.5 / radSec| ≤ 0.0000019 ∧ |gxcSunLon t| ≤ 0.0001015 := by
  obtain ⟨x, hx⟩ : ∃ x, x = cos (-0.043126 + 628.301955 * t - 0.000002732 * t * t) := ⟨_, rfl⟩
  have a1 : |x| ≤ 1 := by rw [hx]; exact abs_cos_le_one _
  obtain ⟨e, he⟩ : ∃ e, e = 0.016708634 - 0.000042037 * t - 0.0000001267 * t * t := ⟨_, rfl⟩
  have a2 : |e| ≤ 0.0181 := by
    have h2 : t * t ≤ 900 := by nlinarith [abs_le.mp ht]
    have h3 : 0 ≤ t * t := mul_self_nonneg t
    rw [he]
    rw [abs_le] at *
    constructor <;> norm_num at * <;> linarith [ht.1, ht.2]
  have a3 : |e * x| ≤ 0.0181 := by
    rw [abs_mul]
    have := mul_le_mul a2 a1 (abs_nonneg _) (by norm_num)
    linarith
  have eg : gxcSunLon t = (-20.49552 * (1 + e * x)) / radSec := by unfold gxcSunLon; rw [he, hx]
  constructor
  · rw [eg, ← add_div]
    refine (over_rad (B := 0.376) ?_).trans (by norm_num)
    rw [abs_le] at *
    constructor <;> norm_num at * <;> linarith [a3.1, a3.2]
  · rw [eg]
    refine (over_rad (B := 20.87) ?_).trans (by norm_num)
    rw [abs_le] at *
    constructor <;> norm_num at * <;> linarith [a3.1, a3.2]

theorem tail_bd {R : ℝ} : Bd R meanTail (0.000000000432 * R ^ 3 + 0.0000000001124 * R ^ 4 + 0.00000000000009 * R ^ 5) := by
  intro t ht
  have h3 : |t ^ 3| ≤ R ^ 3 := by rw [abs_pow]; exact pow_le_pow_left₀ (abs_nonneg _) ht 3
  have h4 : |t ^ 4| ≤ R ^ 4 := by rw [abs_pow]; exact pow_le_pow_left₀ (abs_nonneg _) ht 4
  have h5 : |t ^ 5| ≤ R ^ 5 := by rw [abs_pow]; exact pow_le_pow_left₀ (abs_nonneg _) ht 5
  unfold meanTail
  clear ht
  rw [abs_le] at *
  constructor <;> norm_num at * <;> linarith [h3.1, h3.2, h4.1, h4.2, h5.1, h5.2]

theorem obl1_30 {t : ℝ} (ht : |t| ≤ 30) : 0.9133 ≤ cos (obl1 t) := by
  have := cos_low (obl1_bd (by norm_num : (0 : ℝ) ≤ 30) t ht)
  norm_num at *; linarith

/-- the latitude term -/
theorem lat_term {t : ℝ} : |tan (lat t) * sin (obl1 t)| ≤ 0.0000047 := by
  rw [abs_mul]
  have := mul_le_mul (tan_small (lat_bd t)) (abs_sin_le_one (obl1 t)) (abs_nonneg _) (by norm_num)
  norm_num at *; linarith

theorem red_lat30 {t : ℝ} (ht : |t| ≤ 30) (J : ℝ) : |red (cos (obl1 t)) (tan (lat t) * sin (obl1 t)) J - red (cos (obl1 t)) 0 J| ≤ 0.0000057 := by
  have hw := lat_term (t := t)
  have hc := obl1_30 ht
  obtain ⟨w, hw'⟩ : ∃ w, w = tan (lat t) * sin (obl1 t) := ⟨_, rfl⟩
  rw [← hw'] at hw ⊢
  refine (red_lat (cos_le_one _) (by norm_num at *; linarith)).trans ?_
  have p : (0.913 : ℝ) * 0.913 ≤ (cos (obl1 t) - |w|) * cos (obl1 t) := mul_le_mul (by norm_num at *; linarith) (by norm_num at *; linarith) (by norm_num) (by norm_num at *; linarith)
  rw [div_le_iff₀ (by norm_num at *; linarith)]
  norm_num at *; linarith

theorem dL_term (t : ℝ) {C : ℝ} (hC : C ≤ cos (obl1 t)) : |nutL t * (1 - cos (obl1 t))| ≤ 0.0000834 * (1 - C) := by
  rw [abs_mul, abs_of_nonneg (by linarith [cos_le_one (obl1 t)] : 0 ≤ 1 - cos (obl1 t))]
  exact mul_le_mul (nutL_bd t) (by linarith) (by linarith [cos_le_one (obl1 t)]) (by norm_num)

theorem u1_bd {R B C : ℝ} (hR : 0 ≤ R) (h30 : R ≤ 30) (hB : 0 ≤ B) (hC : 0 < C)
    (h : 1 - ((84381.4088 + 46.836051 * R) / 206264 + (9.2028 + 0.000718 * R + 0.0001831 * R ^ 2 + 0.0020034 * R ^ 3 + 5.76e-7 * R ^ 4 + 4.34e-8 * R ^ 5) / 206264) ^ 2 / 2 ≥ C)
    (_ : C ≤ 1) (hB2 : (1 - C) ^ 2 ≤ 4 * C * B ^ 2) :
    Bd R u1 (0.0340637 + 0.002147 * (R / 10) + 0.00009841 * (R / 10) ^ 2 + 0.000005 * (R / 10) ^ 3 + 0.00000123 * (R / 10) ^ 4
      + 0.00000002 * (R / 10) ^ 5 + B + (0.000000000432 * R ^ 3 + 0.0000000001124 * R ^ 4 + 0.00000000000009 * R ^ 5) + 0.0000076 + 0.0000834 * (1 - C)) := by
  intro t ht
  have h1 := mean_bd hR 50 (by rw [useE_50.1]; norm_num) (by rw [useE_50.2.1]; norm_num) (by rw [useE_50.2.2]; norm_num) t ht
  have hc : C ≤ cos (obl1 t) := h.le.trans (cos_low (obl1_bd hR t ht))
  have hc1 := cos_le_one (obl1 t)
  have hk : (1 - cos (obl1 t)) ^ 2 ≤ 4 * cos (obl1 t) * B ^ 2 := by
    have a1 : (1 - cos (obl1 t)) ^ 2 ≤ (1 - C) ^ 2 := pow_le_pow_left₀ (by linarith) (by linarith) 2
    have a2 := mul_le_mul_of_nonneg_right hc (sq_nonneg B)
    linarith
  have h2 := red_bd (c := cos (obl1 t)) (J := lon1 t) (by linarith) hc1 hB hk
  have h3 := red_lat30 (ht.trans h30) (lon1 t)
  have h4 := (gxc_bd (ht.trans h30)).1
  have h5 := dL_term t hc
  have h6 := tail_bd t ht
  simp only at h1
  unfold u1
  rw [abs_le] at h1 h2 h3 h4 h5 h6 ⊢
  constructor <;> norm_num at h3 h4 h5 ⊢ <;> linarith [h1.1, h1.2, h2.1, h2.2, h3.1, h3.2, h4.1, h4.2, h5.1, h5.2, h6.1, h6.2]

theorem u1_bd30 : Bd 30 u1 0.08726 := by
  refine (u1_bd (R := 30) (B := 0.04538) (C := 0.9133) (by norm_num) (by norm_num) (by norm_num) (by norm_num) (by norm_num) (by norm_num) (by norm_num)).mono ?_
  norm_num
theorem u1_bd1 : Bd 1 u1 0.0785 := by
  refine (u1_bd (R := 1) (B := 0.0439) (C := 0.9162) (by norm_num) (by norm_num) (by norm_num) (by norm_num) (by norm_num) (by norm_num) (by norm_num)).mono ?_
  norm_num

theorem ptyZty_eq (b : Tab) (hb : Builtin b) {t : ℝ} (ht : |t| ≤ 30) : ptyZty b t = some (u1 t / (2 * π)) := by
  have hl : xl0Calc b.X b.xzb 0 0 t 50 = some (eR 50 t) := eLon_eR b hb t 50 (by norm_num)
  have hc := obl1_30 ht
  have hw := lat_term (t := t)
  obtain ⟨k, hk⟩ := ra_eq (lon1 t) (lat t) (obl1 t) (lt_of_lt_of_le (by norm_num at *; linarith) (along_ge (cos_le_one _)))
  have hb := abs_le.mp (u1_bd30 t ht)
  have hp := pi_gt_three
  unfold ptyZty
  rw [hl]
  show some (rrad ((1753470142 + 628331965331.8 * t + 5296.74 * (t * t) + 0.432 * (t * t * t) - 0.1124 * (t * t * t * t) - 0.00009 * (t * t * t * t * t)) / 1000000000 + π - 20.5 / radSec
    - ((llrConv ⟨lon1 t, lat t, 0⟩ (obl1 t)).x - nutL t * cos (obl1 t))) / (2 * π)) = _
  rw [c36_rrad_unique _ (u1 t) ⟨by norm_num at *; linarith, by norm_num at *; linarith⟩ k]
  rw [hk]
  unfold u1 mean meanTail lon1
  ring

/-! ## Agreement -/

theorem drop_5 : ampI ((eT 0).drop (useE 5 0)) ≤ 2283040000000000 ∧ ampI ((eT 1).drop (useE 5 1)) ≤ 114605000000000 ∧ ampI ((eT 2).drop (useE 5 2)) ≤ 14574000000000
    ∧ ampI ((eT 3).drop (useE 5 3)) ≤ 5778000000000 ∧ ampI ((eT 4).drop (useE 5 4)) ≤ 891000000000 ∧ ampI ((eT 5).drop (useE 5 5)) ≤ 25000000000 := by decide +kernel
theorem drop_50 : ampI ((eT 0).drop (useE 50 0)) ≤ 143120000000000 ∧ ampI ((eT 1).drop (useE 50 1)) ≤ 16534000000000 ∧ ampI ((eT 2).drop (useE 50 2)) ≤ 3271000000000
    ∧ ampI ((eT 3).drop (useE 50 3)) ≤ 600000000000 ∧ ampI ((eT 4).drop (useE 50 4)) ≤ 119000000000 ∧ ampI ((eT 5).drop (useE 50 5)) ≤ 8000000000 := by decide +kernel

theorem lon_diff {t : ℝ} (ht : |t| ≤ 10) : |eR 50 t - eR 5 t| ≤ 0.0002583 := by
  obtain ⟨a0, a1, a2, a3, a4, a5⟩ := drop_5
  obtain ⟨b0, b1, b2, b3, b4, b5⟩ := drop_50
  have A := eR_truncR (R := 10) (by norm_num) 5 _ _ _ _ _ _ a0 a1 a2 a3 a4 a5 t ht
  have B := eR_truncR (R := 10) (by norm_num) 50 _ _ _ _ _ _ b0 b1 b2 b3 b4 b5 t ht
  simp only at A B
  rw [abs_le] at A B ⊢
  clear a0 a1 a2 a3 a4 a5 b0 b1 b2 b3 b4 b5
  constructor <;> norm_num at A B ⊢ <;> linarith [A.1, A.2, B.1, B.2]

theorem cos_diff {x y B : ℝ} (hx : |x| ≤ B) (hy : |y| ≤ B) : |cos x - cos y| ≤ B * |x - y| := by
  rw [cos_sub_cos, abs_mul, abs_mul]
  have s1 := abs_sin_sub_sin ((x + y) / 2) 0
  have s2 := abs_sin_sub_sin ((x - y) / 2) 0
  rw [sin_zero, sub_zero, sub_zero] at s1 s2
  have a1 : |(x + y) / 2| ≤ B := by rw [abs_le] at *; constructor <;> linarith [hx.1, hx.2, hy.1, hy.2]
  have a2 : |(x - y) / 2| = |x - y| / 2 := by rw [abs_div]; norm_num
  rw [a2] at s2
  have := mul_le_mul (s1.trans a1) s2 (abs_nonneg _) ((abs_nonneg _).trans hx)
  rw [show |(-2 : ℝ)| = 2 by norm_num]
  linarith

theorem u_diff {t : ℝ} (ht : |t| ≤ 10) : |u1 t - u2 t| ≤ 0.000363 := by
  have ht30 : |t| ≤ 30 := ht.trans (by norm_num)
  have h1 := lon_diff ht
  have h2 := tail_bd t ht
  have h3 := gxc_bd ht30
  have b1 := obl1_bd (by norm_num : (0 : ℝ) ≤ 10) t ht
  have b2 := (obl2_bd t ht)
  have hc1 : (0.9153 : ℝ) ≤ cos (obl1 t) := by have := cos_low b1; norm_num at *; linarith
  have hc2 : (0.9153 : ℝ) ≤ cos (obl2 t) := by have := cos_low b2; norm_num at *; linarith
  have h4 := dL_term t hc1
  have h5 := red_lat30 ht30 (lon1 t)
  have h6 := obl_diff (by norm_num : (0 : ℝ) ≤ 10) t ht
  simp only at h6
  have b1' : |obl1 t| ≤ 0.4116 := b1.trans (by norm_num)
  have b2' : |obl2 t| ≤ 0.4116 := b2.trans (by norm_num)
  have h7 : |cos (obl1 t) - cos (obl2 t)| ≤ 0.0000226 := by
    refine (cos_diff b1' b2').trans ?_
    have := mul_le_mul_of_nonneg_left h6 (by norm_num : (0 : ℝ) ≤ 0.4116)
    norm_num at this ⊢
    linarith
  have h8 : |red (cos (obl1 t)) 0 (lon1 t) - red (cos (obl2 t)) 0 (lon1 t)| ≤ 0.0000136 := by
    refine (red_obl (by norm_num at *; linarith) (cos_le_one _) (by norm_num at *; linarith) (cos_le_one _)).trans ?_
    have p : (0.9153 : ℝ) * 0.9153 ≤ cos (obl1 t) * cos (obl2 t) := mul_le_mul hc1 hc2 (by norm_num) (by norm_num at *; linarith)
    rw [div_le_iff₀ (by norm_num at *; linarith)]
    norm_num at *; linarith
  have h9 : |lon1 t - (eR 5 t + π)| ≤ 0.000444 := by
    have := nutL_bd t
    have g := h3.2
    have e : lon1 t - (eR 5 t + π) = (eR 50 t - eR 5 t) + gxcSunLon t + nutL t := by unfold lon1; ring
    rw [e]
    rw [abs_le] at *
    constructor <;> norm_num at h1 g this ⊢ <;> linarith [h1.1, h1.2, g.1, g.2, this.1, this.2]
  have h10 : |red (cos (obl2 t)) 0 (lon1 t) - red (cos (obl2 t)) 0 (eR 5 t + π)| ≤ 0.0000453 := by
    refine (red_lip (by norm_num at *; linarith) (cos_le_one _)).trans ?_
    have k1 : (1 - cos (obl2 t)) / cos (obl2 t) ^ 2 ≤ 0.1019 := by
      rw [div_le_iff₀ (by norm_num at *; positivity)]
      have : (0.9153 : ℝ) ^ 2 ≤ cos (obl2 t) ^ 2 := pow_le_pow_left₀ (by norm_num) hc2 2
      norm_num at *
      linarith
    have := mul_le_mul k1 h9 (abs_nonneg _) (by norm_num)
    norm_num at *; linarith
  have e : u1 t - u2 t = -(eR 50 t - eR 5 t) + meanTail t - (gxcSunLon t + 20.5 / radSec) - nutL t * (1 - cos (obl1 t))
      - (red (cos (obl1 t)) (tan (lat t) * sin (obl1 t)) (lon1 t) - red (cos (obl1 t)) 0 (lon1 t))
      - (red (cos (obl1 t)) 0 (lon1 t) - red (cos (obl2 t)) 0 (lon1 t)) - (red (cos (obl2 t)) 0 (lon1 t) - red (cos (obl2 t)) 0 (eR 5 t + π)) := by
    unfold u1 u2; ring
  have h3' := h3.1
  rw [e]
  clear e h3 h6 h7 h9 b1 b2 b1' b2' hc1 hc2 ht ht30
  rw [abs_le] at *
  obtain ⟨p1, q1⟩ := h1
  obtain ⟨p2, q2⟩ := h2
  obtain ⟨p3, q3⟩ := h3'
  obtain ⟨p4, q4⟩ := h4
  obtain ⟨p5, q5⟩ := h5
  obtain ⟨p8, q8⟩ := h8
  obtain ⟨p10, q10⟩ := h10
  constructor <;> norm_num at * <;> linarith

/-! ## The property -/

/-- the longitude of the mean sun, as the program takes it (Earth's mean longitude plus half a turn) -/
noncomputable def meanSun (t : ℝ) : ℝ := (1753470142 + 628331965331.8 * t + 5296.74 * t ^ 2) / 10 ^ 9 + π

/-- `α` is a right ascension of the point of longitude `l` and latitude `β` when the obliquity is `ε` -/
def RightAscension (ε l β α : ℝ) : Prop := ∃ δ, -(π / 2) ≤ δ ∧ δ ≤ π / 2 ∧ dir α δ = rotX ε (dir l β)

theorem ra_spec (ε l β α : ℝ) (k : ℤ) (hβ : -(π / 2) < β ∧ β < π / 2) (h : (llrConv ⟨l, β, 0⟩ ε).x = α + 2 * π * k) : RightAscension ε l β α := by
  have h1 := (c38_rotation ⟨l, β, 0⟩ ε hβ).1
  refine ⟨(llrConv ⟨l, β, 0⟩ ε).y, neg_pi_div_two_le_arcsin _, arcsin_le_pi_div_two _, ?_⟩
  rw [← h1, h]
  unfold dir
  rw [show α + 2 * π * k = α + k * (2 * π) by ring, cos_add_int_mul_two_pi, sin_add_int_mul_two_pi]

theorem turns_bd {u B C : ℝ} (h : |u| ≤ B) (hB : B ≤ C * (2 * 3.14159)) (hC : 0 ≤ C) : |u / (2 * π)| ≤ C := by
  have hp := pi_gt_d6
  rw [abs_div, abs_of_pos (by positivity : 0 < 2 * π), div_le_iff₀ (by positivity)]
  refine (h.trans hB).trans (mul_le_mul_of_nonneg_left (by norm_num at *; linarith) hC)

/-- For every instant within 3000 years of 2000 the estimate of the equation of time answers; its answer (in days) is mean longitude minus right ascension of the sun, taken without
whole turns; it never exceeds 20 minutes, and within a century of 2000 it never exceeds 18 minutes. -/
theorem c80_equation_of_time (b : Tab) (hb : Builtin b) {t : ℝ} (ht : |t| ≤ 30) :
    ∃ E lon, eLon b t 5 = some lon ∧ ptyZty2 b t = some E ∧ |E| ≤ 20 / 1440 ∧ (|t| ≤ 1 → |E| ≤ 18 / 1440)
      ∧ ∃ α, RightAscension ((84381.4088 - 46.836051 * t) / radSec) (lon + π) 0 α ∧ 2 * π * E = meanSun t - α := by
  refine ⟨_, eR 5 t, eLon_eR b hb t 5 (by norm_num), ptyZty2_eq b hb ht, turns_bd (u2_bd30 t ht) (by norm_num) (by norm_num),
    fun h => turns_bd (u2_bd1 t h) (by norm_num) (by norm_num), ?_⟩
  have hc := obl2_cos ht
  obtain ⟨k, hk⟩ := ra_eq (eR 5 t + π) 0 (obl2 t) (lt_of_lt_of_le (by norm_num at *; linarith) (along_ge (cos_le_one _)))
  rw [tan_zero, zero_mul] at hk
  refine ⟨_, ra_spec (obl2 t) (eR 5 t + π) 0 _ k ⟨by linarith [pi_pos], by linarith [pi_pos]⟩ hk, ?_⟩
  rw [mul_div_cancel₀ _ (by positivity : 2 * π ≠ 0)]
  unfold u2 mean meanSun
  ring

/-- The precise version too answers, and is mean longitude minus right ascension, where the longitude is the apparent one (aberration, nutation), the latitude of the sun is used, and the nutation
in right ascension is taken out again; the same bounds hold. -/
theorem c80_precise (b : Tab) (hb : Builtin b) {t : ℝ} (ht : |t| ≤ 30) :
    ∃ E lon, eLon b t 50 = some lon ∧ ptyZty b t = some E ∧ |E| ≤ 20 / 1440 ∧ (|t| ≤ 1 → |E| ≤ 18 / 1440)
      ∧ ∃ α, RightAscension (hcjj t + nutO t) (lon + π + gxcSunLon t + nutL t) (lat t) α
        ∧ 2 * π * E = meanSun t + meanTail t - 20.5 / radSec - (α - nutL t * cos (hcjj t + nutO t)) := by
  refine ⟨_, eR 50 t, eLon_eR b hb t 50 (by norm_num), ptyZty_eq b hb ht, turns_bd (u1_bd30 t ht) (by norm_num) (by norm_num),
    fun h => turns_bd (u1_bd1 t h) (by norm_num) (by norm_num), ?_⟩
  have hc := obl1_30 ht
  have hw := lat_term (t := t)
  obtain ⟨k, hk⟩ := ra_eq (lon1 t) (lat t) (obl1 t) (lt_of_lt_of_le (by norm_num at *; linarith) (along_ge (cos_le_one _)))
  have hl := abs_le.mp (lat_bd t)
  have hp := pi_gt_three
  refine ⟨_, ra_spec (obl1 t) (lon1 t) (lat t) _ k ⟨by norm_num at *; linarith, by norm_num at *; linarith⟩ hk, ?_⟩
  rw [mul_div_cancel₀ _ (by positivity : 2 * π ≠ 0)]
  unfold u1 mean meanSun lon1 obl1
  ring

/-- From the year 1000 to the year 3000 the two versions differ by at most 5 seconds. -/
theorem c80_agree (b : Tab) (hb : Builtin b) {t : ℝ} (ht : |t| ≤ 10) : ∃ E1 E2, ptyZty b t = some E1 ∧ ptyZty2 b t = some E2 ∧ |E1 - E2| ≤ 5 / 86400 := by
  have h30 : |t| ≤ 30 := ht.trans (by norm_num)
  refine ⟨_, _, ptyZty_eq b hb h30, ptyZty2_eq b hb h30, ?_⟩
  rw [← sub_div]
  exact turns_bd (u_diff ht) (by norm_num) (by norm_num)

/-- The equation of time changes by at most 0.00042 days (37 s) a day. -/
theorem c80_rate (b : Tab) (hb : Builtin b) {s t : ℝ} (hs : |s| ≤ 30) (ht : |t| ≤ 30) :
    ∃ Es Et, ptyZty2 b s = some Es ∧ ptyZty2 b t = some Et ∧ |Et - Es| ≤ 0.00042 * |36525 * t - 36525 * s| := by
  refine ⟨_, _, ptyZty2_eq b hb hs, ptyZty2_eq b hb ht, ?_⟩
  rw [← sub_div, ← mul_sub, abs_mul, show |(36525 : ℝ)| = 36525 by norm_num]
  refine turns_bd (u2_lip s t hs ht) ?_ (by positivity)
  norm_num
  linarith [abs_nonneg (t - s)]

/-- the true solar time of `mingLiBaZi` — lunar_ob.cpp:315-318; `jd` is universal time in days from J2000, `J` the longitude of the place -/
noncomputable def trueTime (b : Tab) (dtT : ℝ → Option ℝ) (J jd : ℝ) : Option ℝ := do
  let d ← dtT jd
  let jd2 := jd + d
  let e ← ptyZty2 b (jd2 / 36525)
  pure (jd + e + J / π / 2)

/-- True solar time runs with the clock: between two instants at most 200 days apart it advances by their distance up to 37 s a day and a fiftieth of a second; so of two instants at least a tenth
of a second apart the later one has the later true solar time; and it stays within 20 minutes of local mean time. -/
theorem c80_true_time (b : Tab) (hb : Builtin b) (J : ℝ) {x y : ℝ} (hx : -1095000 ≤ x) (hxy : x ≤ y) (hy : y ≤ 365000) (hd : y - x ≤ 200) :
    ∃ X Y, trueTime b DeltaT.dtTR J x = some X ∧ trueTime b DeltaT.dtTR J y = some Y ∧ |(Y - X) - (y - x)| ≤ 0.00042 * (y - x) + 0.02 / 86400
      ∧ (0.1 / 86400 ≤ y - x → X < Y) ∧ |X - (x + J / (2 * π))| ≤ 20 / 1440 := by
  have r : ∀ z, -1095000 ≤ z → z ≤ 365000 → |(z + DeltaT.dtDays z) / 36525| ≤ 30 := by
    intro z h1 h2
    have h3 := abs_le.mp (DeltaT.dtDays_size (x := z) (by linarith) h2)
    rw [abs_div, show |(36525 : ℝ)| = 36525 by norm_num, div_le_iff₀ (by norm_num), abs_le]
    constructor <;> norm_num at * <;> linarith
  have rx := r x hx (by linarith)
  have ry := r y (by linarith) hy
  have val : ∀ z, |(z + DeltaT.dtDays z) / 36525| ≤ 30 → trueTime b DeltaT.dtTR J z = some (z + u2 ((z + DeltaT.dtDays z) / 36525) / (2 * π) + J / π / 2) := by
    intro z hz
    unfold trueTime
    rw [DeltaT.dtTR_days]
    show ((ptyZty2 b ((z + DeltaT.dtDays z) / 36525)).bind _) = _
    rw [ptyZty2_eq b hb hz]
    rfl
  obtain ⟨Es, Et, h1, h2, h3⟩ := c80_rate b hb rx ry
  have e1 := ptyZty2_eq b hb rx
  have e2 := ptyZty2_eq b hb ry
  rw [h1, Option.some.injEq] at e1
  rw [h2, Option.some.injEq] at e2
  have hs := DeltaT.dtDays_slow (x := x) (y := y) (by linarith) (by linarith) (by linarith) hy (by rw [abs_of_nonneg (by linarith)]; exact hd)
  rw [show 36525 * ((y + DeltaT.dtDays y) / 36525) - 36525 * ((x + DeltaT.dtDays x) / 36525) = (y - x) + (DeltaT.dtDays y - DeltaT.dtDays x) by ring] at h3
  have h4 : |(y - x) + (DeltaT.dtDays y - DeltaT.dtDays x)| ≤ (y - x) + |DeltaT.dtDays y - DeltaT.dtDays x| := by
    refine (abs_add_le _ _).trans ?_
    rw [abs_of_nonneg (by linarith : 0 ≤ y - x)]
  have h5 : |Et - Es| ≤ 0.00042 * (y - x) + 0.02 / 86400 := by
    have := mul_le_mul_of_nonneg_left h4 (by norm_num : (0 : ℝ) ≤ 0.00042)
    norm_num at *
    linarith
  refine ⟨_, _, val x rx, val y ry, ?_, ?_, ?_⟩
  · rw [← e1, ← e2, show y + Et + J / π / 2 - (x + Es + J / π / 2) - (y - x) = Et - Es by ring]
    exact h5
  · intro hg
    rw [← e1, ← e2]
    have := (abs_le.mp h5).1
    norm_num at *
    linarith
  · rw [← e1, show x + Es + J / π / 2 - (x + J / (2 * π)) = Es by field_simp; ring]
    obtain ⟨E, lon, _, h6, h7, _⟩ := c80_equation_of_time b hb rx
    rw [h1, Option.some.injEq] at h6
    rw [h6]; exact h7

/-- the hypotheses are met: the built-in tables exist, and 2026-11-18 is in range -/
example : ∃ b : Tab, Builtin b ∧ ∃ X Y, trueTime b DeltaT.dtTR 2 9818 = some X ∧ trueTime b DeltaT.dtTR 2 9818.5 = some Y ∧ X < Y := by
  refine ⟨⟨[x0I.map dec], [], [[ml0I.map dec, ml1I.map dec, ml2I.map dec, ml3I.map dec]], nutBI.map dec⟩, ⟨rfl, rfl, rfl⟩, ?_⟩
  obtain ⟨X, Y, h1, h2, _, h3, _⟩ := c80_true_time ⟨[x0I.map dec], [], [[ml0I.map dec, ml1I.map dec, ml2I.map dec, ml3I.map dec]], nutBI.map dec⟩ ⟨rfl, rfl, rfl⟩ 2
    (x := 9818) (y := 9818.5) (by norm_num) (by norm_num) (by norm_num) (by norm_num)
  exact ⟨X, Y, h1, h2, h3 (by norm_num)⟩

end Verif.EqTime
