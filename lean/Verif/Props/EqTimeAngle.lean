import Verif.EqTime
import Verif.Props.Geom
import Verif.Props.LonNear
import Mathlib.Tactic.LinearCombination

/-!
# Longitude and right ascension (used by C80)
-/

namespace Verif.EqTime

open Real Verif.Geom Verif.Longitude

/-- the components of the rotated direction along the direction of longitude `J`, and across it; `c` is the cosine of the obliquity, `w` the tangent of the latitude times its sine -/
noncomputable def along (c w J : ℝ) : ℝ := cos J ^ 2 + c * sin J ^ 2 - w * sin J
noncomputable def across (c w J : ℝ) : ℝ := -((1 - c) * (sin J * cos J)) - w * cos J

/-- right ascension minus longitude -/
noncomputable def red (c w J : ℝ) : ℝ := arctan (across c w J / along c w J)

theorem ra_eq (J W E : ℝ) (h : 0 < along (cos E) (tan W * sin E) J) :
    ∃ k : ℤ, (llrConv ⟨J, W, 0⟩ E).x = J + red (cos E) (tan W * sin E) J + 2 * π * k := by
  obtain ⟨c, hc⟩ : ∃ c, c = cos E := ⟨_, rfl⟩
  obtain ⟨w, hw⟩ : ∃ w, w = tan W * sin E := ⟨_, rfl⟩
  rw [← hc, ← hw] at h
  obtain ⟨X, hX⟩ : ∃ X, X = along c w J := ⟨_, rfl⟩
  obtain ⟨Y, hY⟩ : ∃ Y, Y = across c w J := ⟨_, rfl⟩
  obtain ⟨a, ha⟩ : ∃ a, a = red c w J := ⟨_, rfl⟩
  rw [← hX] at h
  have hca : 0 < cos a := by rw [ha]; exact cos_arctan_pos _
  have hta : sin a = Y / X * cos a := by
    have : tan a = Y / X := by rw [ha, red, tan_arctan, hX, hY]
    rw [tan_eq_sin_div_cos] at this
    field_simp at this ⊢
    linarith
  have hr : 0 < X / cos a := by positivity
  have e1 : X / cos a * cos (J + a) = cos J := by
    rw [cos_add, hta]
    have : X / cos a * (cos J * cos a - sin J * (Y / X * cos a)) = X * cos J - Y * sin J := by field_simp
    rw [this, hX, hY, along, across]
    have := sin_sq_add_cos_sq J
    linear_combination (cos J) * this
  have e2 : X / cos a * sin (J + a) = sin J * cos E - tan W * sin E := by
    rw [sin_add, hta]
    have : X / cos a * (sin J * cos a + cos J * (Y / X * cos a)) = X * sin J + Y * cos J := by field_simp
    rw [this, hX, hY, along, across, ← hc, ← hw]
    have := sin_sq_add_cos_sq J
    linear_combination (c * sin J - w) * this
  obtain ⟨_, _, k, hk⟩ := c36_mrad_real (J + a)
  refine ⟨k, ?_⟩
  show mrad (atan2 (sin J * cos E - tan W * sin E) (cos J)) = _
  rw [← e2, ← e1, mrad_atan2 _ _ hr, hk, ha, hc, hw]

theorem along_ge {c w J : ℝ} (hc : c ≤ 1) : c - |w| ≤ along c w J := by
  have h1 := sin_sq_add_cos_sq J
  have h2 : w * sin J ≤ |w| := (le_abs_self _).trans (by rw [abs_mul]; exact mul_le_of_le_one_right (abs_nonneg _) (abs_sin_le_one _))
  have h3 : 0 ≤ (1 - c) * cos J ^ 2 := mul_nonneg (by linarith) (sq_nonneg _)
  unfold along
  nlinarith

theorem arctan_lip (x y : ℝ) : |arctan x - arctan y| ≤ |x - y| := by
  have h := (Convex.norm_image_sub_le_of_norm_deriv_le (f := arctan) (s := Set.univ) (C := 1) (x := y) (y := x)
    (fun x _ => (differentiable_arctan x)) (fun x _ => by
      rw [(hasDerivAt_arctan x).deriv, Real.norm_eq_abs, abs_of_pos (by positivity), div_le_one (by positivity)]
      nlinarith [sq_nonneg x]) convex_univ trivial trivial)
  simpa using h

theorem abs_arctan_le (x : ℝ) : |arctan x| ≤ |x| := by simpa using arctan_lip x 0

/-- the reduction is bounded -/
theorem red_bd {c J B : ℝ} (hc : 0 < c) (hc1 : c ≤ 1) (hB : 0 ≤ B) (h : (1 - c) ^ 2 ≤ 4 * c * B ^ 2) : |red c 0 J| ≤ B := by
  have hX : 0 < along c 0 J := lt_of_lt_of_le (by simpa using hc) (along_ge hc1)
  refine (abs_arctan_le _).trans ?_
  rw [abs_div, abs_of_pos hX, div_le_iff₀ hX]
  have h1 : 4 * c * (sin J * cos J) ^ 2 ≤ along c 0 J ^ 2 := by
    unfold along
    nlinarith [sq_nonneg (cos J ^ 2 - c * sin J ^ 2)]
  have h2 : across c 0 J ^ 2 ≤ (B * along c 0 J) ^ 2 := by
    have e : across c 0 J ^ 2 = (1 - c) ^ 2 * (sin J * cos J) ^ 2 := by unfold across; ring
    rw [e, mul_pow]
    have a1 := mul_le_mul_of_nonneg_right h (sq_nonneg (sin J * cos J))
    have a2 := mul_le_mul_of_nonneg_left h1 (sq_nonneg B)
    nlinarith
  exact abs_le_of_sq_le_sq' h2 (by positivity) |> abs_le.mpr

/-- … changes little with the longitude -/
theorem red_lip {c J J' : ℝ} (hc : 0 < c) (hc1 : c ≤ 1) : |red c 0 J - red c 0 J'| ≤ (1 - c) / c ^ 2 * |J - J'| := by
  have hX : c ≤ along c 0 J := by simpa using along_ge (w := 0) (J := J) hc1
  have hX' : c ≤ along c 0 J' := by simpa using along_ge (w := 0) (J := J') hc1
  refine (arctan_lip _ _).trans ?_
  rw [div_sub_div _ _ (by linarith) (by linarith), abs_div, abs_of_pos (mul_pos (by linarith : 0 < along c 0 J) (by linarith : 0 < along c 0 J'))]
  have e : across c 0 J * along c 0 J' - along c 0 J * across c 0 J'
      = -((1 - c) / 2) * ((1 + c) / 2 * (sin (2 * J) - sin (2 * J')) + (1 - c) / 2 * sin (2 * J - 2 * J')) := by
    have h1 := sin_sq_add_cos_sq J
    have h2 := sin_sq_add_cos_sq J'
    have a1 : along c 0 J = (1 + c) / 2 + (1 - c) / 2 * cos (2 * J) := by unfold along; rw [cos_two_mul]; linear_combination c * h1
    have a2 : along c 0 J' = (1 + c) / 2 + (1 - c) / 2 * cos (2 * J') := by unfold along; rw [cos_two_mul]; linear_combination c * h2
    have b1 : across c 0 J = -((1 - c) / 2) * sin (2 * J) := by unfold across; rw [sin_two_mul]; ring
    have b2 : across c 0 J' = -((1 - c) / 2) * sin (2 * J') := by unfold across; rw [sin_two_mul]; ring
    rw [a1, a2, b1, b2, sin_sub]
    ring
  have s1 : |sin (2 * J) - sin (2 * J')| ≤ 2 * |J - J'| := by
    refine (abs_sin_sub_sin _ _).trans (le_of_eq ?_)
    rw [← mul_sub, abs_mul]; norm_num
  have s2 : |sin (2 * J - 2 * J')| ≤ 2 * |J - J'| := by
    have := abs_sin_sub_sin (2 * J - 2 * J') 0
    rw [sin_zero, sub_zero, sub_zero] at this
    refine this.trans (le_of_eq ?_)
    rw [← mul_sub, abs_mul]; norm_num
  have num : |across c 0 J * along c 0 J' - along c 0 J * across c 0 J'| ≤ (1 - c) * |J - J'| := by
    rw [e, abs_mul, abs_neg, abs_of_nonneg (by linarith : 0 ≤ (1 - c) / 2)]
    have : |(1 + c) / 2 * (sin (2 * J) - sin (2 * J')) + (1 - c) / 2 * sin (2 * J - 2 * J')| ≤ 2 * |J - J'| := by
      refine (abs_add_le _ _).trans ?_
      rw [abs_mul, abs_mul, abs_of_nonneg (by linarith : 0 ≤ (1 + c) / 2), abs_of_nonneg (by linarith : 0 ≤ (1 - c) / 2)]
      have k1 := mul_le_mul_of_nonneg_left s1 (by linarith : 0 ≤ (1 + c) / 2)
      have k2 := mul_le_mul_of_nonneg_left s2 (by linarith : 0 ≤ (1 - c) / 2)
      linarith
    have := mul_le_mul_of_nonneg_left this (by linarith : 0 ≤ (1 - c) / 2)
    linarith
  rw [div_mul_eq_mul_div]
  refine div_le_div₀ (mul_nonneg (by linarith) (abs_nonneg _)) num (by positivity) ?_
  rw [pow_two]
  exact mul_le_mul hX hX' hc.le (by linarith)

/-- … and with the obliquity -/
theorem red_obl {c c' J : ℝ} (hc : 0 < c) (hc1 : c ≤ 1) (hc' : 0 < c') (hc1' : c' ≤ 1) : |red c 0 J - red c' 0 J| ≤ |c - c'| / (2 * (c * c')) := by
  have hX : c ≤ along c 0 J := by simpa using along_ge (w := 0) (J := J) hc1
  have hX' : c' ≤ along c' 0 J := by simpa using along_ge (w := 0) (J := J) hc1'
  refine (arctan_lip _ _).trans ?_
  rw [div_sub_div _ _ (by linarith) (by linarith), abs_div, abs_of_pos (mul_pos (by linarith : 0 < along c 0 J) (by linarith : 0 < along c' 0 J))]
  have e : across c 0 J * along c' 0 J - along c 0 J * across c' 0 J = (c - c') * (sin (2 * J) / 2) := by
    have h1 := sin_sq_add_cos_sq J
    unfold across along
    rw [sin_two_mul]
    linear_combination (c - c') * sin J * cos J * h1
  have s : |sin (2 * J) / 2| ≤ 1 / 2 := by
    rw [abs_div, abs_of_pos (show (0 : ℝ) < 2 by norm_num)]
    linarith [abs_sin_le_one (2 * J)]
  rw [e, abs_mul, show |c - c'| / (2 * (c * c')) = |c - c'| * (1 / 2) / (c * c') by field_simp]
  refine div_le_div₀ (by positivity) (mul_le_mul_of_nonneg_left s (abs_nonneg _)) (by positivity) ?_
  exact mul_le_mul hX hX' hc'.le (by linarith)

/-- … and with the latitude -/
theorem red_lat {c w J : ℝ} (hc1 : c ≤ 1) (hw : |w| < c) : |red c w J - red c 0 J| ≤ |w| / ((c - |w|) * c) := by
  have hX : c - |w| ≤ along c w J := along_ge hc1
  have hX' : c ≤ along c 0 J := by simpa using along_ge (w := 0) (J := J) hc1
  have hc : 0 < c := (abs_nonneg w).trans_lt hw
  have hd : 0 < c - |w| := by linarith
  refine (arctan_lip _ _).trans ?_
  rw [div_sub_div _ _ (by linarith) (by linarith), abs_div, abs_of_pos (mul_pos (by linarith : 0 < along c w J) (by linarith : 0 < along c 0 J))]
  have e : across c w J * along c 0 J - along c w J * across c 0 J = -(w * cos J) := by
    have h1 := sin_sq_add_cos_sq J
    unfold across along
    linear_combination (-w * cos J) * h1
  rw [e, abs_neg, abs_mul]
  refine div_le_div₀ (abs_nonneg _) (mul_le_of_le_one_right (abs_nonneg _) (abs_cos_le_one _)) (by positivity) ?_
  exact mul_le_mul hX hX' hc.le (by linarith)

end Verif.EqTime
