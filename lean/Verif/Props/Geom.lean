import Verif.Geom
import Mathlib.Tactic.Linarith
import Mathlib.Tactic.LinearCombination
import Mathlib.Tactic.FieldSimp
import Mathlib.Analysis.Real.Pi.Bounds

/-!
# C36, C37, C38 (exact arithmetic): angle normalisation, spherical ↔ rectangular, rotation of the sphere
-/

namespace Verif.Geom

open Real

/-! ## normalisation -/

theorem fmod_eq (v : ℝ) : ∃ k : ℤ, fmod v (2 * π) = v + 2 * π * k :=
  ⟨-trunc (v / (2 * π)), by simp [fmod]; ring⟩

theorem fmod_bound (v : ℝ) : -(2 * π) < fmod v (2 * π) ∧ fmod v (2 * π) < 2 * π := by
  have hp : 0 < 2 * π := by positivity
  have hv : v = 2 * π * (v / (2 * π)) := by field_simp
  unfold fmod trunc
  split_ifs with h
  · have h1 := Int.floor_le (v / (2 * π))
    have h2 := Int.lt_floor_add_one (v / (2 * π))
    constructor
    · have := mul_le_mul_of_nonneg_left h1 hp.le
      linarith
    · have := mul_lt_mul_of_pos_left h2 hp
      linarith
  · have h1 := Int.le_ceil (v / (2 * π))
    have h2 := Int.ceil_lt_add_one (v / (2 * π))
    constructor
    · have := mul_lt_mul_of_pos_left h2 hp
      linarith
    · have := mul_le_mul_of_nonneg_left h1 hp.le
      linarith

/-- `rad2mrad` in exact arithmetic: the result is in [0, 2π) and differs from the argument by whole turns. -/
theorem c36_mrad_real (v : ℝ) : 0 ≤ mrad v ∧ mrad v < 2 * π ∧ ∃ k : ℤ, mrad v = v + 2 * π * k := by
  obtain ⟨k, hk⟩ := fmod_eq v
  have hb := fmod_bound v
  unfold mrad
  simp only []
  split_ifs with h
  · exact ⟨by linarith, by linarith, k + 1, by rw [hk]; push_cast; ring⟩
  · exact ⟨by linarith, hb.2, k, hk⟩

/-- `rad2rrad` in exact arithmetic: the result is in (-π, π] and differs from the argument by whole turns. -/
theorem c36_rrad_real (v : ℝ) : -π < rrad v ∧ rrad v ≤ π ∧ ∃ k : ℤ, rrad v = v + 2 * π * k := by
  obtain ⟨k, hk⟩ := fmod_eq v
  have hb := fmod_bound v
  have hp := pi_pos
  unfold rrad
  simp only []
  split_ifs with h h'
  · exact ⟨by linarith, by linarith, k + 1, by rw [hk]; push_cast; ring⟩
  · exact ⟨by linarith, by linarith, k - 1, by rw [hk]; push_cast; ring⟩
  · exact ⟨by linarith, by linarith, k, hk⟩

/-- a number of whole turns that keeps an angle in [0, 2π) is none -/
theorem turn_unique {a b : ℝ} (ha : 0 ≤ a ∧ a < 2 * π) (hb : 0 ≤ b ∧ b < 2 * π) {k : ℤ} (h : a = b + 2 * π * k) : a = b := by
  have hp := pi_pos
  have h1 : (k : ℝ) < 1 := by
    by_contra hc
    have hc : (1 : ℝ) ≤ k := by linarith
    have := mul_le_mul_of_nonneg_left hc (by positivity : (0 : ℝ) ≤ 2 * π)
    linarith
  have h2 : (-1 : ℝ) < k := by
    by_contra hc
    have hc : (k : ℝ) ≤ -1 := by linarith
    have := mul_le_mul_of_nonneg_left hc (by positivity : (0 : ℝ) ≤ 2 * π)
    linarith
  have h1' : k < 1 := by exact_mod_cast h1
  have h2' : -1 < k := by exact_mod_cast h2
  have : k = 0 := by omega
  rw [h, this]; simp

/-- `rad2mrad` and `rad2rrad` are the only such representatives, so two angles that differ by whole turns have one image. -/
theorem c36_mrad_unique (v a : ℝ) (ha : 0 ≤ a ∧ a < 2 * π) (k : ℤ) (h : a = v + 2 * π * k) : mrad v = a := by
  obtain ⟨h1, h2, m, hm⟩ := c36_mrad_real v
  refine turn_unique ⟨h1, h2⟩ ha (k := m - k) ?_
  rw [hm, h]; push_cast; ring

theorem c36_rrad_unique (v a : ℝ) (ha : -π < a ∧ a ≤ π) (k : ℤ) (h : a = v + 2 * π * k) : rrad v = a := by
  obtain ⟨h1, h2, m, hm⟩ := c36_rrad_real v
  have := turn_unique (a := π - rrad v) (b := π - a) ⟨by linarith, by linarith⟩ ⟨by linarith, by linarith⟩ (k := k - m)
    (by rw [hm, h]; push_cast; ring)
  linarith

theorem c36_mrad_id (v : ℝ) (h : 0 ≤ v ∧ v < 2 * π) : mrad v = v := c36_mrad_unique v v h 0 (by simp)

theorem c36_rrad_id (v : ℝ) (h : -π < v ∧ v ≤ π) : rrad v = v := c36_rrad_unique v v h 0 (by simp)

example : mrad (-1) = 2 * π - 1 :=
  c36_mrad_unique _ _ ⟨by linarith [pi_gt_three], by linarith⟩ 1 (by push_cast; ring)

theorem cos_mrad (v : ℝ) : cos (mrad v) = cos v := by
  obtain ⟨-, -, k, hk⟩ := c36_mrad_real v
  rw [hk, show v + 2 * π * k = v + k * (2 * π) by ring, cos_add_int_mul_two_pi]

theorem sin_mrad (v : ℝ) : sin (mrad v) = sin v := by
  obtain ⟨-, -, k, hk⟩ := c36_mrad_real v
  rw [hk, show v + 2 * π * k = v + k * (2 * π) by ring, sin_add_int_mul_two_pi]

theorem cos_rrad (v : ℝ) : cos (rrad v) = cos v := by
  obtain ⟨-, -, k, hk⟩ := c36_rrad_real v
  rw [hk, show v + 2 * π * k = v + k * (2 * π) by ring, cos_add_int_mul_two_pi]

theorem sin_rrad (v : ℝ) : sin (rrad v) = sin v := by
  obtain ⟨-, -, k, hk⟩ := c36_rrad_real v
  rw [hk, show v + 2 * π * k = v + k * (2 * π) by ring, sin_add_int_mul_two_pi]

/-! ## atan2 -/

theorem norm_mk (x y : ℝ) : ‖(⟨x, y⟩ : ℂ)‖ = √(x * x + y * y) := by
  rw [Complex.norm_def, Complex.normSq_mk]

theorem atan2_cos (y x : ℝ) : √(x * x + y * y) * cos (atan2 y x) = x := by
  have := Complex.norm_mul_cos_arg ⟨x, y⟩
  rwa [norm_mk] at this

theorem atan2_sin (y x : ℝ) : √(x * x + y * y) * sin (atan2 y x) = y := by
  have := Complex.norm_mul_sin_arg ⟨x, y⟩
  rwa [norm_mk] at this

theorem atan2_range (y x : ℝ) : -π < atan2 y x ∧ atan2 y x ≤ π := ⟨Complex.neg_pi_lt_arg _, Complex.arg_le_pi _⟩

/-- two angles with the same cosine and sine differ by whole turns -/
theorem same_angle {a b : ℝ} (hc : cos a = cos b) (hs : sin a = sin b) : ∃ k : ℤ, a = b + 2 * π * k := by
  have : cos (a - b) = 1 := by
    rw [cos_sub, hc, hs]
    nlinarith [sin_sq_add_cos_sq b]
  obtain ⟨n, hn⟩ := (cos_eq_one_iff _).1 this
  exact ⟨n, by linarith⟩

/-- the point at distance `t > 0` in direction `J` has `atan2` equal to `J` up to whole turns -/
theorem mrad_atan2 (t J : ℝ) (ht : 0 < t) : mrad (atan2 (t * sin J) (t * cos J)) = mrad J := by
  have hn : √(t * cos J * (t * cos J) + t * sin J * (t * sin J)) = t := by
    rw [show t * cos J * (t * cos J) + t * sin J * (t * sin J) = t ^ 2 * (sin J ^ 2 + cos J ^ 2) by ring, sin_sq_add_cos_sq, mul_one,
      sqrt_sq ht.le]
  have hc := atan2_cos (t * sin J) (t * cos J)
  have hs := atan2_sin (t * sin J) (t * cos J)
  rw [hn] at hc hs
  obtain ⟨k, hk⟩ := same_angle (mul_left_cancel₀ ht.ne' hc) (mul_left_cancel₀ ht.ne' hs)
  obtain ⟨h1, h2, m, hm⟩ := c36_mrad_real J
  refine c36_mrad_unique _ _ ⟨h1, h2⟩ (m - k) ?_
  rw [hm, hk]; push_cast; ring

/-! ## C37 -/

/-- rectangular → spherical → rectangular gives the vector back (every vector but 0) -/
theorem c37_xyz_llr_xyz (v : V3) (h : v.x ≠ 0 ∨ v.y ≠ 0 ∨ v.z ≠ 0) : llr2xyz (xyz2llr v) = v := by
  obtain ⟨x, y, z⟩ := v
  simp only at h
  have hpos : 0 < x * x + y * y + z * z := by
    rcases h with h | h | h
    · have := mul_self_pos.2 h
      nlinarith [mul_self_nonneg y, mul_self_nonneg z]
    · have := mul_self_pos.2 h
      nlinarith [mul_self_nonneg x, mul_self_nonneg z]
    · have := mul_self_pos.2 h
      nlinarith [mul_self_nonneg y, mul_self_nonneg x]
  have hr : 0 < √(x * x + y * y + z * z) := sqrt_pos.2 hpos
  have hr2 : √(x * x + y * y + z * z) ^ 2 = x * x + y * y + z * z := sq_sqrt hpos.le
  simp only [xyz2llr, llr2xyz]
  obtain ⟨r, hrd⟩ : ∃ r, r = √(x * x + y * y + z * z) := ⟨_, rfl⟩
  rw [← hrd] at hr hr2 ⊢
  have hzr : |z| ≤ r := abs_le_of_sq_le_sq (by nlinarith [mul_self_nonneg x, mul_self_nonneg y]) hr.le
  have hz := abs_le.1 hzr
  have h1 : -1 ≤ z / r := by rw [le_div_iff₀ hr]; linarith
  have h2 : z / r ≤ 1 := by rw [div_le_iff₀ hr]; linarith
  have hcos : r * cos (arcsin (z / r)) = √(x * x + y * y) := by
    rw [cos_arcsin]
    have : 1 - (z / r) ^ 2 = (x * x + y * y) / r ^ 2 := by
      field_simp; linarith
    rw [this, sqrt_div' _ (by positivity), sqrt_sq hr.le]
    field_simp
  rw [cos_mrad, sin_mrad, sin_arcsin h1 h2, hcos, atan2_cos, atan2_sin, mul_div_cancel₀ _ hr.ne']

/-- spherical → rectangular → spherical gives the coordinates back, in the range the second conversion produces -/
theorem c37_llr_xyz_llr (p : V3) (hJ : 0 ≤ p.x ∧ p.x < 2 * π) (hW : -(π / 2) < p.y ∧ p.y < π / 2) (hR : 0 < p.z) :
    xyz2llr (llr2xyz p) = p := by
  obtain ⟨J, W, R⟩ := p
  simp only at hJ hW hR
  have hc : 0 < cos W := cos_pos_of_mem_Ioo ⟨hW.1, hW.2⟩
  have hr : √(R * cos W * cos J * (R * cos W * cos J) + R * cos W * sin J * (R * cos W * sin J) + R * sin W * (R * sin W)) = R := by
    rw [show R * cos W * cos J * (R * cos W * cos J) + R * cos W * sin J * (R * cos W * sin J) + R * sin W * (R * sin W)
      = R ^ 2 * (cos W ^ 2 * (sin J ^ 2 + cos J ^ 2) + sin W ^ 2) by ring, sin_sq_add_cos_sq, mul_one, add_comm (cos W ^ 2), sin_sq_add_cos_sq,
      mul_one, sqrt_sq hR.le]
  simp only [xyz2llr, llr2xyz, hr]
  rw [mul_div_cancel_left₀ _ hR.ne', arcsin_sin hW.1.le hW.2.le, mrad_atan2 _ _ (mul_pos hR hc), c36_mrad_id J hJ]

/-- the ranges of the result, for every vector -/
theorem c37_range (v : V3) : 0 ≤ (xyz2llr v).x ∧ (xyz2llr v).x < 2 * π ∧ -(π / 2) ≤ (xyz2llr v).y ∧ (xyz2llr v).y ≤ π / 2 ∧ 0 ≤ (xyz2llr v).z := by
  obtain ⟨h1, h2, -⟩ := c36_mrad_real (atan2 v.y v.x)
  exact ⟨h1, h2, neg_pi_div_two_le_arcsin _, arcsin_le_pi_div_two _, sqrt_nonneg _⟩

example : xyz2llr (llr2xyz ⟨1, 1, 2⟩) = ⟨1, 1, 2⟩ :=
  c37_llr_xyz_llr _ ⟨by norm_num, by simp; linarith [pi_gt_three]⟩
    ⟨by simp; linarith [pi_gt_three], by simp; linarith [pi_gt_three]⟩ (by norm_num)

/-- `h2g`: the result is the vector difference, in spherical coordinates (unless the two points coincide) -/
theorem c37_h2g (z a : V3)
    (h : (llr2xyz z).x ≠ (llr2xyz a).x ∨ (llr2xyz z).y ≠ (llr2xyz a).y ∨ (llr2xyz z).z ≠ (llr2xyz a).z) :
    (llr2xyz (h2g z a)).x = (llr2xyz z).x - (llr2xyz a).x ∧ (llr2xyz (h2g z a)).y = (llr2xyz z).y - (llr2xyz a).y
      ∧ (llr2xyz (h2g z a)).z = (llr2xyz z).z - (llr2xyz a).z := by
  unfold h2g
  simp only []
  rw [c37_xyz_llr_xyz]
  · exact ⟨rfl, rfl, rfl⟩
  · simpa only [ne_eq, sub_eq_zero] using h

/-! ## C38 -/

/-- the unit vector of a direction -/
noncomputable def dir (J W : ℝ) : V3 := ⟨cos W * cos J, cos W * sin J, sin W⟩

/-- rotation about the x axis by the angle `E` -/
noncomputable def rotX (E : ℝ) (v : V3) : V3 := ⟨v.x, cos E * v.y - sin E * v.z, sin E * v.y + cos E * v.z⟩

/-- `llrConv` is the rotation about the x axis: for every longitude, every latitude short of the poles and every angle, the
direction of the result is the rotated direction, and the distance is kept. -/
theorem c38_rotation (p : V3) (E : ℝ) (hW : -(π / 2) < p.y ∧ p.y < π / 2) :
    dir (llrConv p E).x (llrConv p E).y = rotX E (dir p.x p.y) ∧ (llrConv p E).z = p.z := by
  obtain ⟨J, W, R⟩ := p
  simp only at hW
  have hc : 0 < cos W := cos_pos_of_mem_Ioo ⟨hW.1, hW.2⟩
  refine ⟨?_, rfl⟩
  simp only [llrConv, dir, rotX]
  have h1 := sin_sq_add_cos_sq W
  have h2 := sin_sq_add_cos_sq J
  have h3 := sin_sq_add_cos_sq E
  obtain ⟨Z, hZ⟩ : ∃ Z, Z = cos E * sin W + sin E * cos W * sin J := ⟨_, rfl⟩
  obtain ⟨Y, hY⟩ : ∃ Y, Y = cos E * (cos W * sin J) - sin E * sin W := ⟨_, rfl⟩
  obtain ⟨X, hX⟩ : ∃ X, X = cos W * cos J := ⟨_, rfl⟩
  have hsum : X ^ 2 + Y ^ 2 + Z ^ 2 = 1 := by
    rw [hX, hY, hZ]
    have : (cos W * cos J) ^ 2 + (cos E * (cos W * sin J) - sin E * sin W) ^ 2 + (cos E * sin W + sin E * cos W * sin J) ^ 2
      = (cos W) ^ 2 * (cos J ^ 2) + (sin E ^ 2 + cos E ^ 2) * (cos W ^ 2 * sin J ^ 2 + sin W ^ 2) := by ring
    rw [this, h3]
    linear_combination h1 + cos W ^ 2 * h2
  have hz1 : -1 ≤ Z := by nlinarith [sq_nonneg X, sq_nonneg Y]
  have hz2 : Z ≤ 1 := by nlinarith [sq_nonneg X, sq_nonneg Y]
  have hq : √(1 - Z ^ 2) = √(X * X + Y * Y) := by congr 1; linarith
  have hat : atan2 (sin J * cos E - tan W * sin E) (cos J) = atan2 Y X := by
    unfold atan2
    have : (⟨X, Y⟩ : ℂ) = (cos W : ℝ) * ⟨cos J, sin J * cos E - tan W * sin E⟩ := by
      apply Complex.ext
      · simp only [Complex.mul_re, Complex.ofReal_re, Complex.ofReal_im, zero_mul, sub_zero]; exact hX
      · simp only [Complex.mul_im, Complex.ofReal_re, Complex.ofReal_im, zero_mul, add_zero]
        rw [hY, tan_eq_sin_div_cos]
        field_simp
    rw [this, Complex.arg_real_mul _ hc]
  rw [← hZ, cos_mrad, sin_mrad, sin_arcsin hz1 hz2, cos_arcsin, hq, hat, atan2_cos, atan2_sin, hX, hY, hZ]
  congr 1; ring

theorem dir_inj {J W J' W' : ℝ} (hJ : 0 ≤ J ∧ J < 2 * π) (hJ' : 0 ≤ J' ∧ J' < 2 * π)
    (hW : -(π / 2) < W ∧ W < π / 2) (hW' : -(π / 2) ≤ W' ∧ W' ≤ π / 2) (h : dir J W = dir J' W') : J = J' ∧ W = W' := by
  simp only [dir, V3.mk.injEq] at h
  obtain ⟨h1, h2, h3⟩ := h
  have hww : W = W' := injOn_sin ⟨hW.1.le, hW.2.le⟩ hW' h3
  subst hww
  have hc : 0 < cos W := cos_pos_of_mem_Ioo ⟨hW.1, hW.2⟩
  obtain ⟨k, hk⟩ := same_angle (mul_left_cancel₀ hc.ne' h1) (mul_left_cancel₀ hc.ne' h2)
  exact ⟨turn_unique hJ hJ' hk, rfl⟩

theorem v3_ext {a b : V3} (h1 : a.x = b.x) (h2 : a.y = b.y) (h3 : a.z = b.z) : a = b := by
  cases a; cases b; simp_all

/-- Converting with the angle `E` and back with `-E` gives the coordinates back, whenever neither direction is a pole. -/
theorem c38_inverse (p : V3) (E : ℝ) (hJ : 0 ≤ p.x ∧ p.x < 2 * π) (hW : -(π / 2) < p.y ∧ p.y < π / 2)
    (hW' : |(rotX E (dir p.x p.y)).z| < 1) : llrConv (llrConv p E) (-E) = p := by
  obtain ⟨hd, hr⟩ := c38_rotation p E hW
  have hz : sin (llrConv p E).y = (rotX E (dir p.x p.y)).z := by rw [← hd]; rfl
  have hrange : -(π / 2) < (llrConv p E).y ∧ (llrConv p E).y < π / 2 := by
    have hb := abs_lt.1 hW'
    have e1 : -(π / 2) ≤ (llrConv p E).y := neg_pi_div_two_le_arcsin _
    have e2 : (llrConv p E).y ≤ π / 2 := arcsin_le_pi_div_two _
    constructor
    · refine lt_of_le_of_ne e1 fun h => ?_
      rw [← h, sin_neg, sin_pi_div_two] at hz
      linarith
    · refine lt_of_le_of_ne e2 fun h => ?_
      rw [h, sin_pi_div_two] at hz
      linarith
  obtain ⟨hd2, hr2⟩ := c38_rotation (llrConv p E) (-E) hrange
  rw [hd] at hd2
  have hback : rotX (-E) (rotX E (dir p.x p.y)) = dir p.x p.y := by
    have h3 := sin_sq_add_cos_sq E
    simp only [rotX, dir, cos_neg, sin_neg, V3.mk.injEq, true_and]
    constructor
    · linear_combination (cos p.y * sin p.x) * h3
    · linear_combination (sin p.y) * h3
  rw [hback] at hd2
  obtain ⟨m1, m2, -⟩ := c36_mrad_real (atan2 (sin (llrConv p E).x * cos (-E) - tan (llrConv p E).y * sin (-E)) (cos (llrConv p E).x))
  obtain ⟨a, b⟩ := dir_inj hJ ⟨m1, m2⟩ hW ⟨neg_pi_div_two_le_arcsin _, arcsin_le_pi_div_two _⟩ hd2.symm
  exact v3_ext a.symm b.symm (hr2.trans hr)

example : llrConv (llrConv ⟨1, 0, 2⟩ 1) (-1) = ⟨1, 0, 2⟩ := by
  refine c38_inverse _ _ ⟨by norm_num, by simp; linarith [pi_gt_three]⟩ ⟨by simp; exact pi_pos, by simp; exact pi_pos⟩ ?_
  simp only [rotX, dir, cos_zero, sin_zero, one_mul, mul_zero, add_zero]
  have h1 : sin (1 : ℝ) < 1 := by
    have := sin_lt_sin_of_lt_of_le_pi_div_two (x := 1) (y := π / 2) (by linarith [pi_pos]) le_rfl (by linarith [pi_gt_three])
    rwa [sin_pi_div_two] at this
  have h0 : 0 < sin (1 : ℝ) := sin_pos_of_pos_of_lt_pi one_pos (by linarith [pi_gt_three])
  rw [abs_of_pos (mul_pos h0 h0)]
  nlinarith

/-- The horizontal coordinates: altitude and azimuth satisfy the textbook formulas of the hour angle `H = gst + L - α`
(azimuth from the south through west), for every observer and every body away from the celestial poles. -/
theorem c38_horizontal (z : V3) (L fa gst : ℝ) (hW : -(π / 2) < z.y ∧ z.y < π / 2) :
    sin (cd2dp z L fa gst).y = sin fa * sin z.y + cos fa * cos z.y * cos (gst + L - z.x)
    ∧ cos (cd2dp z L fa gst).y * cos (cd2dp z L fa gst).x = sin fa * cos z.y * cos (gst + L - z.x) - cos fa * sin z.y
    ∧ cos (cd2dp z L fa gst).y * sin (cd2dp z L fa gst).x = cos z.y * sin (gst + L - z.x)
    ∧ (cd2dp z L fa gst).z = z.z := by
  obtain ⟨h, -⟩ := c38_rotation ⟨z.x + π / 2 - gst - L, z.y, z.z⟩ (π / 2 - fa) hW
  simp only [dir, rotX, V3.mk.injEq] at h
  obtain ⟨h1, h2, h3⟩ := h
  have ec : cos (z.x + π / 2 - gst - L) = sin (gst + L - z.x) := by
    rw [show z.x + π / 2 - gst - L = π / 2 - (gst + L - z.x) by ring, cos_pi_div_two_sub]
  have es : sin (z.x + π / 2 - gst - L) = cos (gst + L - z.x) := by
    rw [show z.x + π / 2 - gst - L = π / 2 - (gst + L - z.x) by ring, sin_pi_div_two_sub]
  rw [ec] at h1
  rw [es, cos_pi_div_two_sub, sin_pi_div_two_sub] at h2 h3
  simp only [cd2dp, cos_mrad, sin_mrad, cos_pi_div_two_sub, sin_pi_div_two_sub]
  refine ⟨?_, ?_, h1, rfl⟩
  · rw [h3]; ring
  · rw [h2]; ring

/-- the angle between two directions -/
noncomputable def angle (a b : V3) : ℝ := arccos (a.x * b.x + a.y * b.y + a.z * b.z)

/-- `j1_j2` outside the small-angle shortcut is the angle between the two directions. -/
theorem c38_angle (J1 W1 J2 W2 : ℝ) (h : 1 / 1000 ≤ |rrad (J1 - J2)| ∨ 1 / 1000 ≤ |W1 - W2|) :
    angDiff J1 W1 J2 W2 = angle (dir J1 W1) (dir J2 W2) := by
  unfold angDiff angle dir
  simp only []
  rw [if_neg (by rintro ⟨a, b⟩; rcases h with h | h <;> linarith), cos_rrad, cos_sub]
  congr 1; ring

/-- and it does not depend on whole turns added to either longitude, in either branch -/
theorem c38_angle_turns (J1 W1 J2 W2 : ℝ) (k : ℤ) : angDiff (J1 + 2 * π * k) W1 J2 W2 = angDiff J1 W1 J2 W2 := by
  have : rrad (J1 + 2 * π * k - J2) = rrad (J1 - J2) := by
    obtain ⟨h1, h2, m, hm⟩ := c36_rrad_real (J1 - J2)
    refine c36_rrad_unique _ _ ⟨h1, h2⟩ (m - k) ?_
    rw [hm]; push_cast; ring
  unfold angDiff
  rw [this]

theorem c38_angle_symm (J1 W1 J2 W2 : ℝ) : angDiff J1 W1 J2 W2 = angDiff J2 W2 J1 W1 := by
  have hs : rrad (J2 - J1) = -rrad (J1 - J2) ∨ rrad (J2 - J1) = rrad (J1 - J2) := by
    obtain ⟨h1, h2, m, hm⟩ := c36_rrad_real (J1 - J2)
    by_cases hpi : rrad (J1 - J2) = π
    · right
      refine c36_rrad_unique _ _ ⟨h1, h2⟩ (1 - m) ?_
      rw [hpi] at hm ⊢
      push_cast; linarith
    · left
      refine c36_rrad_unique _ _ ⟨by have := lt_of_le_of_ne h2 hpi; linarith, by linarith⟩ (-m) ?_
      rw [hm]; push_cast; ring
  unfold angDiff
  have hW : |W2 - W1| = |W1 - W2| := abs_sub_comm _ _
  have ha : |rrad (J2 - J1)| = |rrad (J1 - J2)| := by rcases hs with h | h <;> rw [h]; rw [abs_neg]
  have hc : cos (rrad (J2 - J1)) = cos (rrad (J1 - J2)) := by rcases hs with h | h <;> rw [h]; rw [cos_neg]
  have hq : rrad (J2 - J1) * rrad (J2 - J1) = rrad (J1 - J2) * rrad (J1 - J2) := by rcases hs with h | h <;> rw [h]; ring
  simp only []
  rw [hW, ha, hc]
  split_ifs
  · congr 1
    rw [add_comm W2 W1]
    linear_combination (-(cos ((W1 + W2) / 2)) ^ 2) * hq
  · congr 1; ring

end Verif.Geom
