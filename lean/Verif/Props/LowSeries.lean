import Verif.LowSeries
import Mathlib.Tactic.Linarith
import Mathlib.Tactic.FieldSimp

/-!
# C102 — the estimated new moons and solar terms are in order and `calc` asks for the right one
-/

namespace Verif.LowSeries

noncomputable section

open Real

theorem cos_diff (x y : ℝ) (B : ℝ) (h : |x - y| ≤ B) : -B ≤ cos x - cos y ∧ cos x - cos y ≤ B := abs_le.1 ((abs_cos_sub_cos_le x y).trans h)
theorem sin_diff (x y : ℝ) (B : ℝ) (h : |x - y| ≤ B) : -B ≤ sin x - sin y ∧ sin x - sin y ≤ B := abs_le.1 ((abs_sin_sub_sin_le x y).trans h)

/-- one lunation later -/
theorem month_core {t d : ℝ} (hv : vMoon * d = 2 * π) (ht : |t| ≤ 50) :
    ∃ e : ℝ, |e| ≤ 94.6 * d ∧
    (0.10976 * cos (0.785 + 8328.6914 * (t + d)) + 0.02224 * cos (0.187 + 7214.0629 * (t + d)) - 0.03342 * cos (4.669 + 628.3076 * (t + d))) -
      (0.10976 * cos (0.785 + 8328.6914 * t) + 0.02224 * cos (0.187 + 7214.0629 * t) - 0.03342 * cos (4.669 + 628.3076 * t)) = e := by
  have hd : 0 < d := by
    have := pi_pos
    unfold vMoon at hv
    nlinarith
  refine ⟨_, ?_, rfl⟩
  have e1 : cos (0.785 + 8328.6914 * (t + d)) = cos (0.785 + 8328.6914 * (t + d) - 2 * π) := (cos_sub_two_pi _).symm
  have e2 : cos (0.187 + 7214.0629 * (t + d)) = cos (0.187 + 7214.0629 * (t + d) - 2 * π) := (cos_sub_two_pi _).symm
  unfold vMoon at hv
  have b1 := cos_diff (0.785 + 8328.6914 * (t + d) - 2 * π) (0.785 + 8328.6914 * t) (557.32 * d) (by rw [← hv, abs_le]; constructor <;> linarith)
  have b2 := cos_diff (0.187 + 7214.0629 * (t + d) - 2 * π) (0.187 + 7214.0629 * t) (557.32 * d) (by rw [← hv, abs_le]; constructor <;> linarith)
  have b3 := cos_diff (4.669 + 628.3076 * (t + d)) (4.669 + 628.3076 * t) (628.31 * d) (by rw [abs_le]; constructor <;> linarith)
  rw [e1, e2, abs_le]
  constructor <;> linarith [b1.1, b1.2, b2.1, b2.2, b3.1, b3.2]

theorem soLow_eq (W : ℝ) : soLow W = 36525 * ((W + 1.08472) / vMoon) - 36525 / vMoon * (-0.0000331 * ((W + 1.08472) / vMoon) ^ 2 +
    (0.10976 * cos (0.785 + 8328.6914 * ((W + 1.08472) / vMoon)) + 0.02224 * cos (0.187 + 7214.0629 * ((W + 1.08472) / vMoon)) - 0.03342 * cos (4.669 + 628.3076 * ((W + 1.08472) / vMoon)))) -
    (32 * ((W + 1.08472) / vMoon + 1.8) ^ 2 - 20) / 86400 + 1 / 3 := by
  unfold soLow dtLow
  ring

/-- **C102** Consecutive estimated new moons are between 29.17 and 29.9 days apart, for 5000 years before and after 2000. -/
theorem c102_month (k : ℤ) (hk : |k| ≤ 61000) : 29.17 < soLow ((k + 1 : ℤ) * π * 2) - soLow (k * π * 2) ∧ soLow ((k + 1 : ℤ) * π * 2) - soLow (k * π * 2) < 29.9 := by
  obtain ⟨d, hd⟩ : ∃ d, vMoon * d = 2 * π := ⟨2 * π / vMoon, by rw [mul_div_cancel₀]; unfold vMoon; norm_num⟩
  have hp1 := pi_gt_d6
  have hp2 := pi_lt_d6
  have hd1 : 0.0008085030 < d := by unfold vMoon at hd; linarith
  have hd2 : d < 0.0008085041 := by unfold vMoon at hd; linarith
  obtain ⟨t, ht⟩ : ∃ t, (k * π * 2 + 1.08472) / vMoon = t := ⟨_, rfl⟩
  have hv0 : vMoon ≠ 0 := by unfold vMoon; norm_num
  have ht' : ((k + 1 : ℤ) * π * 2 + 1.08472) / vMoon = t + d := by
    rw [← ht, div_eq_iff hv0, add_mul, div_mul_cancel₀ _ hv0, mul_comm d, hd]; push_cast; ring
  have hkR : |(k : ℝ)| ≤ 61000 := by exact_mod_cast hk
  have htd : t = k * d + 1.08472 / vMoon := by rw [← ht, add_div]; congr 1; rw [div_eq_iff hv0]; linear_combination (-(k : ℝ)) * hd
  have htb : |t| ≤ 50 := by
    have h1 : |(k : ℝ) * d| ≤ 49.4 := by
      rw [abs_mul, abs_of_pos (by linarith : 0 < d)]
      nlinarith [abs_nonneg (k : ℝ)]
    have h2 : |1.08472 / vMoon| ≤ 0.001 := by unfold vMoon; rw [abs_le]; constructor <;> norm_num
    rw [htd]
    exact (abs_add_le _ _).trans (by linarith)
  obtain ⟨e, he, hee⟩ := month_core hd htb
  rw [soLow_eq, soLow_eq, ht, ht']
  have hlin : 36525 * (t + d) - 36525 / vMoon * (-0.0000331 * (t + d) ^ 2 + (0.10976 * cos (0.785 + 8328.6914 * (t + d)) + 0.02224 * cos (0.187 + 7214.0629 * (t + d)) - 0.03342 * cos (4.669 + 628.3076 * (t + d)))) -
      (32 * (t + d + 1.8) ^ 2 - 20) / 86400 + 1 / 3 -
      (36525 * t - 36525 / vMoon * (-0.0000331 * t ^ 2 + (0.10976 * cos (0.785 + 8328.6914 * t) + 0.02224 * cos (0.187 + 7214.0629 * t) - 0.03342 * cos (4.669 + 628.3076 * t))) - (32 * (t + 1.8) ^ 2 - 20) / 86400 + 1 / 3) =
      36525 * d - 36525 / vMoon * (-0.0000331 * (2 * (t * d) + d * d) + e) - 32 * (2 * (t * d) + 3.6 * d + d * d) / 86400 := by
    rw [← hee]; ring
  rw [hlin]
  have hpb : |t * d| ≤ 50 * d := by rw [abs_mul, abs_of_pos (by linarith : 0 < d)]; exact mul_le_mul_of_nonneg_right htb (by linarith)
  obtain ⟨q1, q2⟩ := abs_le.1 hpb
  obtain ⟨q3, q4⟩ := abs_le.1 he
  obtain ⟨p, hp⟩ : ∃ p, t * d = p := ⟨_, rfl⟩
  have hdd : d * d ≤ 0.001 * d := by nlinarith
  have hdd0 : 0 ≤ d * d := by positivity
  obtain ⟨s, hs⟩ : ∃ s, d * d = s := ⟨_, rfl⟩
  rw [hp] at q1 q2 ⊢
  rw [hs] at hdd hdd0 ⊢
  unfold vMoon
  constructor
  · norm_num at *; linarith
  · norm_num at *; linarith

theorem floor_step {x y a b : ℝ} {m n : ℤ} (h1 : a < y - x) (h2 : y - x < b) (ha : (m : ℝ) ≤ a) (hb : b ≤ n) : m ≤ ⌊y + 0.5⌋ - ⌊x + 0.5⌋ ∧ ⌊y + 0.5⌋ - ⌊x + 0.5⌋ ≤ n := by
  have f1 := Int.floor_le (x + 0.5)
  have f2 := Int.lt_floor_add_one (x + 0.5)
  have f3 := Int.floor_le (y + 0.5)
  have f4 := Int.lt_floor_add_one (y + 0.5)
  constructor
  · have : (m : ℝ) - 1 < ((⌊y + 0.5⌋ - ⌊x + 0.5⌋ : ℤ) : ℝ) := by push_cast; linarith
    have : m - 1 < ⌊y + 0.5⌋ - ⌊x + 0.5⌋ := by exact_mod_cast this
    omega
  · have : ((⌊y + 0.5⌋ - ⌊x + 0.5⌋ : ℤ) : ℝ) < (n : ℝ) + 1 := by push_cast; linarith
    have : ⌊y + 0.5⌋ - ⌊x + 0.5⌋ < n + 1 := by exact_mod_cast this
    omega

/-- **C102** The days of consecutive estimated new moons differ by 29 or 30. -/
theorem c102_month_days (k : ℤ) (hk : |k| ≤ 61000) : soDay (k + 1) - soDay k = 29 ∨ soDay (k + 1) - soDay k = 30 := by
  obtain ⟨h1, h2⟩ := c102_month k hk
  have := floor_step (m := 29) (n := 30) h1 h2 (by norm_num) (by norm_num)
  unfold soDay
  omega

/-- **C102** `calc` asks for the right new moon: if the day it is given is at most 12 days before or 15 days after an estimated new moon of the years 600 to 2000, that is the new moon it computes. -/
theorem c102_month_index (k : ℤ) (hk : -17320 ≤ k ∧ k ≤ 0) (jd : ℝ) (h1 : soLow (k * π * 2) - 12 ≤ jd) (h2 : jd ≤ soLow (k * π * 2) + 15) : soIndex jd = k := by
  obtain ⟨d, hd⟩ : ∃ d, vMoon * d = 2 * π := ⟨2 * π / vMoon, by rw [mul_div_cancel₀]; unfold vMoon; norm_num⟩
  have hp1 := pi_gt_d20
  have hp2 := pi_lt_d20
  have hd1 : 0.000808503459 < d := by unfold vMoon at hd; linarith
  have hd2 : d < 0.000808503460 := by unfold vMoon at hd; linarith
  have hv0 : vMoon ≠ 0 := by unfold vMoon; norm_num
  obtain ⟨t, ht⟩ : ∃ t, (k * π * 2 + 1.08472) / vMoon = t := ⟨_, rfl⟩
  have htd : t = k * d + 1.08472 / vMoon := by rw [← ht, add_div]; congr 1; rw [div_eq_iff hv0]; linear_combination (-(k : ℝ)) * hd
  have k1 : (-17320 : ℝ) ≤ k := by exact_mod_cast hk.1
  have k2 : (k : ℝ) ≤ 0 := by exact_mod_cast hk.2
  rw [soLow_eq, ht] at h1 h2
  have c1 := neg_one_le_cos (0.785 + 8328.6914 * t)
  have c1' := cos_le_one (0.785 + 8328.6914 * t)
  have c2 := neg_one_le_cos (0.187 + 7214.0629 * t)
  have c2' := cos_le_one (0.187 + 7214.0629 * t)
  have c3 := neg_one_le_cos (4.669 + 628.3076 * t)
  have c3' := cos_le_one (4.669 + 628.3076 * t)
  generalize cos (0.785 + 8328.6914 * t) = x1 at *
  generalize cos (0.187 + 7214.0629 * t) = x2 at *
  generalize cos (4.669 + 628.3076 * t) = x3 at *
  have hkd1 : (k : ℝ) * d ≤ 0 := mul_nonpos_of_nonpos_of_nonneg k2 (by linarith)
  have hkd2 : -14.0033 ≤ (k : ℝ) * d := by nlinarith
  have hkm : (k : ℝ) * 0.000808503460 ≤ k * d := by nlinarith
  have hkm' : (k : ℝ) * d ≤ k * 0.000808503459 := by nlinarith
  have ht1 : -14.004 ≤ t := by rw [htd]; unfold vMoon; norm_num at *; linarith
  have ht2 : t ≤ 0.001 := by rw [htd]; unfold vMoon; norm_num at *; linarith
  have hq : t ^ 2 ≤ 197 := by nlinarith
  have hq0 : 0 ≤ t ^ 2 := by positivity
  have hr : (t + 1.8) ^ 2 ≤ 149 := by nlinarith
  have hr0 : 0 ≤ (t + 1.8) ^ 2 := by positivity
  generalize t ^ 2 = u at *
  generalize (t + 1.8) ^ 2 = w at *
  generalize (k : ℝ) * d = kd at *
  rw [htd] at h1 h2
  unfold vMoon at h1 h2
  rw [soIndex, Int.floor_eq_iff]
  constructor
  · rw [le_div_iff₀ (by norm_num)]
    norm_num at *; linarith
  · rw [div_lt_iff₀ (by norm_num)]
    norm_num at *; linarith

/-! ## solar terms -/

/-- the first estimate one term later -/
theorem first_step {W : ℝ} {d t : ℝ} (hd : vSun * d = π / 12) (ht : (W - 4.895062166) / vSun = t) (htb : |t| ≤ 15) :
    0.96 * d ≤ qiFirst (W + π / 12) - qiFirst W ∧ qiFirst (W + π / 12) - qiFirst W ≤ 1.04 * d ∧ |qiFirst W - t| ≤ 0.0001 := by
  have hd0 : 0 < d := by have := pi_pos; unfold vSun at hd; nlinarith
  have hd2 : d < 0.0005 := by have := pi_lt_d2; unfold vSun at hd; linarith
  have hv0 : vSun ≠ 0 := by unfold vSun; norm_num
  have ht' : (W + π / 12 - 4.895062166) / vSun = t + d := by
    rw [← ht, div_eq_iff hv0, add_mul, div_mul_cancel₀ _ hv0, mul_comm d, hd]; ring
  have b1 := cos_diff (4.67 + 628.307585 * (t + d)) (4.67 + 628.307585 * t) (628.31 * d) (by rw [abs_le]; constructor <;> linarith)
  have b2 := cos_diff (2.678 + 628.3076 * (t + d)) (2.678 + 628.3076 * t) (628.31 * d) (by rw [abs_le]; constructor <;> linarith)
  have c1 := neg_one_le_cos (4.67 + 628.307585 * t)
  have c1' := cos_le_one (4.67 + 628.307585 * t)
  have c2 := neg_one_le_cos (2.678 + 628.3076 * t)
  have c2' := cos_le_one (2.678 + 628.3076 * t)
  have c3 := neg_one_le_cos (2.678 + 628.3076 * (t + d))
  have c3' := cos_le_one (2.678 + 628.3076 * (t + d))
  obtain ⟨t1, t2⟩ := abs_le.1 htb
  have e1 : qiFirst W = t - (53 * t * t + 334116 * cos (4.67 + 628.307585 * t) + 2061 * cos (2.678 + 628.3076 * t) * t) / vSun / 10000000 := by rw [qiFirst]; simp only [ht]
  have e2 : qiFirst (W + π / 12) = t + d - (53 * (t + d) * (t + d) + 334116 * cos (4.67 + 628.307585 * (t + d)) + 2061 * cos (2.678 + 628.3076 * (t + d)) * (t + d)) / vSun / 10000000 := by rw [qiFirst]; simp only [ht']
  generalize cos (4.67 + 628.307585 * (t + d)) = x1 at *
  generalize cos (4.67 + 628.307585 * t) = y1 at *
  generalize cos (2.678 + 628.3076 * (t + d)) = x2 at *
  generalize cos (2.678 + 628.3076 * t) = y2 at *
  have m1 : |(x2 - y2) * t| ≤ 628.31 * d * 15 := by rw [abs_mul]; exact mul_le_mul (abs_le.2 b2) htb (abs_nonneg _) (by positivity)
  have m2 : |x2 * d| ≤ d := by rw [abs_mul, abs_of_pos hd0]; have : |x2| ≤ 1 := abs_le.2 ⟨c3, c3'⟩; nlinarith
  have m3 : |t * d| ≤ 15 * d := by rw [abs_mul, abs_of_pos hd0]; exact mul_le_mul_of_nonneg_right htb hd0.le
  have m4 : |y2 * t| ≤ 15 := by rw [abs_mul]; have : |y2| ≤ 1 := abs_le.2 ⟨c2, c2'⟩; nlinarith [abs_nonneg t, abs_nonneg y2]
  have m5 : t * t ≤ 225 := by nlinarith
  have m6 : 0 ≤ t * t := mul_self_nonneg t
  have m7 : d * d ≤ 0.0005 * d := by nlinarith
  have m8 : 0 ≤ d * d := mul_self_nonneg d
  obtain ⟨m1, m1'⟩ := abs_le.1 m1
  obtain ⟨m2, m2'⟩ := abs_le.1 m2
  obtain ⟨m3, m3'⟩ := abs_le.1 m3
  obtain ⟨m4, m4'⟩ := abs_le.1 m4
  have e3 : qiFirst (W + π / 12) - qiFirst W = d - (53 * (2 * (t * d) + d * d) + 334116 * (x1 - y1) + 2061 * ((x2 - y2) * t + x2 * d)) / vSun / 10000000 := by rw [e1, e2]; ring
  have e4 : qiFirst W - t = -(53 * (t * t) + 334116 * y1 + 2061 * (y2 * t)) / vSun / 10000000 := by rw [e1]; ring
  rw [e3, e4, abs_le]
  generalize (x2 - y2) * t = z1 at *
  generalize x2 * d = z2 at *
  generalize t * d = z3 at *
  generalize y2 * t = z4 at *
  generalize t * t = z5 at *
  generalize d * d = z6 at *
  unfold vSun
  refine ⟨?_, ?_, ?_, ?_⟩ <;> norm_num at * <;> linarith

/-- the longitude less its mean part -/
def lonRest (t : ℝ) : ℝ := 53 * t * t + 334166 * cos (4.669257 + 628.307585 * t) + 3489 * cos (4.6261 + 1256.61517 * t) + 2060.6 * cos (2.67823 + 628.307585 * t) * t - 994 - 834 * sin (2.1824 - 33.75705 * t)

theorem qiLow_eq (W : ℝ) : qiLow W = 36525 * (qiFirst W - (4.895062166 + 628.3319653318 * qiFirst W + lonRest (qiFirst W) / 10000000 - W) / 628.332) - (32 * (qiFirst W + 1.8) ^ 2 - 20) / 86400 + 1 / 3 := by
  unfold qiLow dtLow qiLon lonRest
  ring

theorem rest_step {s d : ℝ} (hs : |s| ≤ 16) (hd0 : 0 < d) (hd2 : d < 0.001) : |lonRest (s + d) - lonRest s| ≤ 236000000 * d := by
  have b1 := cos_diff (4.669257 + 628.307585 * (s + d)) (4.669257 + 628.307585 * s) (628.31 * d) (by rw [abs_le]; constructor <;> linarith)
  have b2 := cos_diff (4.6261 + 1256.61517 * (s + d)) (4.6261 + 1256.61517 * s) (1256.62 * d) (by rw [abs_le]; constructor <;> linarith)
  have b3 := cos_diff (2.67823 + 628.307585 * (s + d)) (2.67823 + 628.307585 * s) (628.31 * d) (by rw [abs_le]; constructor <;> linarith)
  have b4 := sin_diff (2.1824 - 33.75705 * (s + d)) (2.1824 - 33.75705 * s) (33.76 * d) (by rw [abs_le]; constructor <;> linarith)
  have c3 := neg_one_le_cos (2.67823 + 628.307585 * (s + d))
  have c3' := cos_le_one (2.67823 + 628.307585 * (s + d))
  unfold lonRest
  generalize cos (4.669257 + 628.307585 * (s + d)) = x1 at *
  generalize cos (4.669257 + 628.307585 * s) = y1 at *
  generalize cos (4.6261 + 1256.61517 * (s + d)) = x2 at *
  generalize cos (4.6261 + 1256.61517 * s) = y2 at *
  generalize cos (2.67823 + 628.307585 * (s + d)) = x3 at *
  generalize cos (2.67823 + 628.307585 * s) = y3 at *
  generalize sin (2.1824 - 33.75705 * (s + d)) = x4 at *
  generalize sin (2.1824 - 33.75705 * s) = y4 at *
  have m1 : |(x3 - y3) * s| ≤ 628.31 * d * 16 := by rw [abs_mul]; exact mul_le_mul (abs_le.2 b3) hs (abs_nonneg _) (by positivity)
  have m2 : |x3 * d| ≤ d := by rw [abs_mul, abs_of_pos hd0]; have : |x3| ≤ 1 := abs_le.2 ⟨c3, c3'⟩; nlinarith
  have m3 : |s * d| ≤ 16 * d := by rw [abs_mul, abs_of_pos hd0]; exact mul_le_mul_of_nonneg_right hs hd0.le
  have m7 : d * d ≤ 0.001 * d := by nlinarith
  have m8 : 0 ≤ d * d := mul_self_nonneg d
  obtain ⟨m1, m1'⟩ := abs_le.1 m1
  obtain ⟨m2, m2'⟩ := abs_le.1 m2
  obtain ⟨m3, m3'⟩ := abs_le.1 m3
  have e : 53 * (s + d) * (s + d) + 334166 * x1 + 3489 * x2 + 2060.6 * x3 * (s + d) - 994 - 834 * x4 - (53 * s * s + 334166 * y1 + 3489 * y2 + 2060.6 * y3 * s - 994 - 834 * y4) =
      53 * (2 * (s * d) + d * d) + 334166 * (x1 - y1) + 3489 * (x2 - y2) + 2060.6 * ((x3 - y3) * s + x3 * d) - 834 * (x4 - y4) := by ring
  rw [e, abs_le]
  generalize (x3 - y3) * s = z1 at *
  generalize x3 * d = z2 at *
  generalize s * d = z3 at *
  generalize d * d = z6 at *
  constructor <;> norm_num at * <;> linarith

/-- **C102** Consecutive estimated solar terms are between 14.5 and 15.9 days apart, for 1400 years before and after 2000. -/
theorem c102_term (k : ℤ) (hk : |k| ≤ 34000) : 14.5 < qiLow ((k + 1 : ℤ) * π / 12) - qiLow (k * π / 12) ∧ qiLow ((k + 1 : ℤ) * π / 12) - qiLow (k * π / 12) < 15.9 := by
  obtain ⟨d, hd⟩ : ∃ d, vSun * d = π / 12 := ⟨π / 12 / vSun, by rw [mul_div_cancel₀]; unfold vSun; norm_num⟩
  have hp1 := pi_gt_d6
  have hp2 := pi_lt_d6
  have hd1 : 0.00041665 < d := by unfold vSun at hd; linarith
  have hd2 : d < 0.00041667 := by unfold vSun at hd; linarith
  have hv0 : vSun ≠ 0 := by unfold vSun; norm_num
  obtain ⟨W, hW⟩ : ∃ W, (k : ℝ) * π / 12 = W := ⟨_, rfl⟩
  have hW' : ((k + 1 : ℤ) : ℝ) * π / 12 = W + π / 12 := by rw [← hW]; push_cast; ring
  obtain ⟨t, ht⟩ : ∃ t, (W - 4.895062166) / vSun = t := ⟨_, rfl⟩
  have hkR : |(k : ℝ)| ≤ 34000 := by exact_mod_cast hk
  have htd : t = k * d - 4.895062166 / vSun := by rw [← ht, sub_div, ← hW]; congr 1; rw [div_eq_iff hv0]; linear_combination (-(k : ℝ)) * hd
  have htb : |t| ≤ 15 := by
    have h1 : |(k : ℝ) * d| ≤ 14.2 := by
      rw [abs_mul, abs_of_pos (by linarith : 0 < d)]
      nlinarith [abs_nonneg (k : ℝ)]
    have h2 : |4.895062166 / vSun| ≤ 0.01 := by unfold vSun; rw [abs_le]; constructor <;> norm_num
    rw [htd]
    exact (abs_sub _ _).trans (by linarith)
  obtain ⟨f1, f2, f3⟩ := first_step hd ht htb
  obtain ⟨s, hs⟩ : ∃ s, qiFirst W = s := ⟨_, rfl⟩
  obtain ⟨e, he⟩ : ∃ e, qiFirst (W + π / 12) = s + e := ⟨qiFirst (W + π / 12) - s, by ring⟩
  rw [hs, he, add_sub_cancel_left] at f1 f2
  rw [hs] at f3
  have he0 : 0 < e := by linarith
  have hsb : |s| ≤ 16 := by
    have : |s| ≤ |s - t| + |t| := by have := abs_add_le (s - t) t; rwa [sub_add_cancel] at this
    linarith
  have hr := rest_step hsb he0 (by linarith)
  obtain ⟨r1, r2⟩ := abs_le.1 hr
  obtain ⟨s1, s2⟩ := abs_le.1 hsb
  have hse : |s * e| ≤ 16 * e := by rw [abs_mul, abs_of_pos he0]; exact mul_le_mul_of_nonneg_right hsb he0.le
  obtain ⟨s3, s4⟩ := abs_le.1 hse
  have hee : e * e ≤ 0.001 * e := by nlinarith
  have hee0 : 0 ≤ e * e := mul_self_nonneg e
  rw [hW, hW', qiLow_eq, qiLow_eq, hs, he]
  have hlin : 36525 * (s + e - (4.895062166 + 628.3319653318 * (s + e) + lonRest (s + e) / 10000000 - (W + π / 12)) / 628.332) - (32 * (s + e + 1.8) ^ 2 - 20) / 86400 + 1 / 3 -
      (36525 * (s - (4.895062166 + 628.3319653318 * s + lonRest s / 10000000 - W) / 628.332) - (32 * (s + 1.8) ^ 2 - 20) / 86400 + 1 / 3) =
      36525 * (e - (628.3319653318 * e + (lonRest (s + e) - lonRest s) / 10000000 - π / 12) / 628.332) - 32 * (2 * (s * e) + e * e + 3.6 * e) / 86400 := by ring
  rw [hlin]
  generalize lonRest (s + e) - lonRest s = R at *
  generalize s * e = z1 at *
  generalize e * e = z2 at *
  constructor <;> norm_num at * <;> linarith

/-- **C102** The days of consecutive estimated solar terms differ by 14, 15 or 16. -/
theorem c102_term_days (k : ℤ) (hk : |k| ≤ 34000) : 14 ≤ qiDay (k + 1) - qiDay k ∧ qiDay (k + 1) - qiDay k ≤ 16 := by
  obtain ⟨h1, h2⟩ := c102_term k hk
  exact floor_step (m := 14) (n := 16) h1 h2 (by norm_num) (by norm_num)

/-- **C102** `calc` asks for the right solar term: if the day it is given is at most 6 days before or 4 days after an estimated solar term of the years 1600 to 2000, that is the term it computes. -/
theorem c102_term_index (k : ℤ) (hk : -9600 ≤ k ∧ k ≤ 0) (jd : ℝ) (h1 : qiLow (k * π / 12) - 6 ≤ jd) (h2 : jd ≤ qiLow (k * π / 12) + 4) : qiIndex jd = k := by
  obtain ⟨d, hd⟩ : ∃ d, vSun * d = π / 12 := ⟨π / 12 / vSun, by rw [mul_div_cancel₀]; unfold vSun; norm_num⟩
  have hp1 := pi_gt_d20
  have hp2 := pi_lt_d20
  have hv0 : vSun ≠ 0 := by unfold vSun; norm_num
  obtain ⟨W, hW⟩ : ∃ W, (k : ℝ) * π / 12 = W := ⟨_, rfl⟩
  obtain ⟨t, ht⟩ : ∃ t, (W - 4.895062166) / vSun = t := ⟨_, rfl⟩
  have k1 : (-9600 : ℝ) ≤ k := by exact_mod_cast hk.1
  have k2 : (k : ℝ) ≤ 0 := by exact_mod_cast hk.2
  have hW1 : (k : ℝ) * 0.2617993878 ≤ W := by rw [← hW]; nlinarith
  have hW2 : W ≤ (k : ℝ) * 0.2617993877 := by rw [← hW]; nlinarith
  have hWb : t = W / 628.3319653318 - 4.895062166 / 628.3319653318 := by rw [← ht]; unfold vSun; ring
  have htl : -4.1 ≤ t := by rw [hWb]; norm_num at *; linarith
  have htu : t ≤ 0 := by rw [hWb]; norm_num at *; linarith
  have htb : |t| ≤ 15 := abs_le.2 ⟨by linarith, by linarith⟩
  obtain ⟨_, _, f3⟩ := first_step hd ht htb
  rw [hW, qiLow_eq] at h1 h2
  generalize qiFirst W = s at *
  obtain ⟨f3, f4⟩ := abs_le.1 f3
  have sl : -4.11 ≤ s := by linarith
  have su : s ≤ 0.001 := by linarith
  have hr : |lonRest s + 994| ≤ 349000 := by
    have c1 := neg_one_le_cos (4.669257 + 628.307585 * s)
    have c1' := cos_le_one (4.669257 + 628.307585 * s)
    have c2 := neg_one_le_cos (4.6261 + 1256.61517 * s)
    have c2' := cos_le_one (4.6261 + 1256.61517 * s)
    have c3 := neg_one_le_cos (2.67823 + 628.307585 * s)
    have c3' := cos_le_one (2.67823 + 628.307585 * s)
    have c4 := neg_one_le_sin (2.1824 - 33.75705 * s)
    have c4' := sin_le_one (2.1824 - 33.75705 * s)
    unfold lonRest
    generalize cos (4.669257 + 628.307585 * s) = y1 at *
    generalize cos (4.6261 + 1256.61517 * s) = y2 at *
    generalize cos (2.67823 + 628.307585 * s) = y3 at *
    generalize sin (2.1824 - 33.75705 * s) = y4 at *
    have m1 : |y3 * s| ≤ 4.2 := by
      rw [abs_mul]
      have a1 : |y3| ≤ 1 := abs_le.2 ⟨c3, c3'⟩
      have a2 : |s| ≤ 4.2 := abs_le.2 ⟨by linarith, by linarith⟩
      nlinarith [abs_nonneg y3, abs_nonneg s]
    have m2 : s * s ≤ 18 := by nlinarith
    have m3 : 0 ≤ s * s := mul_self_nonneg s
    obtain ⟨m1, m1'⟩ := abs_le.1 m1
    have e : 53 * s * s + 334166 * y1 + 3489 * y2 + 2060.6 * y3 * s - 994 - 834 * y4 + 994 = 53 * (s * s) + 334166 * y1 + 3489 * y2 + 2060.6 * (y3 * s) - 834 * y4 := by ring
    rw [e, abs_le]
    generalize y3 * s = z1 at *
    generalize s * s = z2 at *
    constructor <;> norm_num at * <;> linarith
  obtain ⟨r1, r2⟩ := abs_le.1 hr
  have hq : (s + 1.8) ^ 2 ≤ 6 := by nlinarith
  have hq0 : 0 ≤ (s + 1.8) ^ 2 := by positivity
  generalize (s + 1.8) ^ 2 = u at *
  generalize lonRest s = R at *
  rw [qiIndex, Int.floor_eq_iff]
  constructor
  · norm_num at *; linarith
  · norm_num at *; linarith

/-- the hypotheses are met: the lunation 1000 months before January 2000, on a day ten days after it -/
example : soIndex (soLow ((-1000 : ℤ) * π * 2) + 10) = -1000 := c102_month_index (-1000) (by norm_num) _ (by linarith) (by linarith)
example : soDay (12345 + 1) - soDay 12345 = 29 ∨ soDay (12345 + 1) - soDay 12345 = 30 := c102_month_days 12345 (by norm_num)
example : qiIndex (qiLow ((-5000 : ℤ) * π / 12) - 5) = -5000 := c102_term_index (-5000) (by norm_num) _ (by linarith) (by linarith)
example : 14 ≤ qiDay (-8000 + 1) - qiDay (-8000) ∧ qiDay (-8000 + 1) - qiDay (-8000) ≤ 16 := c102_term_days (-8000) (by norm_num)

end

end Verif.LowSeries
