import Verif.SunTimes
import Verif.Props.RefineTime
import Verif.Props.EqTime2

/-!
# C82: sunrise, sunset, twilight and noon of the built-in sun
-/

namespace Verif.SunTimes

open Real Verif.Series Verif.Geom Verif.Longitude Verif.EphTab Verif.EqTime Verif.DeltaT

/-! ## The place of the sun -/

/-- centuries of dynamical time -/
noncomputable def cent (dt t : ℝ) : ℝ := (t + dt) / 36525
/-- the longitude used -/
noncomputable def lonS (τ : ℝ) : ℝ := eR 5 τ + π - 20.5 / radSec

theorem sunPlace_eq (b : Tab) (hb : Builtin b) (dt E t : ℝ) : sunPlace b dt E t = some (llrConv ⟨lonS (cent dt t), 0, 1⟩ E) := by
  unfold sunPlace
  rw [eLon_eR b hb _ 5 (by norm_num)]
  rfl

/-- sidereal time minus the mean longitude of the sun, apart from the daily turn -/
noncomputable def slow (dt t : ℝ) : ℝ :=
  let τ := cent dt t
  2 * π * (0.7790572732640 + 0.00273781191135448 * t) + (0.014506 + 4612.15739966 * τ + 1.39667721 * τ ^ 2 - 0.00009344 * τ ^ 3 + 0.00001882 * τ ^ 4) / radSec
    - mean τ - π + 20.5 / radSec

/-- the equation of time behind the table -/
noncomputable def eqt (dt E t : ℝ) : ℝ := slow dt t - (eR 5 (cent dt t) - mean (cent dt t)) - red (cos E) 0 (lonS (cent dt t))

theorem sun_H (b : Tab) (hb : Builtin b) (L dt E t : ℝ) (hE : 0 < cos E) : ∃ k : ℤ, (sunBody b L dt E).H t = 2 * π * t + L + eqt dt E t + 2 * π * k := by
  obtain ⟨k, hk⟩ := ra_eq (lonS (cent dt t)) 0 E (lt_of_lt_of_le (by simpa using hE) (along_ge (cos_le_one _)))
  rw [tan_zero, zero_mul] at hk
  refine ⟨-k, ?_⟩
  show pGST t dt + L - ((sunPlace b dt E t).getD ⟨0, 0, 0⟩).x = _
  rw [sunPlace_eq b hb, Option.getD_some, show (llrConv ⟨lonS (cent dt t), 0, 1⟩ E).x = (llrConv ⟨lonS (cent dt t), 0, 0⟩ E).x from rfl, hk]
  unfold eqt slow pGST lonS
  simp only []
  rw [show (t + dt) / 36525 = cent dt t from rfl]
  push_cast
  ring

theorem sun_dec (b : Tab) (hb : Builtin b) (L dt E t : ℝ) : (sunBody b L dt E).dec t = arcsin (sin E * sin (lonS (cent dt t))) := by
  show ((sunPlace b dt E t).getD ⟨0, 0, 0⟩).y = _
  rw [sunPlace_eq b hb, Option.getD_some]
  show arcsin (cos E * sin 0 + sin E * cos 0 * sin (lonS (cent dt t))) = _
  rw [sin_zero, cos_zero, mul_zero, zero_add, mul_one]

/-! ## How fast it moves -/

theorem one_div_rad : (1 : ℝ) / radSec = π / 648000 := by
  unfold radSec
  have := pi_pos
  field_simp
  norm_num

/-- `slow` as a polynomial in the centuries -/
theorem slow_eq (dt t : ℝ) : slow dt t = (2 * π * 0.7790572732640 + 0.014506 * (π / 648000) - 1.753470142 - π + 20.5 * (π / 648000)) - 2 * π * 0.00273781191135448 * dt
    + (2 * π * 0.00273781191135448 * 36525 + 4612.15739966 * (π / 648000) - 628.3319653318) * cent dt t + (1.39667721 * (π / 648000) - 0.00000529674) * cent dt t ^ 2
    + (-0.00009344 * (π / 648000)) * cent dt t ^ 3 + (0.00001882 * (π / 648000)) * cent dt t ^ 4 := by
  have ht : t = 36525 * cent dt t - dt := by unfold cent; ring
  unfold slow mean
  simp only []
  rw [div_eq_mul_one_div _ radSec, div_eq_mul_one_div 20.5 radSec, one_div_rad]
  conv_lhs => rw [show (0.00273781191135448 * t : ℝ) = 0.00273781191135448 * (36525 * cent dt t - dt) by rw [← ht]]
  ring

theorem coef :
    |2 * π * 0.7790572732640 + 0.014506 * (π / 648000) - 1.753470142 - π + 20.5 * (π / 648000)| ≤ 0.0001
    ∧ |2 * π * 0.00273781191135448 * 36525 + 4612.15739966 * (π / 648000) - 628.3319653318| ≤ 0.00001
    ∧ |1.39667721 * (π / 648000) - 0.00000529674| ≤ 0.0000015
    ∧ |-0.00009344 * (π / 648000)| ≤ 0.0000000005
    ∧ |0.00001882 * (π / 648000)| ≤ 0.0000000001
    ∧ |2 * π * 0.00273781191135448| ≤ 0.0173 := by
  have h1 := pi_gt_d20
  have h2 := pi_lt_d20
  refine ⟨?_, ?_, ?_, ?_, ?_, ?_⟩ <;> rw [abs_le] <;> constructor <;> norm_num at * <;> linarith

theorem slow_bd {dt t : ℝ} (hτ : |cent dt t| ≤ 30) (hd : |dt| ≤ 3.5) : |slow dt t| ≤ 0.0625 := by
  obtain ⟨c0, c1, c2, c3, c4, c5⟩ := coef
  rw [slow_eq]
  obtain ⟨x, hx⟩ : ∃ x, x = cent dt t := ⟨_, rfl⟩
  rw [← hx] at hτ ⊢
  have x2 : |x ^ 2| ≤ 30 ^ 2 := by rw [abs_pow]; exact pow_le_pow_left₀ (abs_nonneg _) hτ 2
  have x3 : |x ^ 3| ≤ 30 ^ 3 := by rw [abs_pow]; exact pow_le_pow_left₀ (abs_nonneg _) hτ 3
  have x4 : |x ^ 4| ≤ 30 ^ 4 := by rw [abs_pow]; exact pow_le_pow_left₀ (abs_nonneg _) hτ 4
  have p5 := mul_le_mul c5 hd (abs_nonneg _) (by norm_num)
  have p1 := mul_le_mul c1 hτ (abs_nonneg _) (by norm_num)
  have p2 := mul_le_mul c2 x2 (abs_nonneg _) (by norm_num)
  have p3 := mul_le_mul c3 x3 (abs_nonneg _) (by norm_num)
  have p4 := mul_le_mul c4 x4 (abs_nonneg _) (by norm_num)
  rw [← abs_mul] at p1 p2 p3 p4 p5
  refine (abs_add_le _ _).trans ?_
  refine (add_le_add_left (abs_add_le _ _) _).trans ?_
  refine (add_le_add_left (add_le_add_left (abs_add_le _ _) _) _).trans ?_
  refine (add_le_add_left (add_le_add_left (add_le_add_left (abs_add_le _ _) _) _) _).trans ?_
  refine (add_le_add_left (add_le_add_left (add_le_add_left (add_le_add_left (abs_sub _ _) _) _) _) _).trans ?_
  norm_num at *
  linarith

theorem slow_lip {dt s t : ℝ} (hs : |cent dt s| ≤ 30) (ht : |cent dt t| ≤ 30) : |slow dt t - slow dt s| ≤ 0.001 * |cent dt t - cent dt s| := by
  obtain ⟨c0, c1, c2, c3, c4, c5⟩ := coef
  rw [slow_eq, slow_eq]
  obtain ⟨x, hx⟩ : ∃ x, x = cent dt t := ⟨_, rfl⟩
  obtain ⟨y, hy⟩ : ∃ y, y = cent dt s := ⟨_, rfl⟩
  rw [← hx] at ht
  rw [← hy] at hs
  rw [← hx, ← hy]
  obtain ⟨a1, e1⟩ : ∃ a, a = 2 * π * 0.00273781191135448 * 36525 + 4612.15739966 * (π / 648000) - 628.3319653318 := ⟨_, rfl⟩
  obtain ⟨a2, e2⟩ : ∃ a, a = 1.39667721 * (π / 648000) - 0.00000529674 := ⟨_, rfl⟩
  obtain ⟨a3, e3⟩ : ∃ a, a = -0.00009344 * (π / 648000) := ⟨_, rfl⟩
  obtain ⟨a4, e4⟩ : ∃ a, a = 0.00001882 * (π / 648000) := ⟨_, rfl⟩
  rw [← e1] at c1
  rw [← e2] at c2
  rw [← e3] at c3
  rw [← e4] at c4
  rw [← e1, ← e2, ← e3, ← e4]
  have q2 := (Lip.pow (R := 30) (by norm_num) 2) y x hs ht
  have q3 := (Lip.pow (R := 30) (by norm_num) 3) y x hs ht
  have q4 := (Lip.pow (R := 30) (by norm_num) 4) y x hs ht
  simp only at q2 q3 q4
  have p1 := mul_le_mul_of_nonneg_right c1 (abs_nonneg (x - y))
  have p2 := mul_le_mul c2 q2 (abs_nonneg _) (by norm_num)
  have p3 := mul_le_mul c3 q3 (abs_nonneg _) (by norm_num)
  have p4 := mul_le_mul c4 q4 (abs_nonneg _) (by norm_num)
  rw [← abs_mul] at p1 p2 p3 p4
  obtain ⟨c, hc⟩ : ∃ c, c = (2 * π * 0.7790572732640 + 0.014506 * (π / 648000) - 1.753470142 - π + 20.5 * (π / 648000)) - 2 * π * 0.00273781191135448 * dt := ⟨_, rfl⟩
  rw [← hc]
  rw [show c + a1 * x + a2 * x ^ 2 + a3 * x ^ 3 + a4 * x ^ 4 - (c + a1 * y + a2 * y ^ 2 + a3 * y ^ 3 + a4 * y ^ 4)
    = a1 * (x - y) + a2 * (x ^ 2 - y ^ 2) + a3 * (x ^ 3 - y ^ 3) + a4 * (x ^ 4 - y ^ 4) by ring]
  refine (abs_add_le _ _).trans ?_
  refine (add_le_add_left (abs_add_le _ _) _).trans ?_
  refine (add_le_add_left (add_le_add_left (abs_add_le _ _) _) _).trans ?_
  norm_num at *
  linarith [abs_nonneg (x - y)]

theorem lonS_lip {x y : ℝ} (hx : |x| ≤ 30) (hy : |y| ≤ 30) : |lonS x - lonS y| ≤ 654.94 * |x - y| := by
  have n0 : 1 ≤ useE 5 0 := by rw [useE_5.1]; norm_num
  have n1 : 1 ≤ useE 5 1 := by rw [useE_5.2.1]; norm_num
  have n2 : 1 ≤ useE 5 2 := by rw [useE_5.2.2]; norm_num
  have h1 := mean_lip 5 n0 n1 n2 y x hy hx
  have hm : |mean x - mean y| ≤ 628.34 * |x - y| := by
    have e : mean x - mean y = (628.3319653318 + 0.00000529674 * (x + y)) * (x - y) := by unfold mean; ring
    rw [e, abs_mul]
    refine mul_le_mul_of_nonneg_right ?_ (abs_nonneg _)
    rw [abs_le] at *
    constructor <;> norm_num at * <;> linarith [hx.1, hx.2, hy.1, hy.2]
  have e : lonS x - lonS y = (eR 5 x - mean x - (eR 5 y - mean y)) + (mean x - mean y) := by unfold lonS; ring
  rw [e]
  refine (abs_add_le _ _).trans ?_
  simp only at h1
  norm_num at *
  linarith

theorem cent_sub (dt s t : ℝ) : |cent dt t - cent dt s| = |t - s| / 36525 := by
  unfold cent
  rw [← sub_div, abs_div, abs_of_pos (show (0 : ℝ) < 36525 by norm_num)]
  congr 2
  ring

theorem eqt_lip {dt E s t : ℝ} (hE : 0.9133 ≤ cos E) (hs : |cent dt s| ≤ 30) (ht : |cent dt t| ≤ 30) : |eqt dt E t - eqt dt E s| ≤ 0.0026 * |t - s| := by
  have n0 : 1 ≤ useE 5 0 := by rw [useE_5.1]; norm_num
  have n1 : 1 ≤ useE 5 1 := by rw [useE_5.2.1]; norm_num
  have n2 : 1 ≤ useE 5 2 := by rw [useE_5.2.2]; norm_num
  have h1 := mean_lip 5 n0 n1 n2 _ _ hs ht
  have h2 := slow_lip hs ht
  have r1 := red_lip (c := cos E) (J := lonS (cent dt t)) (J' := lonS (cent dt s)) (by norm_num at *; linarith) (cos_le_one _)
  have k1 : (1 - cos E) / cos E ^ 2 ≤ 0.1041 := by
    rw [div_le_iff₀ (by norm_num at *; positivity)]
    have : (0.9133 : ℝ) ^ 2 ≤ cos E ^ 2 := pow_le_pow_left₀ (by norm_num) hE 2
    norm_num at *
    linarith
  have k3 := mul_le_mul k1 (lonS_lip ht hs) (abs_nonneg _) (by norm_num)
  have e : eqt dt E t - eqt dt E s = (slow dt t - slow dt s) - ((eR 5 (cent dt t) - mean (cent dt t)) - (eR 5 (cent dt s) - mean (cent dt s)))
      - (red (cos E) 0 (lonS (cent dt t)) - red (cos E) 0 (lonS (cent dt s))) := by unfold eqt; ring
  rw [e]
  refine (abs_sub _ _).trans ?_
  refine (add_le_add_left (abs_sub _ _) _).trans ?_
  have hc := cent_sub dt s t
  simp only at h1
  rw [hc] at h1 h2 k3
  norm_num at *
  linarith [abs_nonneg (t - s)]

theorem eqt_bd {dt E t : ℝ} (hE : 0.9133 ≤ cos E) (hτ : |cent dt t| ≤ 30) (hd : |dt| ≤ 3.5) : |eqt dt E t| ≤ 0.15 := by
  have h1 := mean_bd (by norm_num : (0 : ℝ) ≤ 30) 5 (by rw [useE_5.1]; norm_num) (by rw [useE_5.2.1]; norm_num) (by rw [useE_5.2.2]; norm_num) _ hτ
  have h2 := slow_bd hτ hd
  have h3 := red_bd (c := cos E) (J := lonS (cent dt t)) (B := 0.0454) (by norm_num at *; linarith) (cos_le_one _) (by norm_num) (by
    have a1 : (1 - cos E) ^ 2 ≤ (1 - 0.9133) ^ 2 := pow_le_pow_left₀ (by linarith [cos_le_one E]) (by linarith) 2
    norm_num at *
    linarith)
  unfold eqt
  refine (abs_sub _ _).trans ?_
  refine (add_le_add_left (abs_sub _ _) _).trans ?_
  simp only at h1
  norm_num at *
  linarith

/-- the sine of the declination -/
theorem sdec_lip {dt E s t : ℝ} (hE : |sin E| ≤ 0.406) (hs : |cent dt s| ≤ 30) (ht : |cent dt t| ≤ 30) :
    |sin E * sin (lonS (cent dt t)) - sin E * sin (lonS (cent dt s))| ≤ 0.0073 * |t - s| := by
  rw [← mul_sub, abs_mul]
  have h1 := (abs_sin_sub_sin (lonS (cent dt t)) (lonS (cent dt s))).trans (lonS_lip ht hs)
  rw [cent_sub] at h1
  have := mul_le_mul hE h1 (abs_nonneg _) (by norm_num)
  norm_num at *
  linarith [abs_nonneg (t - s)]

theorem sdec_bd {E x : ℝ} (hE : |sin E| ≤ 0.406) : |sin E * sin x| ≤ 0.406 := by
  rw [abs_mul]
  have := mul_le_mul hE (abs_sin_le_one x) (abs_nonneg _) (by norm_num)
  norm_num at *
  linarith

theorem hcjj_bd {x : ℝ} (hx : |x| ≤ 30) : |hcjj x| ≤ 0.4162 := by
  have h2 : |x ^ 2| ≤ 30 ^ 2 := by rw [abs_pow]; exact pow_le_pow_left₀ (abs_nonneg _) hx 2
  have h3 : |x ^ 3| ≤ 30 ^ 3 := by rw [abs_pow]; exact pow_le_pow_left₀ (abs_nonneg _) hx 3
  have h4 : |x ^ 4| ≤ 30 ^ 4 := by rw [abs_pow]; exact pow_le_pow_left₀ (abs_nonneg _) hx 4
  have h5 : |x ^ 5| ≤ 30 ^ 5 := by rw [abs_pow]; exact pow_le_pow_left₀ (abs_nonneg _) hx 5
  have e : hcjj x = (84381.4060 - 46.836769 * x - 0.0001831 * x ^ 2 + 0.00200340 * x ^ 3 - 5.76e-7 * x ^ 4 - 4.34e-8 * x ^ 5) / radSec := by
    unfold hcjj
    simp only []
    ring
  rw [e]
  refine (over_rad (B := 85843) ?_).trans (by norm_num)
  rw [abs_le] at *
  constructor <;> norm_num at * <;> linarith [hx.1, hx.2]

theorem hcjj_trig {x : ℝ} (hx : |x| ≤ 30) : 0.9133 ≤ cos (hcjj x) ∧ |sin (hcjj x)| ≤ 0.406 := by
  have h := hcjj_bd hx
  have c := cos_low h
  have hc : (0.91338 : ℝ) ≤ cos (hcjj x) := by norm_num at *; linarith
  refine ⟨by norm_num at *; linarith, ?_⟩
  have m : sin (|hcjj x|) ≤ sin 0.4162 := sin_le_sin_of_le_of_le_pi_div_two (by linarith [abs_nonneg (hcjj x), pi_pos]) (by have := pi_gt_three; norm_num; linarith) h
  have q := abs_le.mp (sin_bound (x := 0.4162) (by rw [abs_le]; norm_num))
  have n0 : 0 ≤ sin (|hcjj x|) := sin_nonneg_of_nonneg_of_le_pi (abs_nonneg _) (h.trans (by have := pi_gt_three; norm_num; linarith))
  have e : |sin (hcjj x)| = sin (|hcjj x|) := by
    rcases abs_cases (hcjj x) with ⟨a, _⟩ | ⟨a, _⟩
    · rw [a] at n0 ⊢
      exact abs_of_nonneg n0
    · rw [a] at n0 ⊢
      rw [sin_neg] at n0 ⊢
      exact abs_of_nonpos (by linarith)
  rw [e]
  have q2 := q.2
  rw [abs_of_pos (show (0 : ℝ) < 0.4162 by norm_num)] at q2
  norm_num at q2 m ⊢
  linarith

end Verif.SunTimes
