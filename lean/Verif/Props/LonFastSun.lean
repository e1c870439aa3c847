import Verif.Props.LonSunTime
import Verif.Props.LonMoonNear

/-!
# C76: the fast estimate of the instant of a longitude of the sun
-/

namespace Verif.Longitude

open Real Verif.Series Verif.EphTab

/-! ## Bounds on shorter ranges -/

theorem ordL_bdR {R : ℝ} (hR : 0 ≤ R) (i : ℕ) (l : List T3) (A : ℕ) (hA : ampI l ≤ A) :
    Bd R (fun t => ordL i l t / 10 ^ 10) ((R / 10) ^ i * ((A : ℝ) / 10 ^ 19)) := fun t ht => by
  have h2 : ((ampI l : ℕ) : ℝ) ≤ A := by exact_mod_cast hA
  show |ordL i l t / 10 ^ 10| ≤ _
  unfold ordL
  have h1 : |t / 10| ≤ R / 10 := by rw [abs_div, show |(10 : ℝ)| = 10 by norm_num]; linarith
  rw [abs_div, abs_of_pos (show (0 : ℝ) < 10 ^ 10 by positivity), div_le_iff₀ (by positivity), abs_mul, abs_pow]
  have h3 := mul_le_mul (pow_le_pow_left₀ (abs_nonneg _) h1 i) ((ser_bd l (t / 10)).trans (div_le_div_of_nonneg_right h2 (by positivity))) (abs_nonneg _) (by positivity)
  refine h3.trans (le_of_eq ?_)
  ring

theorem corrE_bdR {R : ℝ} (_ : 0 ≤ R) : Bd R corrE ((0.0728 + 2.7702 * (R / 10) + 1.1019 * (R / 10) ^ 2 + 0.0996 * (R / 10) ^ 3) / 206264) := by
  intro t ht
  have hr := radSec_gt
  obtain ⟨x, hx⟩ : ∃ x, x = t / 10 := ⟨_, rfl⟩
  have h1 : |x| ≤ R / 10 := by rw [hx, abs_div, show |(10 : ℝ)| = 10 by norm_num]; linarith
  unfold corrE
  rw [← hx, abs_div, abs_of_pos (by linarith : 0 < radSec)]
  have h2 : |x * x| ≤ (R / 10) ^ 2 := by rw [abs_mul, ← pow_two]; exact pow_le_pow_left₀ (abs_nonneg _) h1 2
  have h3 : |x * x * x| ≤ (R / 10) ^ 3 := by rw [show x * x * x = x ^ 3 by ring, abs_pow]; exact pow_le_pow_left₀ (abs_nonneg _) h1 3
  refine div_le_div₀ ?_ ?_ (by norm_num) hr.le
  · positivity
  · rw [abs_le] at *
    constructor <;> norm_num at * <;> linarith

theorem eR_truncR {R : ℝ} (hR : 0 ≤ R) (n : ℤ) (N0 N1 N2 N3 N4 N5 : ℕ) (h0 : ampI ((eT 0).drop (useE n 0)) ≤ N0) (h1 : ampI ((eT 1).drop (useE n 1)) ≤ N1)
    (h2 : ampI ((eT 2).drop (useE n 2)) ≤ N2) (h3 : ampI ((eT 3).drop (useE n 3)) ≤ N3) (h4 : ampI ((eT 4).drop (useE n 4)) ≤ N4) (h5 : ampI ((eT 5).drop (useE n 5)) ≤ N5) :
    Bd R (fun t => eR n t - eR (-1) t) ((R / 10) ^ 0 * ((N0 : ℝ) / 10 ^ 19) + (R / 10) ^ 1 * ((N1 : ℝ) / 10 ^ 19) + (R / 10) ^ 2 * ((N2 : ℝ) / 10 ^ 19)
      + (R / 10) ^ 3 * ((N3 : ℝ) / 10 ^ 19) + (R / 10) ^ 4 * ((N4 : ℝ) / 10 ^ 19) + (R / 10) ^ 5 * ((N5 : ℝ) / 10 ^ 19)) := by
  have b := (((((ordL_bdR hR 0 _ _ h0).add (ordL_bdR hR 1 _ _ h1)).add (ordL_bdR hR 2 _ _ h2)).add (ordL_bdR hR 3 _ _ h3)).add (ordL_bdR hR 4 _ _ h4)).add (ordL_bdR hR 5 _ _ h5)
  intro t ht
  obtain ⟨l0, l1, l2, l3, l4, l5⟩ := eT_length
  obtain ⟨u0, u1, u2, u3, u4, u5⟩ := useE_all
  have key : ∀ i, ordL i (eT i) t = ordL i ((eT i).take (useE n i)) t + ordL i ((eT i).drop (useE n i)) t := by
    intro i
    have := ordL_append i ((eT i).take (useE n i)) ((eT i).drop (useE n i)) t
    rwa [List.take_append_drop] at this
  have hb := b t ht
  clear b
  have e : -(eR n t - eR (-1) t) = ordL 0 ((eT 0).drop (useE n 0)) t / 10 ^ 10 + ordL 1 ((eT 1).drop (useE n 1)) t / 10 ^ 10 + ordL 2 ((eT 2).drop (useE n 2)) t / 10 ^ 10
      + ordL 3 ((eT 3).drop (useE n 3)) t / 10 ^ 10 + ordL 4 ((eT 4).drop (useE n 4)) t / 10 ^ 10 + ordL 5 ((eT 5).drop (useE n 5)) t / 10 ^ 10 := by
    unfold eR
    rw [u0, u1, u2, u3, u4, u5, List.take_of_length_le l0.le, List.take_of_length_le l1.le, List.take_of_length_le l2.le,
      List.take_of_length_le l3.le, List.take_of_length_le l4.le, List.take_of_length_le l5.le]
    rw [key 0, key 1, key 2, key 3, key 4, key 5]
    ring
  simp only at hb ⊢
  rw [← abs_neg, e]
  exact hb

/-! ## The approximation inside the estimate -/

noncomputable def pS (t : ℝ) : ℝ := 0.000005297 * t * t + 0.0334166 * cos (4.669257 + 628.307585 * t) + 0.0002061 * cos (2.67823 + 628.307585 * t) * t

theorem eT_head02 : (eT 0).take 2 = [(17534704567000000000, 0, 0), (334165646000000000, 4669256804, 6283075849991)] := by decide +kernel
theorem eT_head21 : (eT 2).take 1 = [(5291887000000000, 0, 0)] := by decide +kernel
theorem eT_rest : ampI ((eT 0).drop 2) ≤ 6463931000000000 ∧ ampI ((eT 1).drop 2) ≤ 587474000000000 ∧ ampI ((eT 2).drop 1) ≤ 917471000000000
    ∧ ampI (eT 3) ≤ 34701000000000 ∧ ampI (eT 4) ≤ 12299000000000 ∧ ampI (eT 5) ≤ 113000000000 := by decide +kernel

theorem amp_cos {a a' x y d e : ℝ} (h : |a - a'| ≤ d) (h' : 0 ≤ a') (h2 : |x - y| ≤ e) : |a * cos x - a' * cos y| ≤ d + a' * e := by
  rw [show a * cos x - a' * cos y = (a - a') * cos x + a' * (cos x - cos y) by ring]
  refine (abs_add_le _ _).trans (add_le_add ?_ ?_)
  · rw [abs_mul]
    have := mul_le_mul h (abs_cos_le_one x) (abs_nonneg _) ((abs_nonneg _).trans h)
    linarith
  · rw [abs_mul, abs_of_nonneg h']
    exact mul_le_mul_of_nonneg_left ((abs_cos_sub_cos _ _).trans h2) h'

/-- the Earth's longitude is the approximation up to small terms -/
theorem eR_approx {R : ℝ} (hR : 0 ≤ R) (h30 : R ≤ 30) : Bd R (fun t => eR (-1) t - (1.75347 + 628.3319653318 * t) - pS t)
    (0.0006463931 + (R / 10) * 0.0000587474 + (R / 10) ^ 2 * 0.0000917471 + (R / 10) ^ 3 * 0.0000034701 + (R / 10) ^ 4 * 0.0000012299 + (R / 10) ^ 5 * 0.0000000113
      + (0.0728 + 2.7702 * (R / 10) + 1.1019 * (R / 10) ^ 2 + 0.0996 * (R / 10) ^ 3) / 206264
      + 0.0000005 + R * 0.00000147 + R ^ 2 * 0.000000006) := by
  obtain ⟨u0, u1, u2, u3, u4, u5⟩ := useE_all
  obtain ⟨l0, l1, l2, l3, l4, l5⟩ := eT_length
  obtain ⟨a0, a1, a2, a3, a4, a5⟩ := eT_rest
  have b := ((((((ordL_bdR hR 0 _ _ a0).add (ordL_bdR hR 1 _ _ a1)).add (ordL_bdR hR 2 _ _ a2)).add (ordL_bdR hR 3 _ _ a3)).add (ordL_bdR hR 4 _ _ a4)).add (ordL_bdR hR 5 _ _ a5)).add
    (corrE_bdR hR)
  intro t ht
  have hb := b t ht
  have c1 : |0.0334165646 * cos (4.669256804 + 628.3075849991 * t) - 0.0334166 * cos (4.669257 + 628.307585 * t)| ≤ 0.000000043 := by
    refine (amp_cos (d := 0.0000000354) (e := 0.000000224) (by norm_num [abs_le]) (by norm_num) ?_).trans (by norm_num)
    have h := ht.trans h30
    clear hb b
    rw [abs_le] at h ⊢
    constructor <;> norm_num at h ⊢ <;> linarith
  have c2 : |0.00020605886 * cos (2.67823456 + 628.307584999 * t) - 0.0002061 * cos (2.67823 + 628.307585 * t)| ≤ 0.000000044 := by
    refine (amp_cos (d := 0.00000004114) (e := 0.0000046) (by norm_num [abs_le]) (by norm_num) ?_).trans (by norm_num)
    have h := ht.trans h30
    clear hb b
    rw [abs_le] at h ⊢
    constructor <;> norm_num at h ⊢ <;> linarith
  have c2' : |(0.00020605886 * cos (2.67823456 + 628.307584999 * t) - 0.0002061 * cos (2.67823 + 628.307585 * t)) * t| ≤ 0.000000044 * R := by
    rw [abs_mul]; exact mul_le_mul c2 ht (abs_nonneg _) (by norm_num)
  have c3 : |(5.291887E-6 - 0.000005297) * t ^ 2| ≤ 0.000000006 * R ^ 2 := by
    rw [abs_mul]
    refine mul_le_mul ?_ (Bd.pow hR 2 t ht) (abs_nonneg _) (by norm_num)
    rw [abs_of_neg (by norm_num)]; norm_num
  have c4 : |0.0000004567 + (628.33196674749 - 628.3319653318) * t| ≤ 0.0000004567 + 0.0000014157 * R := by
    refine (abs_add_le _ _).trans (add_le_add (le_of_eq (abs_of_pos (by norm_num))) ?_)
    rw [abs_mul]
    refine mul_le_mul ?_ ht (abs_nonneg _) (by norm_num)
    rw [abs_of_pos (by norm_num)]; norm_num
  have e0 : ordL 0 ((eT 0).take 2) t / 10 ^ 10 = 1.7534704567 + 0.0334165646 * cos (4.669256804 + 628.3075849991 * t) := by
    have e1 : dec 4669256804 + t / 10 * dec 6283075849991 = 4.669256804 + 628.3075849991 * t := by rw [dec, dec]; push_cast; ring
    have e0 : dec 0 + t / 10 * dec 0 = 0 := by simp [dec]
    rw [eT_head02, ordL, ser_cons, ser_cons, ser_nil, e1, e0, cos_zero]
    simp only [dec]
    push_cast
    ring
  have e1 := head1 t
  have e2 : ordL 2 ((eT 2).take 1) t / 10 ^ 10 = 0.000005291887 * t ^ 2 := by
    have e0 : dec 0 + t / 10 * dec 0 = 0 := by simp [dec]
    rw [eT_head21, ordL, ser_cons, ser_nil, e0, cos_zero]
    simp only [dec]
    push_cast
    ring
  have key : ∀ i k, ordL i (eT i) t = ordL i ((eT i).take k) t + ordL i ((eT i).drop k) t := by
    intro i k
    have := ordL_append i ((eT i).take k) ((eT i).drop k) t
    rwa [List.take_append_drop] at this
  have e : eR (-1) t - (1.75347 + 628.3319653318 * t) - pS t = (ordL 0 ((eT 0).drop 2) t / 10 ^ 10 + ordL 1 ((eT 1).drop 2) t / 10 ^ 10 + ordL 2 ((eT 2).drop 1) t / 10 ^ 10
      + ordL 3 (eT 3) t / 10 ^ 10 + ordL 4 (eT 4) t / 10 ^ 10 + ordL 5 (eT 5) t / 10 ^ 10 + corrE t)
      + ((0.0334165646 * cos (4.669256804 + 628.3075849991 * t) - 0.0334166 * cos (4.669257 + 628.307585 * t))
        + (0.00020605886 * cos (2.67823456 + 628.307584999 * t) - 0.0002061 * cos (2.67823 + 628.307585 * t)) * t
        + (5.291887E-6 - 0.000005297) * t ^ 2 + (0.0000004567 + (628.33196674749 - 628.3319653318) * t)) := by
    unfold eR pS
    rw [u0, u1, u2, u3, u4, u5, List.take_of_length_le l0.le, List.take_of_length_le l1.le, List.take_of_length_le l2.le,
      List.take_of_length_le l3.le, List.take_of_length_le l4.le, List.take_of_length_le l5.le]
    rw [key 0 2, key 1 2, key 2 1]
    rw [add_div, add_div, add_div, add_div, add_div, add_div, add_div, add_div, e0, e1, e2]
    ring
  show |eR (-1) t - (1.75347 + 628.3319653318 * t) - pS t| ≤ _
  rw [e]
  have tri : ∀ a b c d x : ℝ, |a + (b + c + d + x)| ≤ |a| + |b| + |c| + |d| + |x| := fun a b c d x => by
    have h2 := abs_add_le a (b + c + d + x)
    have h3 := abs_add_le (b + c + d) x
    have h4 := abs_add_le (b + c) d
    have h5 := abs_add_le b c
    linarith
  refine (tri _ _ _ _ _).trans ?_
  push_cast at hb
  norm_num at *
  linarith

/-! ## First correction -/

theorem pS_bd {R : ℝ} (_ : 0 ≤ R) : Bd R pS (0.000005297 * R ^ 2 + 0.0334166 + 0.0002061 * R) := by
  intro t ht
  unfold pS
  have h1 : |0.000005297 * t * t| ≤ 0.000005297 * R ^ 2 := by
    rw [mul_assoc, ← pow_two, abs_mul, abs_of_pos (by norm_num), abs_pow]
    exact mul_le_mul_of_nonneg_left (pow_le_pow_left₀ (abs_nonneg _) ht 2) (by norm_num)
  have h2 : |0.0334166 * cos (4.669257 + 628.307585 * t)| ≤ 0.0334166 := by
    rw [abs_mul, abs_of_pos (by norm_num)]
    exact mul_le_of_le_one_right (by norm_num) (abs_cos_le_one _)
  have h3 : |0.0002061 * cos (2.67823 + 628.307585 * t) * t| ≤ 0.0002061 * R := by
    rw [mul_assoc, abs_mul, abs_of_pos (by norm_num), abs_mul]
    refine mul_le_mul_of_nonneg_left ?_ (by norm_num)
    have := mul_le_mul (abs_cos_le_one (2.67823 + 628.307585 * t)) ht (abs_nonneg _) (by norm_num)
    linarith
  exact (abs_add_three _ _ _).trans (add_le_add (add_le_add h1 h2) h3)

theorem pS_step {R ρ D z d r : ℝ} (hR : 0 ≤ R) (hz : |z| ≤ R) (hzd : |z + d| ≤ R) (hd : 628.3319653318 * d = pS z + r) (hr : |r| ≤ ρ) (hD : |d| ≤ D) :
    |pS z - pS (z + d)| ≤ 0.00055834 + 0.0334154 * (0.000005297 * R ^ 2 + 0.0002061 * R + ρ) + 6596 * D ^ 2
      + (0.0002061 * (628.307585 * R + 1) + 0.000010594 * R) * D := by
  obtain ⟨x, hx⟩ : ∃ x, x = 4.669257 + 628.307585 * z := ⟨_, rfl⟩
  obtain ⟨y, hy⟩ : ∃ y, y = 2.67823 + 628.307585 * z := ⟨_, rfl⟩
  have hD0 : 0 ≤ D := (abs_nonneg _).trans hD
  have e : pS z - pS (z + d) = 0.0334166 * 628.307585 * d * sin x
      - 0.0334166 * (cos (x + 628.307585 * d) - cos x + 628.307585 * d * sin x)
      + (0.0002061 * (z * (cos y - cos (y + 628.307585 * d)) - d * cos (y + 628.307585 * d)) - 0.000005297 * (2 * z + d) * d) := by
    unfold pS
    rw [show 4.669257 + 628.307585 * (z + d) = x + 628.307585 * d by rw [hx]; ring, show 2.67823 + 628.307585 * (z + d) = y + 628.307585 * d by rw [hy]; ring, ← hx, ← hy]
    ring
  have f : 0.0334166 * 628.307585 * d * sin x = 0.0334166 * 628.307585 / 628.3319653318 * (0.0334166 * (sin x * cos x)
      + sin x * (0.000005297 * z * z + 0.0002061 * cos y * z + r)) := by
    have : d = (pS z + r) / 628.3319653318 := by field_simp; linarith
    rw [this]
    unfold pS
    rw [← hx, ← hy]
    ring
  have sc : |sin x * cos x| ≤ 1 / 2 := by
    have h1 := sin_two_mul x
    have h2 := abs_sin_le_one (2 * x)
    rw [h1, mul_assoc, abs_mul, abs_of_pos (by norm_num : (0 : ℝ) < 2)] at h2
    linarith
  have rest : |0.000005297 * z * z + 0.0002061 * cos y * z + r| ≤ 0.000005297 * R ^ 2 + 0.0002061 * R + ρ := by
    refine (abs_add_three _ _ _).trans (add_le_add (add_le_add ?_ ?_) hr)
    · rw [mul_assoc, ← pow_two, abs_mul, abs_of_pos (by norm_num), abs_pow]
      exact mul_le_mul_of_nonneg_left (pow_le_pow_left₀ (abs_nonneg _) hz 2) (by norm_num)
    · rw [mul_assoc, abs_mul, abs_of_pos (by norm_num), abs_mul]
      refine mul_le_mul_of_nonneg_left ?_ (by norm_num)
      have := mul_le_mul (abs_cos_le_one y) hz (abs_nonneg _) (by norm_num)
      linarith
  have g1 : |0.0334166 * 628.307585 * d * sin x| ≤ 0.00055834 + 0.0334154 * (0.000005297 * R ^ 2 + 0.0002061 * R + ρ) := by
    rw [f, abs_mul, abs_of_pos (by norm_num : (0 : ℝ) < 0.0334166 * 628.307585 / 628.3319653318)]
    have h1 : |0.0334166 * (sin x * cos x) + sin x * (0.000005297 * z * z + 0.0002061 * cos y * z + r)|
        ≤ 0.0334166 * (1 / 2) + (0.000005297 * R ^ 2 + 0.0002061 * R + ρ) := by
      refine (abs_add_le _ _).trans (add_le_add ?_ ?_)
      · rw [abs_mul, abs_of_pos (by norm_num)]
        exact mul_le_mul_of_nonneg_left sc (by norm_num)
      · rw [abs_mul]
        have := mul_le_mul (abs_sin_le_one x) rest (abs_nonneg _) (by norm_num)
        linarith
    have h0 : 0 ≤ 0.000005297 * R ^ 2 + 0.0002061 * R + ρ := (abs_nonneg _).trans rest
    have h2 := mul_le_mul_of_nonneg_left h1 (by norm_num : (0 : ℝ) ≤ 0.0334166 * 628.307585 / 628.3319653318)
    refine h2.trans ?_
    rw [mul_add]
    refine add_le_add (by norm_num) (mul_le_mul_of_nonneg_right (by norm_num) h0)
  have hd2 : (628.307585 * d) ^ 2 ≤ 628.307585 ^ 2 * D ^ 2 := by
    rw [mul_pow]
    refine mul_le_mul_of_nonneg_left ?_ (by positivity)
    rw [← sq_abs]; exact pow_le_pow_left₀ (abs_nonneg _) hD 2
  have g2 : |0.0334166 * (cos (x + 628.307585 * d) - cos x + 628.307585 * d * sin x)| ≤ 6596 * D ^ 2 := by
    rw [abs_mul, abs_of_pos (by norm_num)]
    have h1 := cos_second x (628.307585 * d)
    have h3 : 0 ≤ D ^ 2 := by positivity
    have h2 := mul_le_mul_of_nonneg_left (h1.trans (div_le_div_of_nonneg_right hd2 (by norm_num))) (by norm_num : (0 : ℝ) ≤ 0.0334166)
    refine h2.trans ?_
    rw [show 0.0334166 * (628.307585 ^ 2 * D ^ 2 / 2) = (0.0334166 * 628.307585 ^ 2 / 2) * D ^ 2 by ring]
    exact mul_le_mul_of_nonneg_right (by norm_num) h3
  have g3 : |0.0002061 * (z * (cos y - cos (y + 628.307585 * d)) - d * cos (y + 628.307585 * d)) - 0.000005297 * (2 * z + d) * d|
      ≤ (0.0002061 * (628.307585 * R + 1) + 0.000010594 * R) * D := by
    have h1 : |z * (cos y - cos (y + 628.307585 * d))| ≤ R * (628.307585 * D) := by
      rw [abs_mul]
      refine mul_le_mul hz ((abs_cos_sub_cos _ _).trans ?_) (abs_nonneg _) hR
      rw [show y - (y + 628.307585 * d) = -(628.307585 * d) by ring, abs_neg, abs_mul, abs_of_pos (by norm_num)]
      exact mul_le_mul_of_nonneg_left hD (by norm_num)
    have h2 : |d * cos (y + 628.307585 * d)| ≤ D := by
      rw [abs_mul]
      have := mul_le_mul hD (abs_cos_le_one (y + 628.307585 * d)) (abs_nonneg _) hD0
      linarith
    have h3 : |(2 * z + d) * d| ≤ 2 * R * D := by
      rw [abs_mul]
      refine mul_le_mul ?_ hD (abs_nonneg _) (by linarith)
      have := abs_add_le z (z + d)
      rw [show 2 * z + d = z + (z + d) by ring]
      linarith
    refine (abs_sub _ _).trans ?_
    rw [abs_mul, abs_of_pos (by norm_num : (0 : ℝ) < 0.0002061), mul_assoc, abs_mul, abs_of_pos (by norm_num : (0 : ℝ) < 0.000005297)]
    have h4 := mul_le_mul_of_nonneg_left ((abs_sub _ _).trans (add_le_add h1 h2)) (by norm_num : (0 : ℝ) ≤ 0.0002061)
    have h5 := mul_le_mul_of_nonneg_left h3 (by norm_num : (0 : ℝ) ≤ 0.000005297)
    refine (add_le_add h4 h5).trans (le_of_eq ?_)
    ring
  rw [e]
  have h1 := abs_add_le (0.0334166 * 628.307585 * d * sin x - 0.0334166 * (cos (x + 628.307585 * d) - cos x + 628.307585 * d * sin x))
    (0.0002061 * (z * (cos y - cos (y + 628.307585 * d)) - d * cos (y + 628.307585 * d)) - 0.000005297 * (2 * z + d) * d)
  have h2 := abs_sub (0.0334166 * 628.307585 * d * sin x) (0.0334166 * (cos (x + 628.307585 * d) - cos x + 628.307585 * d * sin x))
  linarith

/-! ## Second correction -/

/-- what `S_aLon_t2` compares with the given longitude -/
noncomputable def gS (t : ℝ) : ℝ := eR 8 t + π - (20.5 + 17.2 * sin (2.1824 - 33.75705 * t)) / radSec

theorem gS_sR {R : ℝ} (hR : 0 ≤ R) (h30 : R ≤ 30) : Bd R (fun t => gS t - sR (-1) t)
    ((R / 10) ^ 0 * 0.0001467559 + (R / 10) ^ 1 * 0.0000091781 + (R / 10) ^ 2 * 0.000001184
      + (R / 10) ^ 3 * 0.0000002282 + (R / 10) ^ 4 * 0.0000000891 + (R / 10) ^ 5 * 0.0000000025
      + (0.00062 * R ^ 2 + 0.01742 * R + 2.1145 + 20.49552 * (0.016708634 + 0.000042037 * R + 0.0000001267 * R ^ 2)) / 206264) := by
  have tr := eR_truncR hR 8 1467559000000000 91781000000000 11840000000000 2282000000000 891000000000 25000000000
    (by decide +kernel) (by decide +kernel) (by decide +kernel) (by decide +kernel) (by decide +kernel) (by decide +kernel)
  intro t ht
  have ht30 := ht.trans h30
  have h := tr t ht
  clear tr
  have hr := radSec_gt
  have r0 : 0 < radSec := by linarith
  obtain ⟨α, hα⟩ : ∃ α, α = 2.1824 - 33.75705 * t := ⟨_, rfl⟩
  obtain ⟨S, hS⟩ : ∃ S, S = -1.32 * sq 3.5069 1256.66393 0.000011 t + -0.23 * sq 1.3375 16799.4182 (-0.000051) t
    + 0.21 * sq 4.3649 (-67.5141) 0.000072 t + -0.14 * sq 0.04 (-628.302) 0 t + 0.07 * sq 2.36 8328.691 0 t + -0.05 * sq 3.46 1884.966 0 t
    + -0.04 * sq 5.44 16833.175 0 t + -0.03 * sq 3.69 25128.11 0 t + 0.02 * sq 3.55 628.362 0 t := ⟨_, rfl⟩
  have hSb : |S| ≤ 2.11 := by
    have q1 := sq_bd 3.5069 1256.66393 0.000011 t ht30
    have q2 := sq_bd 1.3375 16799.4182 (-0.000051) t ht30
    have q3 := sq_bd 4.3649 (-67.5141) 0.000072 t ht30
    have q4 := sq_bd 0.04 (-628.302) 0 t ht30
    have q5 := sq_bd 2.36 8328.691 0 t ht30
    have q6 := sq_bd 3.46 1884.966 0 t ht30
    have q7 := sq_bd 5.44 16833.175 0 t ht30
    have q8 := sq_bd 3.69 25128.11 0 t ht30
    have q9 := sq_bd 3.55 628.362 0 t ht30
    rw [hS]
    simp only [abs_le] at q1 q2 q3 q4 q5 q6 q7 q8 q9 ⊢
    clear hS hα h
    constructor
    · norm_num; linarith
    · norm_num; linarith
  obtain ⟨c, hc⟩ : ∃ c, c = cos (-0.043126 + 628.301955 * t - 0.000002732 * t * t) := ⟨_, rfl⟩
  have hcb : |c| ≤ 1 := by rw [hc]; exact abs_cos_le_one _
  obtain ⟨ec, hec⟩ : ∃ ec, ec = 0.016708634 - 0.000042037 * t - 0.0000001267 * t * t := ⟨_, rfl⟩
  have hecb : |ec| ≤ 0.016708634 + 0.000042037 * R + 0.0000001267 * R ^ 2 := by
    have h2 : |t * t| ≤ R ^ 2 := by rw [← pow_two]; exact Bd.pow hR 2 t ht
    have ht' := abs_le.1 ht
    have h2' := abs_le.1 h2
    rw [hec, mul_assoc (0.0000001267 : ℝ), abs_le]
    constructor <;> norm_num <;> linarith
  have hsin : |sin (α + 0.000036 * (t * t)) - sin α| ≤ 0.000036 * R ^ 2 := by
    refine (abs_sin_sub_sin _ _).trans ?_
    rw [show α + 0.000036 * (t * t) - α = 0.000036 * (t * t) by ring, abs_mul, abs_of_pos (by norm_num), ← pow_two]
    exact mul_le_mul_of_nonneg_left (Bd.pow hR 2 t ht) (by norm_num)
  have hsb := abs_sin_le_one (α + 0.000036 * (t * t))
  have e : gS t - sR (-1) t = (eR 8 t - eR (-1) t) + (17.2 * (sin (α + 0.000036 * (t * t)) - sin α) + 0.01742 * (t * sin (α + 0.000036 * (t * t))) - S
      - 0.00448 + 20.49552 * (ec * c)) / radSec := by
    unfold gS sR nutR gxcSunLon
    simp only
    rw [← hc, ← hec, hS, show sq 2.1824 (-33.75705) 0.000036 t = sin (α + 0.000036 * (t * t)) by rw [hα]; unfold sq; ring_nf, ← hα]
    field_simp
    ring
  show |gS t - sR (-1) t| ≤ _
  rw [e]
  have h1 : |17.2 * (sin (α + 0.000036 * (t * t)) - sin α)| ≤ 0.00062 * R ^ 2 := by
    rw [abs_mul, abs_of_pos (by norm_num)]
    have := mul_le_mul_of_nonneg_left hsin (by norm_num : (0 : ℝ) ≤ 17.2)
    have h3 : 0 ≤ R ^ 2 := by positivity
    refine this.trans ?_
    rw [← mul_assoc]
    exact mul_le_mul_of_nonneg_right (by norm_num) h3
  have h2 : |0.01742 * (t * sin (α + 0.000036 * (t * t)))| ≤ 0.01742 * R := by
    rw [abs_mul, abs_of_pos (by norm_num), abs_mul]
    refine mul_le_mul_of_nonneg_left ?_ (by norm_num)
    have := mul_le_mul ht hsb (abs_nonneg _) hR
    linarith
  have h3 : |20.49552 * (ec * c)| ≤ 20.49552 * (0.016708634 + 0.000042037 * R + 0.0000001267 * R ^ 2) := by
    rw [abs_mul, abs_of_pos (by norm_num), abs_mul]
    refine mul_le_mul_of_nonneg_left ?_ (by norm_num)
    have := mul_le_mul hecb hcb (abs_nonneg _) ((abs_nonneg _).trans hecb)
    linarith
  have tri : ∀ a b c d x : ℝ, |a + b - c - d + x| ≤ |a| + |b| + |c| + |d| + |x| := fun a b c d x => by
    have h2 := abs_add_le (a + b - c - d) x
    have h3 := abs_sub (a + b - c) d
    have h4 := abs_sub (a + b) c
    have h5 := abs_add_le a b
    linarith
  have h6 : |17.2 * (sin (α + 0.000036 * (t * t)) - sin α) + 0.01742 * (t * sin (α + 0.000036 * (t * t))) - S - 0.00448 + 20.49552 * (ec * c)|
      ≤ 0.00062 * R ^ 2 + 0.01742 * R + 2.1145 + 20.49552 * (0.016708634 + 0.000042037 * R + 0.0000001267 * R ^ 2) := by
    refine (tri _ _ _ _ _).trans ?_
    rw [abs_of_pos (by norm_num : (0 : ℝ) < 0.00448)]
    clear h e hS hα hc hec tri hsin hsb hecb hcb
    have h8 : (2.11 : ℝ) + 0.00448 ≤ 2.1145 := by norm_num
    linarith
  refine (abs_add_le _ _).trans (add_le_add (h.trans (le_of_eq ?_)) ?_)
  · push_cast
    ring
  · rw [abs_div, abs_of_pos r0]
    refine div_le_div₀ ?_ h6 (by norm_num) hr.le
    exact (abs_nonneg _).trans h6

theorem sR_approx {R : ℝ} (hR : 0 ≤ R) (h30 : R ≤ 30) : Bd R (fun t => sR (-1) t - (1.75347 + π + 628.3319653318 * t) - pS t)
    (0.0006463931 + (R / 10) * 0.0000587474 + (R / 10) ^ 2 * 0.0000917471 + (R / 10) ^ 3 * 0.0000034701 + (R / 10) ^ 4 * 0.0000012299 + (R / 10) ^ 5 * 0.0000000113
      + (0.0728 + 2.7702 * (R / 10) + 1.1019 * (R / 10) ^ 2 + 0.0996 * (R / 10) ^ 3) / 206264
      + 0.0000005 + R * 0.00000147 + R ^ 2 * 0.000000006 + 0.000097 + 0.000102) := by
  refine (((eR_approx hR h30).add (nutR_bd.restrict h30)).add (gxc_bd.restrict h30)).congr (fun t => ?_)
  unfold sR
  ring

theorem sR_const {R : ℝ} (hR : 0 ≤ R) (h30 : R ≤ 30) : Near R (sR (-1)) (fun _ => 628.3319653318) (0.772 + (21.4401 + 0.129 * R + 0.00055 * R ^ 2)) 16500 := by
  refine (sR_near_all.restrict h30).speed (fun t ht => ?_)
  unfold eV
  simp only
  have e1 := abs_sin_le_one (1.527 + 628.307585 * t)
  have e2 := abs_sin_le_one (1.48 + 628.307585 * t * 2)
  have e3 : |sin (5.82 + 628.307585 * t) * t| ≤ R := by
    rw [abs_mul]; have := mul_le_mul (abs_sin_le_one (5.82 + 628.307585 * t)) ht (abs_nonneg _) (by norm_num); linarith
  have e4 : |sin (4.21 + 628.307585 * t) * t * t| ≤ R ^ 2 := by
    have h2 : |t * t| ≤ R ^ 2 := by rw [← pow_two]; exact Bd.pow hR 2 t ht
    rw [mul_assoc, abs_mul]; have := mul_le_mul (abs_sin_le_one (4.21 + 628.307585 * t)) h2 (abs_nonneg _) (by norm_num); linarith
  rw [mul_assoc (0.129 : ℝ), mul_assoc (0.00055 * sin (4.21 + 628.307585 * t)), mul_assoc (0.00055 : ℝ), ← mul_assoc (sin (4.21 + 628.307585 * t))]
  rw [abs_le] at *
  norm_num at *
  constructor <;> linarith

theorem sALonT2_core (b : Tab) (hb : Builtin b) {R ρ D e1 T e2 z : ℝ} (hR : 0 ≤ R) (h30 : R ≤ 30) (hz : |z| + 0.001 ≤ R)
    (hρ : Bd R (fun t => sR (-1) t - (1.75347 + π + 628.3319653318 * t) - pS t) ρ) (hT : Bd R (fun t => gS t - sR (-1) t) T)
    (h0 : 0.000005297 * R ^ 2 + 0.0334166 + 0.0002061 * R + ρ ≤ D * 628.3319653318) (hD : D ≤ 0.001)
    (h1 : ρ + (0.00055834 + 0.0334154 * (0.000005297 * R ^ 2 + 0.0002061 * R + ρ) + 6596 * D ^ 2
      + (0.0002061 * (628.307585 * R + 1) + 0.000010594 * R) * D) ≤ e1 * 628.3319653318) (he1 : e1 ≤ 0.001)
    (h2 : (0.772 + (21.4401 + 0.129 * R + 0.00055 * R ^ 2)) * e1 + 16500 * e1 ^ 2 + T ≤ e2 * 628.3319653318) :
    ∃ r, sALonT2 b (sR (-1) z) = some r ∧ |r - z| ≤ e2 := by
  obtain ⟨W, hW⟩ : ∃ W, W = sR (-1) z := ⟨_, rfl⟩
  rw [← hW]
  have hzR : |z| ≤ R := by norm_num at hz ⊢; linarith
  have close : ∀ {t e : ℝ}, |t - z| ≤ e → e ≤ 0.001 → |t| ≤ R := by
    intro t e h he
    have h5 := abs_add_le (t - z) z
    rw [sub_add_cancel] at h5
    norm_num at hz he
    linarith
  obtain ⟨t0, ht0⟩ : ∃ t0, t0 = (W - 1.75347 - π) / 628.3319653318 := ⟨_, rfl⟩
  obtain ⟨r, hr⟩ : ∃ r, r = sR (-1) z - (1.75347 + π + 628.3319653318 * z) - pS z := ⟨_, rfl⟩
  have hrb : |r| ≤ ρ := by rw [hr]; exact hρ z hzR
  obtain ⟨d, hd⟩ : ∃ d, d = t0 - z := ⟨_, rfl⟩
  have hdv : 628.3319653318 * d = pS z + r := by
    rw [hd, ht0, hr, hW]
    ring
  have hdD : |d| ≤ D := by
    have : |628.3319653318 * d| ≤ D * 628.3319653318 := by
      rw [hdv]
      exact ((abs_add_le _ _).trans (add_le_add (pS_bd hR z hzR) hrb)).trans h0
    rw [abs_mul, abs_of_pos (by norm_num), mul_comm] at this
    exact le_of_mul_le_mul_right this (by norm_num)
  have t0R : |t0| ≤ R := close (by rw [← hd]; exact hdD) hD
  have st := pS_step hR hzR (by rw [hd]; ring_nf; exact t0R) hdv hrb hdD
  obtain ⟨t1, ht1⟩ : ∃ t1, t1 = t0 - pS t0 / 628.3319653318 := ⟨_, rfl⟩
  have E1 : |t1 - z| ≤ e1 := by
    have e : t1 - z = (r + (pS z - pS (z + d))) / 628.3319653318 := by
      rw [ht1, show z + d = t0 by rw [hd]; ring, eq_div_iff (by norm_num)]
      have : 628.3319653318 * (t0 - z) = pS z + r := by rw [← hd]; exact hdv
      rw [sub_sub, add_comm (pS t0 / 628.3319653318) z, ← sub_sub, sub_mul, div_mul_cancel₀ _ (by norm_num)]
      linarith
    rw [e, abs_div, abs_of_pos (by norm_num : (0 : ℝ) < 628.3319653318), div_le_iff₀ (by norm_num)]
    exact ((abs_add_le _ _).trans (add_le_add hrb st)).trans h1
  have t1R := close E1 he1
  have E2 := newton_step (g := gS) (V := 628.3319653318) (sR_const hR h30) (by positivity) (by norm_num) t1R hzR (by norm_num) le_rfl (hT t1 t1R) E1
  rw [← hW] at E2
  refine ⟨_, ?_, E2.trans (by rw [div_le_iff₀ (by norm_num)]; exact h2)⟩
  unfold sALonT2
  simp only [← ht0]
  show ((eLon b (t0 - pS t0 / 628.3319653318) 8).bind _) = _
  rw [← ht1, eLon_eR b hb t1 8 (by norm_num)]
  show some (t0 - pS t0 / 628.3319653318 + (W - eR 8 t1 - π + (20.5 + 17.2 * sin (2.1824 - 33.75705 * (t0 - pS t0 / 628.3319653318))) / radSec) / 628.3319653318) = _
  rw [← ht1]
  congr 2
  unfold gS
  ring

end Verif.Longitude
