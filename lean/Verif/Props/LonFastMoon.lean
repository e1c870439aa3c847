import Verif.Props.LonFastSun
import Verif.Props.LonMoonSolve
import Verif.HighTime

/-!
# The quick estimate of a phase of the moon (used by C77)
-/

namespace Verif.Longitude

open Real Verif.Series Verif.EphTab

/-! ## The approximation of the first correction -/

noncomputable def aX (t : ℝ) : ℝ := 0.784758 + 8328.6914246 * t + 0.000152292 * (t * t)
noncomputable def aY (t : ℝ) : ℝ := 0.18740 + 7214.0628654 * t - 0.00021848 * (t * t)
noncomputable def aU (t : ℝ) : ℝ := 4.669257 + 628.307585 * t

noncomputable def pM (t : ℝ) : ℝ := -0.00003309 * (t * t) + 0.10976 * cos (aX t) + 0.02224 * cos (aY t) - 0.03342 * cos (aU t)

theorem mT_head2 : (mT 0).take 2 = [(22639586000000, 784758220, 8328691424623, 1522924100, 25071900000, -123598000), (4586438000000, 187397400, 7214062865360, -2184756000, -18860000000, 82800000)] := by
  decide +kernel

theorem ord0_split2 (t : ℝ) : ordM 0 (mT 0) t = dec 22639586000000 * cos (ph (dec 784758220) (dec 8328691424623) (dec 1522924100) (dec 25071900000) (dec (-123598000)) t)
    + dec 4586438000000 * cos (ph (dec 187397400) (dec 7214062865360) (dec (-2184756000)) (dec (-18860000000)) (dec 82800000) t)
    + ordM 0 ((mT 0).drop 2) t := by
  have e : ordM 0 (mT 0) t = ordM 0 ((mT 0).take 2) t + ordM 0 ((mT 0).drop 2) t := by rw [← ordM_append, List.take_append_drop]
  rw [e, mT_head2]
  simp only [ordM, ser6_cons, ser6_nil, pow_zero]
  ring

theorem poly4_bd {R t a b c d e : ℝ} (hR : 0 ≤ R) (ht : |t| ≤ R) : |a + b * t + c * t ^ 2 + d * t ^ 3 + e * t ^ 4| ≤ |a| + |b| * R + |c| * R ^ 2 + |d| * R ^ 3 + |e| * R ^ 4 := by
  have q : ∀ (k : ℝ) (n : ℕ), |k * t ^ n| ≤ |k| * R ^ n := fun k n => by
    rw [abs_mul]; exact mul_le_mul_of_nonneg_left (Bd.pow hR n t ht) (abs_nonneg _)
  have h1 := q b 1
  rw [pow_one, pow_one] at h1
  have h2 := q c 2
  have h3 := q d 3
  have h4 := q e 4
  have g1 := abs_add_le (a + b * t + c * t ^ 2 + d * t ^ 3) (e * t ^ 4)
  have g2 := abs_add_le (a + b * t + c * t ^ 2) (d * t ^ 3)
  have g3 := abs_add_le (a + b * t) (c * t ^ 2)
  have g4 := abs_add_le a (b * t)
  linarith

/-- the moon's longitude, up to small terms -/
theorem mS_approx : Bd 4.01 (fun t => mS (-1) t - (3.81034409 + 8399.709110372 * t) + 0.0000277967 * t ^ 2 - 0.10976 * cos (aX t) - 0.02224 * cos (aY t)) 0.028952 := by
  have hR : (0 : ℝ) ≤ 4.01 := by norm_num
  obtain ⟨-, a1, a2, a3⟩ := mT_amp
  have a0 : amp6 ((mT 0).drop 2) ≤ 5952656000000 := by decide +kernel
  have u0 := restM_bd hR 0 _ _ a0
  have u1 := restM_bd hR 1 (mT 1) _ a1
  have u2 := restM_bd hR 2 (mT 2) _ a2
  have u3 := restM_bd hR 3 (mT 3) _ a3
  have uu := ((((polyM_bd hR).add u0).add u1).add u2).add u3
  intro t ht
  have h := uu t ht
  clear uu u0 u1 u2 u3
  obtain ⟨x, hx⟩ : ∃ x, x = ph (dec 784758220) (dec 8328691424623) (dec 1522924100) (dec 25071900000) (dec (-123598000)) t := ⟨_, rfl⟩
  obtain ⟨y, hy⟩ : ∃ y, y = ph (dec 187397400) (dec 7214062865360) (dec (-2184756000)) (dec (-18860000000)) (dec 82800000) t := ⟨_, rfl⟩
  have dx : |x - aX t| ≤ 0.0000169 := by
    have e : x - aX t = 0.00000022 + 0.000000023 * t + 0.00000000041 * t ^ 2 + 0.000000250719 * t ^ 3 + -0.00000000123598 * t ^ 4 := by
      rw [hx]; unfold ph aX dec; push_cast; ring
    rw [e]
    refine (poly4_bd hR ht).trans ?_
    norm_num [abs_of_pos, abs_of_neg]
  have dy : |y - aY t| ≤ 0.0000155 := by
    have e : y - aY t = -0.0000026 + -0.00000004 * t + 0.0000000044 * t ^ 2 + -0.0000001886 * t ^ 3 + 0.000000000828 * t ^ 4 := by
      rw [hy]; unfold ph aY dec; push_cast; ring
    rw [e]
    refine (poly4_bd hR ht).trans ?_
    norm_num [abs_of_pos, abs_of_neg]
  have k0 := div_radSec (A := dec 22639586000000) (lo := 0.10975975) (hi := 0.1097599) (by norm_num) (by norm_num [dec]) (by norm_num [dec])
  have k1 := div_radSec (A := dec 4586438000000) (lo := 0.02223565) (hi := 0.0222357) (by norm_num) (by norm_num [dec]) (by norm_num [dec])
  have c0 : |dec 22639586000000 / radSec * cos x - 0.10976 * cos (aX t)| ≤ 0.00000026 + 0.10976 * 0.0000169 := by
    refine amp_cos ?_ (by norm_num) dx
    rw [abs_le]; norm_num at k0 ⊢; constructor <;> linarith [k0.1, k0.2]
  have c1 : |dec 4586438000000 / radSec * cos y - 0.02224 * cos (aY t)| ≤ 0.0000044 + 0.02224 * 0.0000155 := by
    refine amp_cos ?_ (by norm_num) dy
    rw [abs_le]; norm_num at k1 ⊢; constructor <;> linarith [k1.1, k1.2]
  have e : mS (-1) t - (3.81034409 + 8399.709110372 * t) + 0.0000277967 * t ^ 2 - 0.10976 * cos (aX t) - 0.02224 * cos (aY t)
      = (polyM t + ordM 0 ((mT 0).drop 2) t / radSec + ordM 1 (mT 1) t / radSec + ordM 2 (mT 2) t / radSec + ordM 3 (mT 3) t / radSec)
      + ((dec 22639586000000 / radSec * cos x - 0.10976 * cos (aX t)) + (dec 4586438000000 / radSec * cos y - 0.02224 * cos (aY t))) := by
    rw [mS_all, add_div, meanS_eq, ord0_split2, ← hx, ← hy]
    ring
  show |mS (-1) t - (3.81034409 + 8399.709110372 * t) + 0.0000277967 * t ^ 2 - 0.10976 * cos (aX t) - 0.02224 * cos (aY t)| ≤ _
  rw [e]
  have g1 := abs_add_le (polyM t + ordM 0 ((mT 0).drop 2) t / radSec + ordM 1 (mT 1) t / radSec + ordM 2 (mT 2) t / radSec + ordM 3 (mT 3) t / radSec)
    ((dec 22639586000000 / radSec * cos x - 0.10976 * cos (aX t)) + (dec 4586438000000 / radSec * cos y - 0.02224 * cos (aY t)))
  have g2 := abs_add_le (dec 22639586000000 / radSec * cos x - 0.10976 * cos (aX t)) (dec 4586438000000 / radSec * cos y - 0.02224 * cos (aY t))
  simp only at h
  push_cast at h
  have h' := h.trans (b := _) (c := 0.0289448) (by norm_num)
  clear h e a0 a1 a2 a3 hx hy dx dy k0 k1 ht
  norm_num at g1 g2 c0 c1 h' ⊢
  linarith

/-- the lead of the moon, up to small terms -/
theorem fS_approx : Bd 4.01 (fun t => fS (-1) (-1) t - (-1.08472 + 7771.37714500204 * t) - pM t) 0.0306 := by
  have hR : (0 : ℝ) ≤ 4.01 := by norm_num
  have p1 := pi_gt_d6
  have p2 := pi_lt_d6
  intro t ht
  have a := mS_approx t ht
  have b := (eR_approx hR (by norm_num)).mono (L := 0.0006982) (by norm_num) t ht
  have c := gxc_bd t (ht.trans (by norm_num))
  simp only at a b c
  have d : |0.0000034 * cos (aU t) + (-0.0002061) * (cos (2.67823 + 628.307585 * t) * t)| ≤ 0.0000034 + 0.0002061 * 4.01 := by
    refine (abs_add_le _ _).trans (add_le_add ?_ ?_)
    · rw [abs_mul, abs_of_pos (by norm_num)]; exact mul_le_of_le_one_right (by norm_num) (abs_cos_le_one _)
    · rw [abs_mul, abs_of_neg (by norm_num), abs_mul, neg_neg]
      refine mul_le_mul_of_nonneg_left ?_ (by norm_num)
      have := mul_le_mul (abs_cos_le_one (2.67823 + 628.307585 * t)) ht (abs_nonneg _) (by norm_num)
      linarith
  have f : |(3.81034409 - 3.4E-6 - 1.75347 - π + 1.08472) + (8399.709110372 - 628.3319653318 - 7771.37714500204) * t + (0.00003309 - 0.0000277967 - 0.000005297) * t ^ 2| ≤ 0.00001 := by
    have h1 : |(8399.709110372 - 628.3319653318 - 7771.37714500204) * t| ≤ 0.00000004 * 4.01 := by
      rw [abs_mul]
      refine mul_le_mul ?_ ht (abs_nonneg _) (by norm_num)
      rw [abs_le]; norm_num
    have h2 : |(0.00003309 - 0.0000277967 - 0.000005297) * t ^ 2| ≤ 0.000000004 * 4.01 ^ 2 := by
      rw [abs_mul]
      refine mul_le_mul ?_ (Bd.pow hR 2 t ht) (abs_nonneg _) (by norm_num)
      rw [abs_le]; norm_num
    have h3 : |3.81034409 - 3.4E-6 - 1.75347 - π + 1.08472| ≤ 0.000005 := by
      rw [abs_le]; norm_num at p1 p2 ⊢; constructor <;> linarith
    refine (abs_add_three _ _ _).trans ?_
    norm_num at h1 h2 h3 ⊢
    linarith
  have e : fS (-1) (-1) t - (-1.08472 + 7771.37714500204 * t) - pM t
      = (mS (-1) t - (3.81034409 + 8399.709110372 * t) + 0.0000277967 * t ^ 2 - 0.10976 * cos (aX t) - 0.02224 * cos (aY t))
      - (eR (-1) t - (1.75347 + 628.3319653318 * t) - pS t) - gxcSunLon t
      + (0.0000034 * cos (aU t) + (-0.0002061) * (cos (2.67823 + 628.307585 * t) * t))
      + ((3.81034409 - 3.4E-6 - 1.75347 - π + 1.08472) + (8399.709110372 - 628.3319653318 - 7771.37714500204) * t + (0.00003309 - 0.0000277967 - 0.000005297) * t ^ 2) := by
    unfold fS gxcMoonLon pM pS aU; ring
  show |fS (-1) (-1) t - (-1.08472 + 7771.37714500204 * t) - pM t| ≤ _
  rw [e]
  have tri : ∀ a b c d x : ℝ, |a - b - c + d + x| ≤ |a| + |b| + |c| + |d| + |x| := fun a b c d x => by
    have h2 := abs_add_le (a - b - c + d) x
    have h3 := abs_add_le (a - b - c) d
    have h4 := abs_sub (a - b) c
    have h5 := abs_sub a b
    linarith
  refine (tri _ _ _ _ _).trans ?_
  clear e tri
  norm_num at a b c d f ⊢
  linarith

/-! ## First correction -/

theorem cross_bd {a q b p s c s' c' : ℝ} {m : ℝ} (h1 : |a * q| ≤ m) (h2 : |b * p| ≤ m) (hs : s ^ 2 + c ^ 2 = 1) (hs' : s' ^ 2 + c' ^ 2 = 1) :
    |a * q * (c * s') + b * p * (c' * s)| ≤ m := by
  have hm : 0 ≤ m := (abs_nonneg _).trans h1
  have k : |c * s'| + |c' * s| ≤ 1 := by
    have e1 := abs_mul_abs_self c
    have e2 := abs_mul_abs_self s
    have e3 := abs_mul_abs_self c'
    have e4 := abs_mul_abs_self s'
    rw [abs_mul, abs_mul]
    nlinarith [sq_nonneg (|c| - |s'|), sq_nonneg (|c'| - |s|)]
  refine (abs_add_le _ _).trans ?_
  rw [abs_mul, abs_mul (b * p)]
  have g1 := mul_le_mul_of_nonneg_right h1 (abs_nonneg (c * s'))
  have g2 := mul_le_mul_of_nonneg_right h2 (abs_nonneg (c' * s))
  have g3 := mul_le_mul_of_nonneg_left k hm
  linarith

theorem prod_bd (x y u : ℝ) : |(0.10976 * cos x + 0.02224 * cos y - 0.03342 * cos u) * (0.10976 * 8328.6914246 * sin x + 0.02224 * 7214.0628654 * sin y
    - 0.03342 * 628.307585 * sin u)| ≤ 108.56 := by
  have half : ∀ z : ℝ, |cos z * sin z| ≤ 1 / 2 := fun z => by
    have h1 := sin_two_mul z
    have h2 := abs_sin_le_one (2 * z)
    rw [h1, mul_assoc, abs_mul, abs_of_pos (by norm_num : (0 : ℝ) < 2), mul_comm (sin z)] at h2
    linarith
  have d1 : |0.10976 * (0.10976 * 8328.6914246) * (cos x * sin x)| ≤ 50.1693 := by
    rw [abs_mul, abs_of_pos (by norm_num)]
    refine (mul_le_mul_of_nonneg_left (half x) (by norm_num)).trans (by norm_num)
  have d2 : |0.02224 * (0.02224 * 7214.0628654) * (cos y * sin y)| ≤ 1.7842 := by
    rw [abs_mul, abs_of_pos (by norm_num)]
    refine (mul_le_mul_of_nonneg_left (half y) (by norm_num)).trans (by norm_num)
  have d3 : |0.03342 * (0.03342 * 628.307585) * (cos u * sin u)| ≤ 0.35089 := by
    rw [abs_mul, abs_of_pos (by norm_num)]
    refine (mul_le_mul_of_nonneg_left (half u) (by norm_num)).trans (by norm_num)
  have c1 := cross_bd (a := 0.10976) (q := 0.02224 * 7214.0628654) (b := 0.02224) (p := 0.10976 * 8328.6914246) (m := 20.3309) (by norm_num [abs_of_pos]) (by norm_num [abs_of_pos])
    (sin_sq_add_cos_sq x) (sin_sq_add_cos_sq y)
  have c2 := cross_bd (a := 0.10976) (q := -(0.03342 * 628.307585)) (b := -0.03342) (p := 0.10976 * 8328.6914246) (m := 30.5512) (by norm_num [abs_of_pos, abs_of_neg]) (by norm_num [abs_of_pos, abs_of_neg])
    (sin_sq_add_cos_sq x) (sin_sq_add_cos_sq u)
  have c3 := cross_bd (a := 0.02224) (q := -(0.03342 * 628.307585)) (b := -0.03342) (p := 0.02224 * 7214.0628654) (m := 5.362) (by norm_num [abs_of_pos, abs_of_neg]) (by norm_num [abs_of_pos, abs_of_neg])
    (sin_sq_add_cos_sq y) (sin_sq_add_cos_sq u)
  have e : (0.10976 * cos x + 0.02224 * cos y - 0.03342 * cos u) * (0.10976 * 8328.6914246 * sin x + 0.02224 * 7214.0628654 * sin y
      - 0.03342 * 628.307585 * sin u) = 0.10976 * (0.10976 * 8328.6914246) * (cos x * sin x) + 0.02224 * (0.02224 * 7214.0628654) * (cos y * sin y)
      + 0.03342 * (0.03342 * 628.307585) * (cos u * sin u)
      + (0.10976 * (0.02224 * 7214.0628654) * (cos x * sin y) + 0.02224 * (0.10976 * 8328.6914246) * (cos y * sin x))
      + (0.10976 * -(0.03342 * 628.307585) * (cos x * sin u) + -0.03342 * (0.10976 * 8328.6914246) * (cos u * sin x))
      + (0.02224 * -(0.03342 * 628.307585) * (cos y * sin u) + -0.03342 * (0.02224 * 7214.0628654) * (cos u * sin y)) := by ring
  rw [e]
  have tri : ∀ a b c d x y : ℝ, |a + b + c + d + x + y| ≤ |a| + |b| + |c| + |d| + |x| + |y| := fun a b c d x y => by
    have h1 := abs_add_le (a + b + c + d + x) y
    have h2 := abs_add_le (a + b + c + d) x
    have h3 := abs_add_le (a + b + c) d
    have h4 := abs_add_le (a + b) c
    have h5 := abs_add_le a b
    linarith
  refine (tri _ _ _ _ _ _).trans ?_
  refine (add_le_add (add_le_add (add_le_add (add_le_add (add_le_add d1 d2) d3) c1) c2) c3).trans ?_
  norm_num

/-- a cosine term over a step -/
theorem cos_step {A θ h w k : ℝ} (hA : 0 ≤ A) (d : ℝ) (hh : |h - w * d| ≤ k * |d|) (hw : 0 ≤ w) (hk : 0 ≤ k) :
    |A * cos θ - A * cos (θ + h) - A * w * sin θ * d| ≤ A * k * |d| + A * (w + k) ^ 2 / 2 * d ^ 2 := by
  have h1 := cos_second θ h
  have h2 : |h| ≤ (w + k) * |d| := by
    have := abs_add_le (h - w * d) (w * d)
    rw [sub_add_cancel, abs_mul, abs_of_nonneg hw] at this
    linarith
  have h3 : h ^ 2 ≤ (w + k) ^ 2 * d ^ 2 := by
    rw [← sq_abs h, ← sq_abs d, ← mul_pow]
    exact pow_le_pow_left₀ (abs_nonneg _) h2 2
  have e : A * cos θ - A * cos (θ + h) - A * w * sin θ * d = A * ((h - w * d) * sin θ) - A * (cos (θ + h) - cos θ + h * sin θ) := by ring
  rw [e]
  refine (abs_sub _ _).trans (add_le_add ?_ ?_)
  · rw [abs_mul, abs_of_nonneg hA, mul_assoc]
    refine mul_le_mul_of_nonneg_left ?_ hA
    rw [abs_mul]
    have := mul_le_mul hh (abs_sin_le_one θ) (abs_nonneg _) (by positivity)
    linarith
  · rw [abs_mul, abs_of_nonneg hA, mul_div_assoc, mul_assoc]
    refine mul_le_mul_of_nonneg_left (h1.trans ?_) hA
    rw [div_mul_eq_mul_div]
    exact div_le_div_of_nonneg_right h3 (by norm_num)

theorem pM_step {ρ D z d r : ℝ} (hz : |z| ≤ 4.01) (hzd : |z + d| ≤ 4.01) (hd : 7771.37714500204 * d = pM z + r) (hr : |r| ≤ ρ) (hD : |d| ≤ D) :
    |pM z - pM (z + d)| ≤ (108.56 + 1095.6 * (0.00003309 * 4.01 ^ 2 + ρ)) / 7771.37714500204 + 0.00045 * D + 4393000 * D ^ 2 := by
  have hD0 : 0 ≤ D := (abs_nonneg _).trans hD
  have h2zd : |2 * z + d| ≤ 8.02 := by
    have := abs_add_le z (z + d)
    rw [show z + (z + d) = 2 * z + d by ring] at this
    norm_num at hz hzd ⊢
    linarith
  have hq : ∀ k : ℝ, |k * ((2 * z + d) * d)| ≤ |k| * 8.02 * |d| := fun k => by
    rw [abs_mul, abs_mul, mul_assoc]
    exact mul_le_mul_of_nonneg_left (mul_le_mul_of_nonneg_right h2zd (abs_nonneg _)) (abs_nonneg _)
  have sX := cos_step (A := 0.10976) (θ := aX z) (h := 8328.6914246 * d + 0.000152292 * ((2 * z + d) * d)) (w := 8328.6914246) (k := 0.0012214) (by norm_num) d
    (by rw [add_sub_cancel_left]; refine (hq _).trans (mul_le_mul_of_nonneg_right (by norm_num [abs_of_pos]) (abs_nonneg _))) (by norm_num) (by norm_num)
  have sY := cos_step (A := 0.02224) (θ := aY z) (h := 7214.0628654 * d + (-0.00021848) * ((2 * z + d) * d)) (w := 7214.0628654) (k := 0.0017523) (by norm_num) d
    (by rw [add_sub_cancel_left]; refine (hq _).trans (mul_le_mul_of_nonneg_right (by norm_num [abs_of_neg]) (abs_nonneg _))) (by norm_num) (by norm_num)
  have sU := cos_step (A := 0.03342) (θ := aU z) (h := 628.307585 * d) (w := 628.307585) (k := 0) (by norm_num) d
    (by rw [sub_self]; simp) (by norm_num) (by norm_num)
  rw [show aX z + (8328.6914246 * d + 0.000152292 * ((2 * z + d) * d)) = aX (z + d) by unfold aX; ring] at sX
  rw [show aY z + (7214.0628654 * d + (-0.00021848) * ((2 * z + d) * d)) = aY (z + d) by unfold aY; ring] at sY
  rw [show aU z + 628.307585 * d = aU (z + d) by unfold aU; ring] at sU
  obtain ⟨S, hS⟩ : ∃ S, S = 0.10976 * 8328.6914246 * sin (aX z) + 0.02224 * 7214.0628654 * sin (aY z) - 0.03342 * 628.307585 * sin (aU z) := ⟨_, rfl⟩
  obtain ⟨C, hC⟩ : ∃ C, C = 0.10976 * cos (aX z) + 0.02224 * cos (aY z) - 0.03342 * cos (aU z) := ⟨_, rfl⟩
  have hSC : |C * S| ≤ 108.56 := by rw [hC, hS]; exact prod_bd _ _ _
  have hSb : |S| ≤ 1095.6 := by
    have g1 := abs_sin_le_one (aX z)
    have g2 := abs_sin_le_one (aY z)
    have g3 := abs_sin_le_one (aU z)
    rw [hS]
    rw [abs_le] at g1 g2 g3 ⊢
    norm_num at g1 g2 g3 ⊢
    constructor <;> linarith
  have hs : |-0.00003309 * (z * z) + r| ≤ 0.00003309 * 4.01 ^ 2 + ρ := by
    refine (abs_add_le _ _).trans (add_le_add ?_ hr)
    rw [abs_mul, abs_of_neg (by norm_num), neg_neg, ← pow_two]
    exact mul_le_mul_of_nonneg_left (Bd.pow (by norm_num) 2 z hz) (by norm_num)
  have main : |S * d| ≤ (108.56 + 1095.6 * (0.00003309 * 4.01 ^ 2 + ρ)) / 7771.37714500204 := by
    have e : S * d = (C * S + S * (-0.00003309 * (z * z) + r)) / 7771.37714500204 := by
      rw [eq_div_iff (by norm_num), mul_assoc, mul_comm d, hd, hC]
      unfold pM; ring
    rw [e, abs_div, abs_of_pos (by norm_num : (0 : ℝ) < 7771.37714500204)]
    refine div_le_div_of_nonneg_right ?_ (by norm_num)
    refine (abs_add_le _ _).trans (add_le_add hSC ?_)
    rw [abs_mul]
    exact mul_le_mul hSb hs (abs_nonneg _) (by norm_num)
  have hp : |0.00003309 * ((2 * z + d) * d)| ≤ 0.000266 * |d| := by
    refine (hq _).trans (mul_le_mul_of_nonneg_right (by norm_num [abs_of_pos]) (abs_nonneg _))
  have e : pM z - pM (z + d) = S * d + 0.00003309 * ((2 * z + d) * d)
      + (0.10976 * cos (aX z) - 0.10976 * cos (aX (z + d)) - 0.10976 * 8328.6914246 * sin (aX z) * d)
      + (0.02224 * cos (aY z) - 0.02224 * cos (aY (z + d)) - 0.02224 * 7214.0628654 * sin (aY z) * d)
      - (0.03342 * cos (aU z) - 0.03342 * cos (aU (z + d)) - 0.03342 * 628.307585 * sin (aU z) * d) := by
    rw [hS]; unfold pM; ring
  rw [e]
  have tri : ∀ a b c d x : ℝ, |a + b + c + d - x| ≤ |a| + |b| + |c| + |d| + |x| := fun a b c d x => by
    have h2 := abs_sub (a + b + c + d) x
    have h3 := abs_add_le (a + b + c) d
    have h4 := abs_add_le (a + b) c
    have h5 := abs_add_le a b
    linarith
  refine (tri _ _ _ _ _).trans ?_
  have d2 : d ^ 2 ≤ D ^ 2 := by rw [← sq_abs]; exact pow_le_pow_left₀ (abs_nonneg _) hD 2
  have d0 : 0 ≤ d ^ 2 := by positivity
  have hX := sX.trans (b := _) (c := 0.000135 * |d| + 3806900 * d ^ 2)
    (add_le_add (mul_le_mul_of_nonneg_right (by norm_num) (abs_nonneg _)) (mul_le_mul_of_nonneg_right (by norm_num) d0))
  have hY := sY.trans (b := _) (c := 0.000039 * |d| + 578720 * d ^ 2)
    (add_le_add (mul_le_mul_of_nonneg_right (by norm_num) (abs_nonneg _)) (mul_le_mul_of_nonneg_right (by norm_num) d0))
  have hU := sU.trans (b := _) (c := 0 * |d| + 6600 * d ^ 2)
    (add_le_add (mul_le_mul_of_nonneg_right (by norm_num) (abs_nonneg _)) (mul_le_mul_of_nonneg_right (by norm_num) d0))
  clear e tri hS hC hSC hSb hs hq sX sY sU
  norm_num at main hp hX hY hU ⊢
  linarith

/-! ## Second correction -/

theorem eT_head03 : (eT 0).take 3 = [(17534704567000000000, 0, 0), (334165646000000000, 4669256804, 6283075849991), (3489428000000000, 4626102400, 12566151700000)] := by decide +kernel
theorem eT_rest3 : ampI ((eT 0).drop 3) ≤ 2974503000000000 := by decide +kernel

/-- the sun's part of the estimate -/
noncomputable def pS3 (t : ℝ) : ℝ := pS t + 0.000349 * cos (4.6261 + 1256.61517 * t)

theorem eR_approx3 {R : ℝ} (hR : 0 ≤ R) (h30 : R ≤ 30) : Bd R (fun t => eR (-1) t - (1.75347 + 628.3319653318 * t) - pS3 t)
    (0.0002974503 + (R / 10) * 0.0000587474 + (R / 10) ^ 2 * 0.0000917471 + (R / 10) ^ 3 * 0.0000034701 + (R / 10) ^ 4 * 0.0000012299 + (R / 10) ^ 5 * 0.0000000113
      + (0.0728 + 2.7702 * (R / 10) + 1.1019 * (R / 10) ^ 2 + 0.0996 * (R / 10) ^ 3) / 206264
      + 0.0000006 + R * 0.00000147 + R ^ 2 * 0.000000006) := by
  obtain ⟨u0, u1, u2, u3, u4, u5⟩ := useE_all
  obtain ⟨l0, l1, l2, l3, l4, l5⟩ := eT_length
  obtain ⟨-, a1, a2, a3, a4, a5⟩ := eT_rest
  have b := ((((((ordL_bdR hR 0 _ _ eT_rest3).add (ordL_bdR hR 1 _ _ a1)).add (ordL_bdR hR 2 _ _ a2)).add (ordL_bdR hR 3 _ _ a3)).add (ordL_bdR hR 4 _ _ a4)).add (ordL_bdR hR 5 _ _ a5)).add
    (corrE_bdR hR)
  intro t ht
  have hb := b t ht
  have c1 : |0.0334165646 * cos (4.669256804 + 628.3075849991 * t) - 0.0334166 * cos (4.669257 + 628.307585 * t)| ≤ 0.000000043 := by
    refine (amp_cos (d := 0.0000000354) (e := 0.000000224) (by norm_num [abs_le]) (by norm_num) ?_).trans (by norm_num)
    have h := ht.trans h30
    clear hb b
    rw [abs_le] at h ⊢
    constructor <;> norm_num at h ⊢ <;> linarith
  have c0 : |0.0003489428 * cos (4.6261024 + 1256.61517 * t) - 0.000349 * cos (4.6261 + 1256.61517 * t)| ≤ 0.000000059 := by
    refine (amp_cos (d := 0.0000000572) (e := 0.0000024) (by norm_num [abs_le]) (by norm_num) ?_).trans (by norm_num)
    rw [show 4.6261024 + 1256.61517 * t - (4.6261 + 1256.61517 * t) = 0.0000024 by ring, abs_of_pos (by norm_num)]
  have c2 : |0.00020605886 * cos (2.67823456 + 628.307584999 * t) - 0.0002061 * cos (2.67823 + 628.307585 * t)| ≤ 0.000000044 := by
    refine (amp_cos (d := 0.00000004114) (e := 0.0000046) (by norm_num [abs_le]) (by norm_num) ?_).trans (by norm_num)
    have h := ht.trans h30
    clear hb b
    rw [abs_le] at h ⊢
    constructor <;> norm_num at h ⊢ <;> linarith
  have c2' : |(0.00020605886 * cos (2.67823456 + 628.307584999 * t) - 0.0002061 * cos (2.67823 + 628.307585 * t)) * t| ≤ 0.000000044 * R := by
    rw [abs_mul]; exact mul_le_mul c2 ht (abs_nonneg _) (by norm_num)
  have c3 : |(5.291887E-6 - 0.000005297) * t ^ 2| ≤ 0.000000006 * R ^ 2 := by
    rw [abs_mul]
    refine mul_le_mul ?_ (Bd.pow hR 2 t ht) (abs_nonneg _) (by norm_num)
    rw [abs_of_neg (by norm_num)]; norm_num
  have c4 : |0.0000004567 + (628.33196674749 - 628.3319653318) * t| ≤ 0.0000004567 + 0.0000014157 * R := by
    refine (abs_add_le _ _).trans (add_le_add (le_of_eq (abs_of_pos (by norm_num))) ?_)
    rw [abs_mul]
    refine mul_le_mul ?_ ht (abs_nonneg _) (by norm_num)
    rw [abs_of_pos (by norm_num)]; norm_num
  have e0 : ordL 0 ((eT 0).take 3) t / 10 ^ 10 = 1.7534704567 + 0.0334165646 * cos (4.669256804 + 628.3075849991 * t) + 0.0003489428 * cos (4.6261024 + 1256.61517 * t) := by
    have e1 : dec 4669256804 + t / 10 * dec 6283075849991 = 4.669256804 + 628.3075849991 * t := by rw [dec, dec]; push_cast; ring
    have e2 : dec 4626102400 + t / 10 * dec 12566151700000 = 4.6261024 + 1256.61517 * t := by rw [dec, dec]; push_cast; ring
    have e0 : dec 0 + t / 10 * dec 0 = 0 := by simp [dec]
    rw [eT_head03, ordL, ser_cons, ser_cons, ser_cons, ser_nil, e1, e2, e0, cos_zero]
    simp only [dec]
    push_cast
    ring
  have e1 := head1 t
  have e2 : ordL 2 ((eT 2).take 1) t / 10 ^ 10 = 0.000005291887 * t ^ 2 := by
    have e0 : dec 0 + t / 10 * dec 0 = 0 := by simp [dec]
    rw [eT_head21, ordL, ser_cons, ser_nil, e0, cos_zero]
    simp only [dec]
    push_cast
    ring
  have key : ∀ i k, ordL i (eT i) t = ordL i ((eT i).take k) t + ordL i ((eT i).drop k) t := by
    intro i k
    have := ordL_append i ((eT i).take k) ((eT i).drop k) t
    rwa [List.take_append_drop] at this
  have e : eR (-1) t - (1.75347 + 628.3319653318 * t) - pS3 t = (ordL 0 ((eT 0).drop 3) t / 10 ^ 10 + ordL 1 ((eT 1).drop 2) t / 10 ^ 10 + ordL 2 ((eT 2).drop 1) t / 10 ^ 10
      + ordL 3 (eT 3) t / 10 ^ 10 + ordL 4 (eT 4) t / 10 ^ 10 + ordL 5 (eT 5) t / 10 ^ 10 + corrE t)
      + ((0.0334165646 * cos (4.669256804 + 628.3075849991 * t) - 0.0334166 * cos (4.669257 + 628.307585 * t))
        + (0.00020605886 * cos (2.67823456 + 628.307584999 * t) - 0.0002061 * cos (2.67823 + 628.307585 * t)) * t
        + (5.291887E-6 - 0.000005297) * t ^ 2 + (0.0000004567 + (628.33196674749 - 628.3319653318) * t))
      + (0.0003489428 * cos (4.6261024 + 1256.61517 * t) - 0.000349 * cos (4.6261 + 1256.61517 * t)) := by
    unfold eR pS3 pS
    rw [u0, u1, u2, u3, u4, u5, List.take_of_length_le l0.le, List.take_of_length_le l1.le, List.take_of_length_le l2.le,
      List.take_of_length_le l3.le, List.take_of_length_le l4.le, List.take_of_length_le l5.le]
    rw [key 0 3, key 1 2, key 2 1]
    rw [add_div, add_div, add_div, add_div, add_div, add_div, add_div, add_div, e0, e1, e2]
    ring
  show |eR (-1) t - (1.75347 + 628.3319653318 * t) - pS3 t| ≤ _
  rw [e]
  have tri : ∀ a b c d x y : ℝ, |a + (b + c + d + x) + y| ≤ |a| + |b| + |c| + |d| + |x| + |y| := fun a b c d x y => by
    have h1 := abs_add_le (a + (b + c + d + x)) y
    have h2 := abs_add_le a (b + c + d + x)
    have h3 := abs_add_le (b + c + d) x
    have h4 := abs_add_le (b + c) d
    have h5 := abs_add_le b c
    linarith
  refine (tri _ _ _ _ _ _).trans ?_
  push_cast at hb
  norm_num at *
  linarith

/-- what `MS_aLon_t2` compares with the given angle -/
noncomputable def gM (t : ℝ) : ℝ := mS 20 t - (4.8950632 + 628.3319653318 * t + pS3 t - 20.5 / radSec)

theorem gM_fS {R : ℝ} (hR : 0 ≤ R) (h30 : R ≤ 30) : Bd R (fun t => gM t - fS (-1) (-1) t)
    ((0.001487 + R * 0.00000265 + R ^ 2 * 0.0000000262 + R ^ 3 * 0.0000000001)
      + (0.0002974503 + (R / 10) * 0.0000587474 + (R / 10) ^ 2 * 0.0000917471 + (R / 10) ^ 3 * 0.0000034701 + (R / 10) ^ 4 * 0.0000012299 + (R / 10) ^ 5 * 0.0000000113
      + (0.0728 + 2.7702 * (R / 10) + 1.1019 * (R / 10) ^ 2 + 0.0996 * (R / 10) ^ 3) / 206264
      + 0.0000006 + R * 0.00000147 + R ^ 2 * 0.000000006) + 0.0000062) := by
  have p1 := pi_gt_d6
  have p2 := pi_lt_d6
  intro t ht
  have ht30 := ht.trans h30
  have a := mS_trunc20 hR t ht
  have b := eR_approx3 hR h30 t ht
  have r1 := radSec_gt'
  have r0 : 0 < radSec := by norm_num at r1; linarith
  obtain ⟨c, hc⟩ : ∃ c, c = cos (-0.043126 + 628.301955 * t - 0.000002732 * t * t) := ⟨_, rfl⟩
  have hcb : |c| ≤ 1 := by rw [hc]; exact abs_cos_le_one _
  obtain ⟨ec, hec⟩ : ∃ ec, ec = 0.016708634 - 0.000042037 * t - 0.0000001267 * t * t := ⟨_, rfl⟩
  have hecb : |ec| ≤ 0.0181 := by
    have h2 : |t * t| ≤ 30 ^ 2 := by rw [← pow_two]; exact Bd.pow (by norm_num) 2 t ht30
    have ht' := abs_le.1 ht30
    have h2' := abs_le.1 h2
    rw [hec, mul_assoc (0.0000001267 : ℝ), abs_le]
    constructor <;> norm_num <;> linarith
  have g : |(0.00448 - 20.49552 * (ec * c)) / radSec| ≤ 0.0000019 := by
    rw [abs_div, abs_of_pos r0, div_le_iff₀ r0]
    have h1 : |ec * c| ≤ 0.0181 := by
      rw [abs_mul]; have := mul_le_mul hecb hcb (abs_nonneg _) ((abs_nonneg _).trans hecb); linarith
    rw [abs_le] at h1 ⊢
    norm_num at h1 r1 ⊢
    constructor <;> linarith
  have f : |3.4E-6 + (1.75347 + π - 4.8950632)| ≤ 0.0000043 := by
    rw [abs_le]; norm_num at p1 p2 ⊢; constructor <;> linarith
  have e : gM t - fS (-1) (-1) t = (mS 20 t - mS (-1) t) + (eR (-1) t - (1.75347 + 628.3319653318 * t) - pS3 t)
      + (0.00448 - 20.49552 * (ec * c)) / radSec + (3.4E-6 + (1.75347 + π - 4.8950632)) := by
    unfold gM fS gxcMoonLon gxcSunLon
    simp only
    rw [← hc, ← hec]
    field_simp
    ring
  show |gM t - fS (-1) (-1) t| ≤ _
  rw [e]
  have h1 := abs_add_le (mS 20 t - mS (-1) t + (eR (-1) t - (1.75347 + 628.3319653318 * t) - pS3 t) + (0.00448 - 20.49552 * (ec * c)) / radSec)
    (3.4E-6 + (1.75347 + π - 4.8950632))
  have h2 := abs_add_le (mS 20 t - mS (-1) t + (eR (-1) t - (1.75347 + 628.3319653318 * t) - pS3 t)) ((0.00448 - 20.49552 * (ec * c)) / radSec)
  have h3 := abs_add_le (mS 20 t - mS (-1) t) (eR (-1) t - (1.75347 + 628.3319653318 * t) - pS3 t)
  have h4 : (0.0000019 : ℝ) + 0.0000043 ≤ 0.0000062 := by norm_num
  simp only at a b
  linarith

/-- the speed used by `MS_aLon_t2` -/
noncomputable def vF (t : ℝ) : ℝ := 7771.38 - 914 * sin (0.7848 + 8328.691425 * t + 0.0001523 * t * t) - 179 * sin (2.543 + 15542.7543 * t)
    - 160 * sin (0.1874 + 7214.0629 * t)

theorem vF_ge (t : ℝ) : 6518 ≤ vF t := by
  unfold vF
  have s0 := sin_le_one (0.7848 + 8328.691425 * t + 0.0001523 * t * t)
  have s1 := sin_le_one (2.543 + 15542.7543 * t)
  have s2 := sin_le_one (0.1874 + 7214.0629 * t)
  norm_num
  linarith

theorem fS_nearF : Near 4.01 (fS (-1) (-1)) vF 224.2 5773400 := by
  have t0 := near_term (R := 4.01) (A := dec 22639586000000) (b := dec 784758220) (w := dec 8328691424623) (x := dec 1522924100) (y := dec 25071900000) (z := dec (-123598000)) (V := 914) (φ := 0.7848) (Ω := 8328.691425) (κ := 0.0001523) (d := 0.1562) (e := 0.00007) (δ := 0.00125) (a1 := 0.10976)
    (by norm_num) (by norm_num [dec]) (by norm_num [dec]) (by norm_num [dec]) (by norm_num) (by norm_num) (by norm_num [dec]) (by norm_num [dec]) (by norm_num [dec, abs_of_pos, abs_of_neg]) (by norm_num [dec, abs_of_pos, abs_of_neg])
  have t1 := near_term (R := 4.01) (A := dec 4586438000000) (b := dec 187397400) (w := dec 7214062865360) (x := dec (-2184756000)) (y := dec (-18860000000)) (z := dec 82800000) (V := 160) (φ := 0.1874) (Ω := 7214.0629) (κ := 0) (d := 0.4098) (e := 0.00368) (δ := 0.00178) (a1 := 0.0222358)
    (by norm_num) (by norm_num [dec]) (by norm_num [dec]) (by norm_num [dec]) (by norm_num) (by norm_num) (by norm_num [dec]) (by norm_num [dec]) (by norm_num [dec, abs_of_pos, abs_of_neg]) (by norm_num [dec, abs_of_pos, abs_of_neg])
  have t2 := near_term (R := 4.01) (A := dec 2369914000000) (b := dec 2542952000) (w := dec 15542754289980) (x := dec (-661832000)) (y := dec 6212000000) (z := dec (-40800000)) (V := 179) (φ := 2.543) (Ω := 15542.7543) (κ := 0) (d := 0.4192) (e := 0.00117) (δ := 0.00055) (a1 := 0.0114898)
    (by norm_num) (by norm_num [dec]) (by norm_num [dec]) (by norm_num [dec]) (by norm_num) (by norm_num) (by norm_num [dec]) (by norm_num [dec]) (by norm_num [dec, abs_of_pos, abs_of_neg]) (by norm_num [dec, abs_of_pos, abs_of_neg])
  obtain ⟨-, -, sd, s1, s2, s3⟩ := mT_spd
  obtain ⟨a0, a1, a2, a3⟩ := mT_amp
  have ad : amp6 ((mT 0).drop 3) ≤ 10 ^ 15 := by decide +kernel
  have u0 := Near.of_lip (restM_lip (R := 4.01) (by norm_num) (by norm_num) 0 ((mT 0).drop 3) _ _ sd ad)
  have u1 := Near.of_lip (restM_lip (R := 4.01) (by norm_num) (by norm_num) 1 (mT 1) _ _ s1 a1)
  have u2 := Near.of_lip (restM_lip (R := 4.01) (by norm_num) (by norm_num) 2 (mT 2) _ _ s2 a2)
  have u3 := Near.of_lip (restM_lip (R := 4.01) (by norm_num) (by norm_num) 3 (mT 3) _ _ s3 a3)
  have c0 := Near.of_lip (Lip.const (R := 4.01) (3.81034409 - 3.4E-6 - π))
  have c1 := (Near.linear (R := 4.01) (8399.709110372 - 628.33196674749)).speed (w := fun _ => 7771.38) (L := 0.00287) (fun s _ => by norm_num [abs_le])
  have c2 := Near.of_lip ((Lip.pow (R := 4.01) (by norm_num) 2).smul (-0.0000277967))
  have c3 := Near.of_lip (polyM_lip (R := 4.01) (by norm_num))
  have c4 := Near.of_lip (((eR_lip.add gxc_lip).restrict (R' := 4.01) (by norm_num)).smul (-1))
  have F := ((((((((((c0.add c1).add c2).add c3).add c4).add t0).add t1).add t2).add u0).add u1).add u2).add u3
  refine (F.congr (fun t => ?_) (fun t => ?_)).mono ?_ ?_
  · unfold fS gxcMoonLon
    rw [mS_all, add_div, meanS_eq, ord0_split3]
    ring
  · unfold vF
    simp only [zero_mul, add_zero]
    ring
  · push_cast
    norm_num [abs_of_pos, abs_of_neg]
  · norm_num [dec]

/-! ## The estimate -/

theorem msALonT2_eq (b : Tab) (hb : Builtin b) {W t0 t1 : ℝ} (h0 : t0 = (W + 1.08472) / 7771.37714500204) (h1 : t1 = t0 - pM t0 / 7771.37714500204) (h : t1 ≤ 10) :
    msALonT2 b W = some (t1 + (W - gM t1) / vF t1) := by
  have hm : mLon b t1 20 = some (mS 20 t1) := by rw [mLon_mR b hb t1 20 (by norm_num) (by norm_num), mR_mS 20 h]
  unfold msALonT2
  simp only [← h0]
  show ((mLon b (t0 - pM t0 / 7771.37714500204) 20).bind _) = _
  rw [← h1, hm]
  show some (t0 - pM t0 / 7771.37714500204 + (W - (mS 20 t1 - (4.8950632 + 628.3319653318 * (t0 - pM t0 / 7771.37714500204) + 0.000005297 * (t0 - pM t0 / 7771.37714500204) * (t0 - pM t0 / 7771.37714500204)
    + 0.0334166 * cos (4.669257 + 628.307585 * (t0 - pM t0 / 7771.37714500204)) + 0.0002061 * cos (2.67823 + 628.307585 * (t0 - pM t0 / 7771.37714500204)) * (t0 - pM t0 / 7771.37714500204)
    + 0.000349 * cos (4.6261 + 1256.61517 * (t0 - pM t0 / 7771.37714500204)) - 20.5 / radSec))) / vF (t0 - pM t0 / 7771.37714500204)) = _
  rw [← h1]
  congr 4
  unfold gM pS3 pS
  ring

theorem pM_bd {R t : ℝ} (hR : 0 ≤ R) (ht : |t| ≤ R) : |pM t| ≤ 0.00003309 * R ^ 2 + 0.16542 := by
  have h1 : |-0.00003309 * (t * t)| ≤ 0.00003309 * R ^ 2 := by
    rw [abs_mul, abs_of_neg (by norm_num), neg_neg, ← pow_two]
    exact mul_le_mul_of_nonneg_left (Bd.pow hR 2 t ht) (by norm_num)
  have g : ∀ (A θ : ℝ), 0 < A → |A * cos θ| ≤ A := fun A θ hA => by
    rw [abs_mul, abs_of_pos hA]; exact mul_le_of_le_one_right hA.le (abs_cos_le_one _)
  have h2 := g 0.10976 (aX t) (by norm_num)
  have h3 := g 0.02224 (aY t) (by norm_num)
  have h4 := g 0.03342 (aU t) (by norm_num)
  unfold pM
  have e1 := abs_sub (-0.00003309 * (t * t) + 0.10976 * cos (aX t) + 0.02224 * cos (aY t)) (0.03342 * cos (aU t))
  have e2 := abs_add_three (-0.00003309 * (t * t)) (0.10976 * cos (aX t)) (0.02224 * cos (aY t))
  have e3 : (0.10976 : ℝ) + 0.02224 + 0.03342 ≤ 0.16542 := by norm_num
  linarith

theorem msALonT2_near4 (b : Tab) (hb : Builtin b) {z : ℝ} (hz : |z| ≤ 4) : ∃ r, msALonT2 b (fS (-1) (-1) z) = some r ∧ |r - z| ≤ 0.000000555 := by
  obtain ⟨W, hW⟩ : ∃ W, W = fS (-1) (-1) z := ⟨_, rfl⟩
  rw [← hW]
  have hzR : |z| ≤ 4.01 := hz.trans (by norm_num)
  have close : ∀ {t e : ℝ}, |t - z| ≤ e → e ≤ 0.01 → |t| ≤ 4.01 := by
    intro t e h he
    have h5 := abs_add_le (t - z) z
    rw [sub_add_cancel] at h5
    norm_num at hz he ⊢
    linarith
  obtain ⟨t0, ht0⟩ : ∃ t0, t0 = (W + 1.08472) / 7771.37714500204 := ⟨_, rfl⟩
  obtain ⟨r, hr⟩ : ∃ r, r = fS (-1) (-1) z - (-1.08472 + 7771.37714500204 * z) - pM z := ⟨_, rfl⟩
  have hrb : |r| ≤ 0.0306 := by rw [hr]; exact fS_approx z hzR
  obtain ⟨d, hd⟩ : ∃ d, d = t0 - z := ⟨_, rfl⟩
  have hdv : 7771.37714500204 * d = pM z + r := by
    rw [hd, ht0, hr, hW]
    ring
  have hdD : |d| ≤ 0.0000253 := by
    have : |7771.37714500204 * d| ≤ 0.0000253 * 7771.37714500204 := by
      rw [hdv]
      refine ((abs_add_le _ _).trans (add_le_add (pM_bd (by norm_num) hzR) hrb)).trans ?_
      norm_num
    rw [abs_mul, abs_of_pos (by norm_num), mul_comm] at this
    exact le_of_mul_le_mul_right this (by norm_num)
  have t0R : |t0| ≤ 4.01 := close (e := 0.0000253) (by rw [← hd]; exact hdD) (by norm_num)
  have st := pM_step hzR (by rw [hd, add_sub_cancel]; exact t0R) hdv hrb hdD
  obtain ⟨t1, ht1⟩ : ∃ t1, t1 = t0 - pM t0 / 7771.37714500204 := ⟨_, rfl⟩
  have E1 : |t1 - z| ≤ 0.00000667 := by
    have e : t1 - z = (r + (pM z - pM (z + d))) / 7771.37714500204 := by
      rw [ht1, show z + d = t0 by rw [hd]; ring, eq_div_iff (by norm_num)]
      have : 7771.37714500204 * (t0 - z) = pM z + r := by rw [← hd]; exact hdv
      rw [sub_sub, add_comm (pM t0 / 7771.37714500204) z, ← sub_sub, sub_mul, div_mul_cancel₀ _ (by norm_num)]
      linarith
    rw [e, abs_div, abs_of_pos (by norm_num : (0 : ℝ) < 7771.37714500204), div_le_iff₀ (by norm_num)]
    refine ((abs_add_le _ _).trans (add_le_add hrb st)).trans ?_
    norm_num
  have t1R := close E1 (by norm_num)
  have E2 := newton_step (g := gM) (V := 6518) fS_nearF (by norm_num) (by norm_num) t1R hzR (by norm_num) (vF_ge t1) (gM_fS (by norm_num) (by norm_num) t1 t1R) E1
  rw [← hW] at E2
  refine ⟨_, msALonT2_eq b hb ht0 ht1 ?_, E2.trans (by norm_num)⟩
  have := (abs_le.1 t1R).2
  norm_num at this ⊢
  linarith

/-- a rough bound over the whole span -/
theorem msALonT2_near30 (b : Tab) (hb : Builtin b) {z : ℝ} (hz : |z| ≤ 29.999) (hz10 : z ≤ 9.999) : ∃ r, msALonT2 b (fS (-1) (-1) z) = some r ∧ |r - z| ≤ 0.001 := by
  obtain ⟨W, hW⟩ : ∃ W, W = fS (-1) (-1) z := ⟨_, rfl⟩
  rw [← hW]
  have hzR : |z| ≤ 30 := hz.trans (by norm_num)
  have close : ∀ {t e : ℝ}, |t - z| ≤ e → e ≤ 0.0001 → |t| ≤ 30 := by
    intro t e h he
    have h5 := abs_add_le (t - z) z
    rw [sub_add_cancel] at h5
    norm_num at hz he ⊢
    linarith
  obtain ⟨t0, ht0⟩ : ∃ t0, t0 = (W + 1.08472) / 7771.37714500204 := ⟨_, rfl⟩
  have E0 : |t0 - z| ≤ 0.0000302 := by
    have m := fS_mean30 z hzR
    simp only at m
    have e : t0 - z = (fS (-1) (-1) z - (-1.08472 + 7771.37714500204 * z)) / 7771.37714500204 := by
      rw [ht0, hW]; field_simp; ring
    rw [e, abs_div, abs_of_pos (by norm_num : (0 : ℝ) < 7771.37714500204), div_le_iff₀ (by norm_num)]
    refine m.trans (by norm_num)
  have t0R := close E0 (by norm_num)
  obtain ⟨t1, ht1⟩ : ∃ t1, t1 = t0 - pM t0 / 7771.37714500204 := ⟨_, rfl⟩
  have hp : |pM t0 / 7771.37714500204| ≤ 0.0000254 := by
    rw [abs_div, abs_of_pos (by norm_num : (0 : ℝ) < 7771.37714500204), div_le_iff₀ (by norm_num)]
    refine (pM_bd (by norm_num) t0R).trans ?_
    norm_num
  have E1 : |t1 - z| ≤ 0.0000556 := by
    rw [ht1, show t0 - pM t0 / 7771.37714500204 - z = (t0 - z) - pM t0 / 7771.37714500204 by ring]
    refine (abs_sub _ _).trans ((add_le_add E0 hp).trans ?_)
    norm_num
  have t1R := close E1 (by norm_num)
  have hg := gM_fS (R := 30) (by norm_num) le_rfl t1 t1R
  simp only at hg
  have hl := fS_lip (R := 30) (by norm_num) le_rfl t1 z t1R hzR
  simp only at hl
  have hv := vF_ge t1
  have hq : |(W - gM t1) / vF t1| ≤ 0.0009 := by
    rw [abs_div, abs_of_pos (by linarith : 0 < vF t1), div_le_iff₀ (by linarith)]
    have h1 : |W - gM t1| ≤ 0.53 := by
      have e : W - gM t1 = (fS (-1) (-1) z - 7771.37714500204 * z - (fS (-1) (-1) t1 - 7771.37714500204 * t1)) - 7771.37714500204 * (t1 - z) - (gM t1 - fS (-1) (-1) t1) := by
        rw [hW]; ring
      rw [e]
      have g1 := abs_sub (fS (-1) (-1) z - 7771.37714500204 * z - (fS (-1) (-1) t1 - 7771.37714500204 * t1) - 7771.37714500204 * (t1 - z)) (gM t1 - fS (-1) (-1) t1)
      have g2 := abs_sub (fS (-1) (-1) z - 7771.37714500204 * z - (fS (-1) (-1) t1 - 7771.37714500204 * t1)) (7771.37714500204 * (t1 - z))
      have g3 : |7771.37714500204 * (t1 - z)| ≤ 7771.37714500204 * 0.0000556 := by
        rw [abs_mul, abs_of_pos (by norm_num)]; exact mul_le_mul_of_nonneg_left E1 (by norm_num)
      have g4 : 1478.8 * |t1 - z| ≤ 1478.8 * 0.0000556 := mul_le_mul_of_nonneg_left E1 (by norm_num)
      have g5 : (7771.37714500204 * 0.0000556 : ℝ) ≤ 0.4321 := by norm_num
      have g6 : (1478.8 * 0.0000556 : ℝ) ≤ 0.0823 := by norm_num
      have g7 := hg.trans (b := _) (c := 0.0036) (by norm_num)
      have g8 : (0.4321 : ℝ) + 0.0823 + 0.0036 ≤ 0.53 := by norm_num
      have hl' : |fS (-1) (-1) z - 7771.37714500204 * z - (fS (-1) (-1) t1 - 7771.37714500204 * t1)| ≤ 1478.8 * |t1 - z| := by
        have e2 : |t1 - z| = |z - t1| := abs_sub_comm _ _
        rw [e2]
        exact hl
      linarith
    have := mul_le_mul_of_nonneg_left hv (by norm_num : (0 : ℝ) ≤ 0.0009)
    norm_num at h1 this ⊢
    linarith
  refine ⟨_, msALonT2_eq b hb ht0 ht1 ?_, ?_⟩
  · have := (abs_le.1 E1).2
    norm_num at this hz10 ⊢
    linarith
  · rw [show t1 + (W - gM t1) / vF t1 - z = (t1 - z) + (W - gM t1) / vF t1 by ring]
    refine (abs_add_le _ _).trans ((add_le_add E1 hq).trans ?_)
    norm_num

end Verif.Longitude
