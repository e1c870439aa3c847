import Verif.Geom
import Mathlib.Topology.Order.IntermediateValue
import Mathlib.Topology.MetricSpace.Lipschitz
import Mathlib.Analysis.Normed.Field.Lemmas

/-!
# Passing a disc on a nearly straight path: what two rounds of linear extrapolation give

Dimensionless form (unit speed, unit radius at the start); used for the contact times of eclipses (C88).
-/

namespace Verif.Contact

open Real

/-- positions `s` along and `q` across the path, radius `r`; nearly unit speed along, nearly none across, a nearly constant radius -/
structure Near (s q r : ℝ → ℝ) (e b : ℝ) : Prop where
  he : 0 ≤ e
  hb : 0 ≤ b
  small : e + b ≤ 1 / 100
  hs : ∀ t t', |t| ≤ 6 / 5 → |t'| ≤ 6 / 5 → |s t - s t' - (t - t')| ≤ e * |t - t'|
  hq : ∀ t t', |t| ≤ 6 / 5 → |t'| ≤ 6 / 5 → |q t - q t'| ≤ e * |t - t'|
  hr : ∀ t t', |t| ≤ 6 / 5 → |t'| ≤ 6 / 5 → |r t - r t'| ≤ b * |t - t'|
  r0 : r 0 = 1
  q0 : |q 0| ≤ 9 / 10
  s0 : |s 0| ≤ 1 / 10

variable {s q r : ℝ → ℝ} {e b : ℝ}

theorem Near.reflect (h : Near s q r e b) : Near (fun t => -s (-t)) (fun t => q (-t)) (fun t => r (-t)) e b where
  he := h.he
  hb := h.hb
  small := h.small
  hs := fun t t' ht ht' => by
    have := h.hs (-t) (-t') (by rwa [abs_neg]) (by rwa [abs_neg])
    rw [show -t - -t' = -(t - t') by ring, abs_neg] at this
    rw [show -s (-t) - -s (-t') - (t - t') = -(s (-t) - s (-t') - (-(t - t'))) by ring, abs_neg]
    exact this
  hq := fun t t' ht ht' => by
    have := h.hq (-t) (-t') (by rwa [abs_neg]) (by rwa [abs_neg])
    rwa [show -t - -t' = -(t - t') by ring, abs_neg] at this
  hr := fun t t' ht ht' => by
    have := h.hr (-t) (-t') (by rwa [abs_neg]) (by rwa [abs_neg])
    rwa [show -t - -t' = -(t - t') by ring, abs_neg] at this
  r0 := by simpa using h.r0
  q0 := by simpa using h.q0
  s0 := by simpa using h.s0

/-- distance squared minus radius squared -/
def gap (s q r : ℝ → ℝ) (t : ℝ) : ℝ := s t ^ 2 + q t ^ 2 - r t ^ 2

theorem Near.q_le (h : Near s q r e b) {t : ℝ} (ht : |t| ≤ 6 / 5) : |q t| ≤ 912 / 1000 := by
  have h1 := h.hq t 0 ht (by norm_num)
  rw [sub_zero] at h1
  have h2 : e * |t| ≤ 1 / 100 * (6 / 5) := mul_le_mul (by linarith [h.small, h.hb]) ht (abs_nonneg _) (by norm_num)
  have h3 := abs_sub_abs_le_abs_sub (q t) (q 0)
  linarith [h.q0]

theorem Near.r_near (h : Near s q r e b) {t : ℝ} (ht : |t| ≤ 6 / 5) : 988 / 1000 ≤ r t ∧ r t ≤ 1012 / 1000 := by
  have h1 := h.hr t 0 ht (by norm_num)
  rw [sub_zero, h.r0] at h1
  have h2 : b * |t| ≤ 1 / 100 * (6 / 5) := mul_le_mul (by linarith [h.small, h.he]) ht (abs_nonneg _) (by norm_num)
  have h3 := abs_le.1 h1
  constructor <;> linarith

theorem Near.s_mono (h : Near s q r e b) {t t' : ℝ} (ht : |t| ≤ 6 / 5) (ht' : |t'| ≤ 6 / 5) (hle : t ≤ t') : 99 / 100 * (t' - t) ≤ s t' - s t := by
  have h1 := h.hs t' t ht' ht
  rw [abs_of_nonneg (show 0 ≤ t' - t by linarith)] at h1
  have h2 := (abs_le.1 h1).1
  have h3 : e * (t' - t) ≤ 1 / 100 * (t' - t) := mul_le_mul_of_nonneg_right (by linarith [h.small, h.hb]) (by linarith)
  linarith

/-- near the middle of the path the disc is met -/
theorem Near.gap_middle (h : Near s q r e b) {t : ℝ} (ht : |t| ≤ 6 / 5) (hs : |s t| ≤ 105 / 10000) : gap s q r t < 0 := by
  unfold gap
  have h1 : s t ^ 2 ≤ (105 / 10000) ^ 2 := sq_le_sq' (by linarith [(abs_le.1 hs).1]) (abs_le.1 hs).2
  have hq := h.q_le ht
  have h2 : q t ^ 2 ≤ (912 / 1000) ^ 2 := sq_le_sq' (by linarith [(abs_le.1 hq).1]) (abs_le.1 hq).2
  have h3 : (988 / 1000 : ℝ) ^ 2 ≤ r t ^ 2 := pow_le_pow_left₀ (by norm_num) (h.r_near ht).1 2
  norm_num at h1 h2 h3
  linarith

/-- behind the middle the gap grows -/
theorem Near.gap_mono (h : Near s q r e b) {t t' : ℝ} (ht : |t| ≤ 6 / 5) (ht' : |t'| ≤ 6 / 5) (hlt : t < t') (hs : 105 / 10000 ≤ s t) : gap s q r t < gap s q r t' := by
  have hd : 0 < t' - t := by linarith
  have h1 := h.s_mono ht ht' hlt.le
  have h2 := h.hq t' t ht' ht
  have h3 := h.hr t' t ht' ht
  rw [abs_of_pos hd] at h2 h3
  have hqq : |q t' + q t| ≤ 1824 / 1000 := (abs_add_le _ _).trans (by linarith [h.q_le ht, h.q_le ht'])
  have hrr : |r t' + r t| ≤ 2024 / 1000 := by
    rw [abs_of_nonneg (by linarith [(h.r_near ht).1, (h.r_near ht').1])]; linarith [(h.r_near ht).2, (h.r_near ht').2]
  have e1 : 99 / 100 * (t' - t) * (210 / 10000) ≤ (s t' - s t) * (s t' + s t) :=
    mul_le_mul h1 (by linarith) (by norm_num) (by linarith)
  have e2 : |(q t' - q t) * (q t' + q t)| ≤ e * (t' - t) * (1824 / 1000) := by
    rw [abs_mul]; exact mul_le_mul h2 hqq (abs_nonneg _) (mul_nonneg h.he hd.le)
  have e3 : |(r t' - r t) * (r t' + r t)| ≤ b * (t' - t) * (2024 / 1000) := by
    rw [abs_mul]; exact mul_le_mul h3 hrr (abs_nonneg _) (mul_nonneg h.hb hd.le)
  have e4 : e * (t' - t) * (1824 / 1000) + b * (t' - t) * (2024 / 1000) ≤ 1 / 100 * (t' - t) * (2024 / 1000) := by
    have : (e + b) * (t' - t) ≤ 1 / 100 * (t' - t) := mul_le_mul_of_nonneg_right h.small hd.le
    have := mul_nonneg h.he hd.le
    linarith
  have e5 := (abs_le.1 e2).1
  have e6 := (abs_le.1 e3).2
  have : gap s q r t' - gap s q r t = (s t' - s t) * (s t' + s t) + (q t' - q t) * (q t' + q t) - (r t' - r t) * (r t' + r t) := by unfold gap; ring
  linarith

theorem Near.cont (h : Near s q r e b) : ContinuousOn (gap s q r) (Set.Icc (-(6 / 5)) (6 / 5)) := by
  have lip : ∀ (f : ℝ → ℝ) (K : ℝ), 0 ≤ K → (∀ t t', |t| ≤ 6 / 5 → |t'| ≤ 6 / 5 → |f t - f t'| ≤ K * |t - t'|) → ContinuousOn f (Set.Icc (-(6 / 5)) (6 / 5)) := by
    intro f K hK hf
    refine (LipschitzOnWith.of_dist_le_mul (K := ⟨K, hK⟩) ?_).continuousOn
    intro x hx y hy
    rw [Real.dist_eq, Real.dist_eq]
    exact hf x y (abs_le.2 ⟨by linarith [hx.1], hx.2⟩) (abs_le.2 ⟨by linarith [hy.1], hy.2⟩)
  have hs := lip s (1 + e) (by linarith [h.he]) (fun t t' ht ht' => by
    have h1 := h.hs t t' ht ht'
    have h2 := abs_add_le (s t - s t' - (t - t')) (t - t')
    rw [sub_add_cancel] at h2
    linarith)
  have hq := lip q e h.he h.hq
  have hr := lip r b h.hb h.hr
  exact ((hs.pow 2).add (hq.pow 2)).sub (hr.pow 2)

/-- the first and the second round of the program: the later crossing of the straight path through the point at `0`, then of the parallel through the point at that time -/
noncomputable def first (s q r : ℝ → ℝ) : ℝ := √(r 0 ^ 2 - q 0 ^ 2) - s 0

noncomputable def second (s q r : ℝ → ℝ) : ℝ := first s q r + √(r (first s q r) ^ 2 - q (first s q r) ^ 2) - s (first s q r)

set_option maxHeartbeats 1000000 in
theorem Near.leave (h : Near s q r e b) :
    |first s q r| ≤ 11 / 10 ∧ 0 ≤ r 0 ^ 2 - q 0 ^ 2 ∧ 0 ≤ r (first s q r) ^ 2 - q (first s q r) ^ 2
      ∧ ∃ T, |T - second s q r| ≤ 14 * (e + b) ^ 2 ∧ |T| ≤ 6 / 5 ∧ gap s q r T = 0 ∧ 0 < s T ∧ ∀ t, |t| ≤ 6 / 5 → 0 ≤ s t → (gap s q r t ≤ 0 ↔ t ≤ T) := by
  obtain ⟨η, hη⟩ : ∃ η, η = e + b := ⟨_, rfl⟩
  have he := h.he
  have hb := h.hb
  have hη1 : η ≤ 1 / 100 := by rw [hη]; exact h.small
  have hη0 : 0 ≤ η := by rw [hη]; linarith
  have heη : e ≤ η := by rw [hη]; linarith
  have hbη : b ≤ η := by rw [hη]; linarith
  rw [← hη]
  -- the first round
  obtain ⟨h0, hh0⟩ : ∃ h0, h0 = √(r 0 ^ 2 - q 0 ^ 2) := ⟨_, rfl⟩
  have hq0sq : q 0 ^ 2 ≤ 81 / 100 := by
    have := sq_le_sq' (by linarith [(abs_le.1 h.q0).1]) (abs_le.1 h.q0).2
    norm_num at this; linarith
  have hD0 : 19 / 100 ≤ r 0 ^ 2 - q 0 ^ 2 := by rw [h.r0]; linarith
  have hh0sq : h0 ^ 2 = r 0 ^ 2 - q 0 ^ 2 := by rw [hh0, sq_sqrt (by linarith)]
  have hh0n : 0 ≤ h0 := by rw [hh0]; exact sqrt_nonneg _
  have hh0l : 435 / 1000 ≤ h0 := by
    by_contra hc
    have : h0 ^ 2 < (435 / 1000) ^ 2 := pow_lt_pow_left₀ (by linarith) hh0n (by norm_num)
    norm_num at this; linarith
  have hh0u : h0 ≤ 1 := by
    by_contra hc
    have : (1 : ℝ) ^ 2 < h0 ^ 2 := pow_lt_pow_left₀ (by linarith) (by norm_num) (by norm_num)
    rw [hh0sq, h.r0] at this
    have := sq_nonneg (q 0)
    linarith
  obtain ⟨t1, ht1⟩ : ∃ t1, t1 = first s q r := ⟨_, rfl⟩
  have ht1e : t1 = h0 - s 0 := by rw [ht1, hh0]; rfl
  have hs0 := abs_le.1 h.s0
  have ht1a : |t1| ≤ 11 / 10 := by rw [ht1e]; exact abs_le.2 ⟨by linarith, by linarith⟩
  have ht1w : |t1| ≤ 6 / 5 := by linarith
  -- the deviations at the end of the first round
  have d1 : |s t1 - h0| ≤ 11 / 10 * e := by
    have := h.hs t1 0 ht1w (by norm_num)
    rw [sub_zero, show s t1 - s 0 - t1 = s t1 - h0 by rw [ht1e]; ring] at this
    calc _ ≤ e * |t1| := this
      _ ≤ e * (11 / 10) := mul_le_mul_of_nonneg_left ht1a he
      _ = _ := by ring
  have d2 : |q t1 - q 0| ≤ 11 / 10 * e := by
    have := h.hq t1 0 ht1w (by norm_num)
    rw [sub_zero] at this
    calc _ ≤ e * |t1| := this
      _ ≤ e * (11 / 10) := mul_le_mul_of_nonneg_left ht1a he
      _ = _ := by ring
  have d3 : |r t1 - 1| ≤ 11 / 10 * b := by
    have := h.hr t1 0 ht1w (by norm_num)
    rw [sub_zero, h.r0] at this
    calc _ ≤ b * |t1| := this
      _ ≤ b * (11 / 10) := mul_le_mul_of_nonneg_left ht1a hb
      _ = _ := by ring
  have hq1 : |q t1| ≤ 911 / 1000 := by
    have := abs_sub_abs_le_abs_sub (q t1) (q 0)
    linarith [h.q0]
  have hr1 := abs_le.1 d3
  have hr1u : r t1 ≤ 1011 / 1000 := by linarith
  have hr1l : 989 / 1000 ≤ r t1 := by linarith
  have hqs : |q t1 ^ 2 - q 0 ^ 2| ≤ 11 / 10 * e * (1811 / 1000) := by
    rw [show q t1 ^ 2 - q 0 ^ 2 = (q t1 - q 0) * (q t1 + q 0) by ring, abs_mul]
    refine mul_le_mul d2 ((abs_add_le _ _).trans ?_) (abs_nonneg _) (by linarith)
    linarith [h.q0]
  have hrs : |r t1 ^ 2 - 1| ≤ 11 / 10 * b * (2011 / 1000) := by
    rw [show r t1 ^ 2 - 1 = (r t1 - 1) * (r t1 + 1) by ring, abs_mul]
    refine mul_le_mul d3 ?_ (abs_nonneg _) (by linarith)
    rw [abs_of_nonneg (by linarith)]; linarith
  have hqs' := abs_le.1 hqs
  have hrs' := abs_le.1 hrs
  have hD1 : 1678 / 10000 ≤ r t1 ^ 2 - q t1 ^ 2 := by linarith
  obtain ⟨h1, hh1⟩ : ∃ h1, h1 = √(r t1 ^ 2 - q t1 ^ 2) := ⟨_, rfl⟩
  have hh1sq : h1 ^ 2 = r t1 ^ 2 - q t1 ^ 2 := by rw [hh1, sq_sqrt (by linarith)]
  have hh1n : 0 ≤ h1 := by rw [hh1]; exact sqrt_nonneg _
  have hh1l : 409 / 1000 ≤ h1 := by
    by_contra hc
    have : h1 ^ 2 < (409 / 1000) ^ 2 := pow_lt_pow_left₀ (by linarith) hh1n (by norm_num)
    norm_num at this; linarith
  have hh1u : h1 ≤ 1011 / 1000 := by
    by_contra hc
    have a1 : (1011 / 1000 : ℝ) ^ 2 < h1 ^ 2 := pow_lt_pow_left₀ (by linarith) (by norm_num) (by norm_num)
    have a2 : r t1 ^ 2 ≤ (1011 / 1000) ^ 2 := pow_le_pow_left₀ (by linarith) hr1u 2
    have := sq_nonneg (q t1)
    linarith
  have hdh : |h1 - h0| ≤ 263 / 100 * η := by
    have e1 : |h1 - h0| * (844 / 1000) ≤ |h1 ^ 2 - h0 ^ 2| := by
      rw [show h1 ^ 2 - h0 ^ 2 = (h1 - h0) * (h1 + h0) by ring, abs_mul]
      refine mul_le_mul_of_nonneg_left ?_ (abs_nonneg _)
      rw [abs_of_nonneg (by linarith)]; linarith
    have e2 : |h1 ^ 2 - h0 ^ 2| ≤ 2213 / 1000 * η := by
      rw [hh1sq, hh0sq, h.r0]
      refine abs_le.2 ⟨?_, ?_⟩ <;> linarith
    linarith
  obtain ⟨t2, ht2⟩ : ∃ t2, t2 = second s q r := ⟨_, rfl⟩
  have ht2e : t2 = t1 + h1 - s t1 := by rw [ht2, hh1, ht1]; rfl
  have hdt : |t2 - t1| ≤ 373 / 100 * η := by
    rw [show t2 - t1 = (h1 - h0) + -(s t1 - h0) by rw [ht2e]; ring]
    refine (abs_add_le _ _).trans ?_
    rw [abs_neg]; linarith
  -- the gap around the second estimate
  have hηη : η ^ 2 ≤ 1 / 100 * η := by nlinarith
  have hη2 : 0 ≤ η ^ 2 := sq_nonneg η
  have around : ∀ x, |x| ≤ 14 * η ^ 2 → |t2 + x| ≤ 6 / 5 ∧ |s (t2 + x) - (h1 + x)| ≤ 387 / 100 * η * e ∧ |q (t2 + x) - q t1| ≤ 387 / 100 * η * e
      ∧ |r (t2 + x) - r t1| ≤ 387 / 100 * η * b := by
    intro x hx
    have a0 : |t2 + x - t1| ≤ 387 / 100 * η := by
      rw [show t2 + x - t1 = (t2 - t1) + x by ring]
      refine (abs_add_le _ _).trans ?_
      linarith
    have a1 : |t2 + x| ≤ 6 / 5 := by
      have := abs_add_le (t2 + x - t1) t1
      rw [sub_add_cancel] at this
      linarith
    refine ⟨a1, ?_, ?_, ?_⟩
    · have := h.hs (t2 + x) t1 a1 ht1w
      rw [show s (t2 + x) - s t1 - (t2 + x - t1) = s (t2 + x) - (h1 + x) by rw [ht2e]; ring] at this
      calc _ ≤ e * |t2 + x - t1| := this
        _ ≤ e * (387 / 100 * η) := mul_le_mul_of_nonneg_left a0 he
        _ = _ := by ring
    · calc _ ≤ e * |t2 + x - t1| := h.hq (t2 + x) t1 a1 ht1w
        _ ≤ e * (387 / 100 * η) := mul_le_mul_of_nonneg_left a0 he
        _ = _ := by ring
    · calc _ ≤ b * |t2 + x - t1| := h.hr (t2 + x) t1 a1 ht1w
        _ ≤ b * (387 / 100 * η) := mul_le_mul_of_nonneg_left a0 hb
        _ = _ := by ring
  have hgap : ∀ x, |x| ≤ 14 * η ^ 2 → |gap s q r (t2 + x) - (s (t2 + x) ^ 2 - h1 ^ 2)| ≤ 7845 / 1000 * η ^ 2 := by
    intro x hx
    obtain ⟨a1, -, a3, a4⟩ := around x hx
    have b1 : |q (t2 + x) ^ 2 - q t1 ^ 2| ≤ 387 / 100 * η * e * (1823 / 1000) := by
      rw [show q (t2 + x) ^ 2 - q t1 ^ 2 = (q (t2 + x) - q t1) * (q (t2 + x) + q t1) by ring, abs_mul]
      refine mul_le_mul a3 ((abs_add_le _ _).trans ?_) (abs_nonneg _) (by positivity)
      linarith [h.q_le a1]
    have b2 : |r (t2 + x) ^ 2 - r t1 ^ 2| ≤ 387 / 100 * η * b * (2023 / 1000) := by
      rw [show r (t2 + x) ^ 2 - r t1 ^ 2 = (r (t2 + x) - r t1) * (r (t2 + x) + r t1) by ring, abs_mul]
      refine mul_le_mul a4 ?_ (abs_nonneg _) (by positivity)
      have := h.r_near a1
      rw [abs_of_nonneg (by linarith)]; linarith
    have b3 : η * e + η * b = η ^ 2 := by rw [hη]; ring
    have b4 : 0 ≤ η * e := mul_nonneg hη0 he
    have b5 : 0 ≤ η * b := mul_nonneg hη0 hb
    have b6 := abs_le.1 b1
    have b7 := abs_le.1 b2
    have : gap s q r (t2 + x) - (s (t2 + x) ^ 2 - h1 ^ 2) = (q (t2 + x) ^ 2 - q t1 ^ 2) - (r (t2 + x) ^ 2 - r t1 ^ 2) := by rw [hh1sq]; unfold gap; ring
    rw [this]
    refine abs_le.2 ⟨?_, ?_⟩ <;> linarith
  have hηe : η * e ≤ η ^ 2 := by rw [pow_two]; exact mul_le_mul_of_nonneg_left heη hη0
  have hηe0 : 0 ≤ η * e := mul_nonneg hη0 he
  have habs : |14 * η ^ 2| ≤ 14 * η ^ 2 := le_of_eq (abs_of_nonneg (by linarith))
  have habs' : |-(14 * η ^ 2)| ≤ 14 * η ^ 2 := by rw [abs_neg]; exact habs
  have hpos : 0 ≤ gap s q r (t2 + 14 * η ^ 2) := by
    obtain ⟨-, a2, -, -⟩ := around _ habs
    have a3 := (abs_le.1 (hgap _ habs)).1
    have a4 := (abs_le.1 a2).1
    have a5 : 1013 / 100 * η ^ 2 ≤ s (t2 + 14 * η ^ 2) - h1 := by linarith
    have a6 : 1013 / 100 * η ^ 2 * (818 / 1000) ≤ (s (t2 + 14 * η ^ 2) - h1) * (s (t2 + 14 * η ^ 2) + h1) :=
      mul_le_mul a5 (by linarith) (by norm_num) (by linarith)
    have a7 : (s (t2 + 14 * η ^ 2) - h1) * (s (t2 + 14 * η ^ 2) + h1) = s (t2 + 14 * η ^ 2) ^ 2 - h1 ^ 2 := by ring
    linarith
  have hneg : gap s q r (t2 + -(14 * η ^ 2)) ≤ 0 := by
    obtain ⟨-, a2, -, -⟩ := around _ habs'
    have a3 := (abs_le.1 (hgap _ habs')).2
    have a4 := abs_le.1 a2
    have a5 : 1013 / 100 * η ^ 2 ≤ h1 - s (t2 + -(14 * η ^ 2)) := by linarith [a4.2]
    have a6 : 1013 / 100 * η ^ 2 * (7999 / 10000) ≤ (h1 - s (t2 + -(14 * η ^ 2))) * (s (t2 + -(14 * η ^ 2)) + h1) :=
      mul_le_mul a5 (by linarith [a4.1]) (by norm_num) (by linarith)
    have a7 : (h1 - s (t2 + -(14 * η ^ 2))) * (s (t2 + -(14 * η ^ 2)) + h1) = -(s (t2 + -(14 * η ^ 2)) ^ 2 - h1 ^ 2) := by ring
    linarith
  obtain ⟨T, hT, hT0⟩ : ∃ T ∈ Set.Icc (t2 + -(14 * η ^ 2)) (t2 + 14 * η ^ 2), gap s q r T = 0 := by
    have hsub : Set.Icc (t2 + -(14 * η ^ 2)) (t2 + 14 * η ^ 2) ⊆ Set.Icc (-(6 / 5)) (6 / 5) := by
      intro x hx
      have a1 := abs_le.1 (around _ habs).1
      have a2 := abs_le.1 (around _ habs').1
      exact ⟨by linarith [hx.1], by linarith [hx.2]⟩
    have := intermediate_value_Icc (show t2 + -(14 * η ^ 2) ≤ t2 + 14 * η ^ 2 by linarith) (h.cont.mono hsub)
    obtain ⟨T, hT, hT0⟩ := this ⟨hneg, hpos⟩
    exact ⟨T, hT, hT0⟩
  have hTx : |T - t2| ≤ 14 * η ^ 2 := abs_le.2 ⟨by linarith [hT.1], by linarith [hT.2]⟩
  obtain ⟨aT1, aT2, -, -⟩ := around (T - t2) hTx
  rw [add_sub_cancel] at aT1 aT2
  have hsT : 0 < s T := by
    have a1 := (abs_le.1 aT2).1
    have a2 := (abs_le.1 hTx).1
    linarith
  have hsT2 : 105 / 10000 < s T := by
    by_contra hc
    have := h.gap_middle aT1 (by rw [abs_of_pos hsT]; linarith)
    linarith
  rw [← ht1, ← ht2]
  refine ⟨ht1a, by linarith, by linarith, T, hTx, aT1, hT0, hsT, fun t ht hst => ⟨fun hg => ?_, fun hg => ?_⟩⟩
  · by_contra hc
    have := h.gap_mono aT1 ht (lt_of_not_ge hc) hsT2.le
    linarith
  · rcases eq_or_lt_of_le hg with hg | hg
    · rw [hg]; exact hT0.le
    · by_cases h2 : s t ≤ 105 / 10000
      · exact (h.gap_middle ht (by rw [abs_of_nonneg hst]; exact h2)).le
      · have := h.gap_mono ht aT1 hg (le_of_not_ge h2)
        linarith

end Verif.Contact
