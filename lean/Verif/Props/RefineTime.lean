import Verif.Props.RiseSet
import Mathlib.Analysis.SpecialFunctions.Trigonometric.InverseDeriv
import Mathlib.Analysis.SpecialFunctions.Sqrt
import Mathlib.Topology.Order.IntermediateValue
import Mathlib.Analysis.Calculus.MeanValue

/-!
# One refined time of a body that turns almost uniformly (used by C82)
-/

namespace Verif.Geom

open Real

/-- one estimate and one correction: the refined time is within `η` of an instant where the hour angle has exactly the wanted value.  `h` is the hour angle followed continuously, `K₁` bounds how much
it departs from the assumed rate `sv`, `K₂` how fast the wanted hour angle changes. -/
theorem refine_near {b : Body} {h Hx : ℝ → ℝ} {sv K₁ K₂ m r A η sgn : ℝ} (hsgn : |sgn| ≤ 1) (hsv : 0 < sv) (hK1 : 0 ≤ K₁) (hK2 : 0 ≤ K₂) (hK : K₁ + K₂ < sv)
    (turn : ∀ t, |t - m| ≤ r → ∃ k : ℤ, b.H t = h t + 2 * π * k) (h0 : rrad (b.H m) = h m)
    (rate : ∀ s t, |s - m| ≤ r → |t - m| ≤ r → |h t - h s - sv * (t - s)| ≤ K₁ * |t - s|)
    (want : ∀ s t, |s - m| ≤ r → |t - m| ≤ r → |Hx t - Hx s| ≤ K₂ * |t - s|)
    (hA : |sgn * Hx m - h m| ≤ A) (hpi : (K₁ + K₂) * (A / sv) < π) (hη : (K₁ + K₂) * ((K₁ + K₂) * (A / sv)) / sv ≤ (sv - (K₁ + K₂)) * η)
    (hr : A / sv + (K₁ + K₂) * (A / sv) / sv + η ≤ r) :
    ∃ t, |t - m| ≤ r ∧ |refine b sv m Hx sgn - t| ≤ η ∧ sgn * Hx t = h t := by
  obtain ⟨K, hKe⟩ : ∃ K, K = K₁ + K₂ := ⟨_, rfl⟩
  rw [← hKe] at hK hpi hη hr
  have hA0 : 0 ≤ A := (abs_nonneg _).trans hA
  have hK0 : 0 ≤ K := by rw [hKe]; linarith
  have hη0 : 0 ≤ η := by
    have : 0 ≤ (sv - K) * η := le_trans (by positivity) hη
    exact nonneg_of_mul_nonneg_right this (by linarith)
  obtain ⟨G, hG⟩ : ∃ G : ℝ → ℝ, G = fun t => sgn * Hx t - h t := ⟨_, rfl⟩
  -- the wanted hour angle minus the actual one
  have key : ∀ s t, |s - m| ≤ r → |t - m| ≤ r → |G t - G s + sv * (t - s)| ≤ K * |t - s| := fun s t hs ht => by
    have e : G t - G s + sv * (t - s) = sgn * (Hx t - Hx s) - (h t - h s - sv * (t - s)) := by rw [hG]; ring
    rw [e]
    refine (abs_sub _ _).trans ?_
    rw [abs_mul]
    have a1 := mul_le_mul hsgn (want s t hs ht) (abs_nonneg _) (by norm_num)
    have a2 := rate s t hs ht
    rw [hKe, add_mul]
    linarith
  obtain ⟨t0, ht0⟩ : ∃ t0, t0 = m + (sgn * Hx m - rrad (b.H m)) / sv := ⟨_, rfl⟩
  have d0 : t0 - m = G m / sv := by rw [ht0, h0, hG]; ring
  have a0 : |t0 - m| ≤ A / sv := by
    rw [d0, abs_div, abs_of_pos hsv, hG]
    exact div_le_div_of_nonneg_right hA hsv.le
  have pos1 : 0 ≤ K * (A / sv) / sv := by positivity
  have pos0 : 0 ≤ A / sv := by positivity
  have m0 : |m - m| ≤ r := by rw [sub_self, abs_zero]; linarith
  have i0 : |t0 - m| ≤ r := by linarith
  have g0 : |G t0| ≤ K * (A / sv) := by
    have := key m t0 m0 i0
    rw [show G t0 - G m + sv * (t0 - m) = G t0 by rw [d0]; field_simp; ring] at this
    exact this.trans (mul_le_mul_of_nonneg_left a0 hK0)
  have red : rrad (sgn * Hx t0 - rrad (b.H t0)) = G t0 := by
    obtain ⟨k, hk⟩ := turn t0 i0
    obtain ⟨-, -, j, hj⟩ := c36_rrad_real (b.H t0)
    refine c36_rrad_unique _ _ ⟨?_, ?_⟩ (k + j) ?_
    · linarith [(abs_le.mp g0).1]
    · linarith [(abs_le.mp g0).2]
    · rw [hj, hk, hG]; push_cast; ring
  obtain ⟨t1, ht1⟩ : ∃ t1, t1 = refine b sv m Hx sgn := ⟨_, rfl⟩
  have e1 : t1 = t0 + G t0 / sv := by
    rw [ht1]
    unfold refine
    simp only []
    rw [← ht0, red]
  have a1 : |t1 - t0| ≤ K * (A / sv) / sv := by
    rw [e1, add_sub_cancel_left, abs_div, abs_of_pos hsv]
    exact div_le_div_of_nonneg_right g0 hsv.le
  have i1' : |t1 - m| ≤ A / sv + K * (A / sv) / sv := by
    rw [show t1 - m = (t0 - m) + (t1 - t0) by ring]
    exact (abs_add_le _ _).trans (add_le_add a0 a1)
  have i1 : |t1 - m| ≤ r := by linarith
  have g1 : |G t1| ≤ (sv - K) * η := by
    have := key t0 t1 i0 i1
    rw [show G t1 - G t0 + sv * (t1 - t0) = G t1 by rw [e1]; field_simp; ring] at this
    refine (this.trans (mul_le_mul_of_nonneg_left a1 hK0)).trans (le_trans (le_of_eq ?_) hη)
    ring
  -- the exact instant, by continuity
  have near : ∀ t, |t - t1| ≤ η → |t - m| ≤ r := fun t ht => by
    rw [show t - m = (t - t1) + (t1 - m) by ring]
    refine (abs_add_le _ _).trans ?_
    linarith
  have cont : ContinuousOn G (Set.Icc (t1 - η) (t1 + η)) := by
    have : LipschitzOnWith (Real.toNNReal (K + sv)) G (Set.Icc (t1 - η) (t1 + η)) := by
      refine LipschitzOnWith.of_dist_le_mul fun x hx y hy => ?_
      rw [Real.dist_eq, Real.dist_eq, Real.coe_toNNReal _ (by linarith)]
      have hx' := near x (by rw [abs_le]; constructor <;> linarith [hx.1, hx.2])
      have hy' := near y (by rw [abs_le]; constructor <;> linarith [hy.1, hy.2])
      have := key y x hy' hx'
      rw [show G x - G y = (G x - G y + sv * (x - y)) - sv * (x - y) by ring]
      refine (abs_sub _ _).trans ?_
      rw [abs_mul, abs_of_pos hsv, add_mul]
      linarith
    exact this.continuousOn
  have lo : 0 ≤ G (t1 - η) := by
    have := key t1 (t1 - η) i1 (near _ (by rw [sub_sub_cancel_left, abs_neg, abs_of_nonneg hη0]))
    rw [show t1 - η - t1 = -η by ring, abs_neg, abs_of_nonneg hη0] at this
    have h2 := abs_le.mp this
    have h3 := abs_le.mp g1
    linarith [h2.1, h3.1]
  have hi : G (t1 + η) ≤ 0 := by
    have := key t1 (t1 + η) i1 (near _ (by rw [add_sub_cancel_left, abs_of_nonneg hη0]))
    rw [show t1 + η - t1 = η by ring, abs_of_nonneg hη0] at this
    have h2 := abs_le.mp this
    have h3 := abs_le.mp g1
    linarith [h2.2, h3.2]
  obtain ⟨t, ht, hz⟩ := intermediate_value_Icc' (by linarith : t1 - η ≤ t1 + η) cont ⟨hi, lo⟩
  have ht' : |t - t1| ≤ η := by rw [abs_le]; constructor <;> linarith [ht.1, ht.2]
  refine ⟨t, near t ht', ?_, ?_⟩
  · rw [← ht1, abs_sub_comm]; exact ht'
  · rw [hG] at hz
    simp only at hz
    linarith

/-! ## The hour angle of a given altitude, as a function of the sine of the declination -/

/-- the cosine of the hour angle -/
noncomputable def cosH (fa a s : ℝ) : ℝ := (sin a - sin fa * s) / cos fa / √(1 - s ^ 2)

theorem getH_arcsin {fa a s : ℝ} (h : |cosH fa a s| ≤ 1) (hs : |s| ≤ 1) : getH fa a (arcsin s) = arccos (cosH fa a s) := by
  unfold getH
  simp only []
  rw [sin_arcsin (abs_le.mp hs).1 (abs_le.mp hs).2, cos_arcsin]
  rw [if_neg (show ¬ |(sin a - sin fa * s) / cos fa / √(1 - s ^ 2)| > 1 from not_lt.mpr h)]
  rfl

theorem cosH_bd {fa a s S Q C : ℝ} (hf : 0 < cos fa) (hQ : 0 < Q) (hQS : Q ^ 2 ≤ 1 - S ^ 2) (hs : |s| ≤ S) (h : |sin a| + |sin fa| * S ≤ C * (cos fa * Q)) : |cosH fa a s| ≤ C := by
  have hS0 : 0 ≤ S := (abs_nonneg _).trans hs
  have hq : Q ≤ √(1 - s ^ 2) := by
    refine le_sqrt_of_sq_le ?_
    have : s ^ 2 ≤ S ^ 2 := sq_le_sq' (by linarith [(abs_le.mp hs).1]) (abs_le.mp hs).2
    linarith
  have hq0 : 0 < √(1 - s ^ 2) := by linarith
  have hC : 0 ≤ C := by
    have : 0 ≤ C * (cos fa * Q) := le_trans (by positivity) h
    exact nonneg_of_mul_nonneg_left this (by positivity)
  unfold cosH
  rw [div_div, abs_div, abs_of_pos (mul_pos hf hq0), div_le_iff₀ (mul_pos hf hq0)]
  have a1 : |sin a - sin fa * s| ≤ |sin a| + |sin fa| * S := by
    refine (abs_sub _ _).trans ?_
    rw [abs_mul]
    linarith [mul_le_mul_of_nonneg_left hs (abs_nonneg (sin fa))]
  have a2 : C * (cos fa * Q) ≤ C * (cos fa * √(1 - s ^ 2)) := by gcongr
  linarith

theorem cosH_deriv {fa a s : ℝ} (hf : 0 < cos fa) (hs : |s| < 1) :
    HasDerivAt (cosH fa a) ((sin a * s - sin fa) / (cos fa * √(1 - s ^ 2) ^ 3)) s := by
  have hp : 0 < 1 - s ^ 2 := by
    have := sq_lt_one_iff_abs_lt_one s |>.mpr hs
    linarith
  have hq := sqrt_pos.mpr hp
  have d1 : HasDerivAt (fun x : ℝ => 1 - x ^ 2) (-(2 * s)) s := by
    have := ((hasDerivAt_id s).pow 2).const_sub 1
    refine this.congr_deriv ?_
    simp
  have d2 := d1.sqrt hp.ne'
  have d3 : HasDerivAt (fun x : ℝ => (sin a - sin fa * x) / cos fa) (-(sin fa) / cos fa) s := by
    have := (((hasDerivAt_id s).const_mul (sin fa)).const_sub (sin a)).div_const (cos fa)
    refine this.congr_deriv ?_
    simp
  have d4 := d3.div d2 hq.ne'
  refine d4.congr_deriv ?_
  have sq : √(1 - s ^ 2) ^ 2 = 1 - s ^ 2 := sq_sqrt hp.le
  field_simp
  rw [sq]
  ring

/-- the hour angle changes at most `M` times as fast as the sine of the declination -/
theorem getH_lip {fa a S Q C D M : ℝ} (hf : 0 < cos fa) (hQ : 0 < Q) (hQS : Q ^ 2 ≤ 1 - S ^ 2) (hC1 : C < 1) (hD : 0 < D) (hDC : D ^ 2 ≤ 1 - C ^ 2)
    (h : |sin a| + |sin fa| * S ≤ C * (cos fa * Q)) (hM : |sin a| * S + |sin fa| ≤ M * (cos fa * Q ^ 3 * D)) {s s' : ℝ} (hs : |s| ≤ S) (hs' : |s'| ≤ S) :
    |getH fa a (arcsin s') - getH fa a (arcsin s)| ≤ M * |s' - s| := by
  have hS0 : 0 ≤ S := (abs_nonneg _).trans hs
  have hS1 : S < 1 := by nlinarith [pow_pos hQ 2]
  have hM0 : 0 ≤ M := by
    have : 0 ≤ M * (cos fa * Q ^ 3 * D) := le_trans (by positivity) hM
    exact nonneg_of_mul_nonneg_left this (by positivity)
  have bd : ∀ x, |x| ≤ S → |cosH fa a x| ≤ C := fun x hx => cosH_bd hf hQ hQS hx h
  rw [getH_arcsin ((bd s hs).trans hC1.le) (hs.trans hS1.le), getH_arcsin ((bd s' hs').trans hC1.le) (hs'.trans hS1.le)]
  have der : ∀ x ∈ Set.Icc (-S) S, HasDerivWithinAt (fun x => arccos (cosH fa a x)) (-(1 / √(1 - cosH fa a x ^ 2)) * ((sin a * x - sin fa) / (cos fa * √(1 - x ^ 2) ^ 3))) (Set.Icc (-S) S) x := by
    intro x hx
    have hx' : |x| ≤ S := abs_le.mpr hx
    have hb := abs_le.mp (bd x hx')
    have d := (hasDerivAt_arccos (x := cosH fa a x) (by linarith [hb.1]) (by linarith [hb.2])).comp x (cosH_deriv (a := a) hf (lt_of_le_of_lt hx' hS1))
    exact d.hasDerivWithinAt
  have bound : ∀ x ∈ Set.Icc (-S) S, ‖-(1 / √(1 - cosH fa a x ^ 2)) * ((sin a * x - sin fa) / (cos fa * √(1 - x ^ 2) ^ 3))‖ ≤ M := by
    intro x hx
    have hx' : |x| ≤ S := abs_le.mpr hx
    have hq : Q ≤ √(1 - x ^ 2) := by
      refine le_sqrt_of_sq_le ?_
      have : x ^ 2 ≤ S ^ 2 := sq_le_sq' hx.1 hx.2
      linarith
    have hd : D ≤ √(1 - cosH fa a x ^ 2) := by
      refine le_sqrt_of_sq_le ?_
      have hb := abs_le.mp (bd x hx')
      have : cosH fa a x ^ 2 ≤ C ^ 2 := sq_le_sq' (by linarith [hb.1]) hb.2
      linarith
    have hq0 : 0 < √(1 - x ^ 2) := by linarith
    have hd0 : 0 < √(1 - cosH fa a x ^ 2) := by linarith
    rw [Real.norm_eq_abs, abs_mul, abs_neg, abs_div, abs_div, abs_one, abs_of_pos hd0, abs_of_pos (mul_pos hf (pow_pos hq0 3)), div_mul_div_comm, one_mul,
      div_le_iff₀ (mul_pos hd0 (mul_pos hf (pow_pos hq0 3)))]
    have a1 : |sin a * x - sin fa| ≤ |sin a| * S + |sin fa| := by
      refine (abs_sub _ _).trans ?_
      rw [abs_mul]
      linarith [mul_le_mul_of_nonneg_left hx' (abs_nonneg (sin a))]
    have a2 : M * (cos fa * Q ^ 3 * D) ≤ M * (√(1 - cosH fa a x ^ 2) * (cos fa * √(1 - x ^ 2) ^ 3)) := by
      rw [mul_comm (√(1 - cosH fa a x ^ 2))]
      gcongr
    linarith
  have := (convex_Icc (-S) S).norm_image_sub_le_of_norm_hasDerivWithin_le der bound (abs_le.mp hs) (abs_le.mp hs')
  simpa only [Real.norm_eq_abs] using this

end Verif.Geom
