import Verif.Props.LonMoon

/-!
# The moon's longitude against its mean motion and the speed functions (used by C75)
-/

namespace Verif.Longitude

open Real Verif.Series Verif.EphTab

theorem Bd.restrict {R R' B : ℝ} {f : ℝ → ℝ} (h : Bd R f B) (hR : R' ≤ R) : Bd R' f B := fun t ht => h t (ht.trans hR)
theorem Lip.restrict {R R' K : ℝ} {f : ℝ → ℝ} (h : Lip R f K) (hR : R' ≤ R) : Lip R' f K := fun s t hs ht => h s t (hs.trans hR) (ht.trans hR)
theorem Near.restrict {R R' K1 K2 : ℝ} {f v : ℝ → ℝ} (h : Near R f v K1 K2) (hR : R' ≤ R) : Near R' f v K1 K2 :=
  fun s t hs ht => h s t (hs.trans hR) (ht.trans hR)

theorem radSec_gt' : 206264.7 < radSec := by
  unfold radSec
  rw [lt_div_iff₀ pi_pos]
  have := pi_lt_d6
  norm_num at *; linarith
theorem radSec_lt' : radSec < 206264.9 := by
  unfold radSec
  rw [div_lt_iff₀ pi_pos]
  have := pi_gt_d6
  norm_num at *; linarith

/-- a quantity in arc seconds divided by `rad` -/
theorem div_radSec {A lo hi : ℝ} (h0 : 0 ≤ lo) (h1 : lo * 206264.9 ≤ A) (h2 : A ≤ hi * 206264.7) : lo ≤ A / radSec ∧ A / radSec ≤ hi := by
  have r1 := radSec_gt'
  have r2 := radSec_lt'
  have r0 : 0 < radSec := by norm_num at r1; linarith
  have hhi : 0 ≤ hi := by
    have : (0 : ℝ) ≤ hi * 206264.7 := le_trans (by positivity) (h1.trans h2)
    norm_num at this
    linarith
  rw [le_div_iff₀ r0, div_le_iff₀ r0]
  constructor
  · exact (mul_le_mul_of_nonneg_left r2.le h0).trans h1
  · exact h2.trans (mul_le_mul_of_nonneg_left r1.le hhi)

/-- a term of the series against a term of the speed -/
theorem near_term {R A b w x y z V φ Ω κ d e δ a1 : ℝ} (hR : 0 ≤ R) (hA : 0 ≤ A) (hA1 : A ≤ a1 * 206264.7) (hw : 0 ≤ w) (hd : d ≤ V) (hd0 : 0 ≤ d)
    (h1 : (V - d) * 206264.9 ≤ A * w) (h2 : A * w ≤ (V + d) * 206264.7)
    (he : |b - φ| + R * |w - Ω| + R ^ 2 * |x / 1e4 - κ| + R ^ 3 * (|y| / 1e8) + R ^ 4 * (|z| / 1e8) ≤ e)
    (hδ : 2 * R * |x| / 1e4 + 3 * R ^ 2 * |y| / 1e8 + 4 * R ^ 3 * |z| / 1e8 ≤ δ) :
    Near R (fun t => A * cos (ph b w x y z t) / radSec) (fun s => -(V * sin (φ + Ω * s + κ * s * s))) (a1 * δ + d + V * e) (a1 * (w + δ) ^ 2 / 2) := by
  have r1 := radSec_gt'
  have r0 : 0 < radSec := by norm_num at r1; linarith
  have hδ0 : 0 ≤ δ := le_trans (by positivity) hδ
  have ha0 : 0 ≤ A / radSec := by positivity
  have ha1 : A / radSec ≤ a1 := (div_radSec (le_refl 0) (by simpa using hA) hA1).2
  have hn := Near.cosP hR (ph b w x y z) w δ (A / radSec) 0 hw hδ0 (fun s t hs ht => (ph_lip hR b w x y z hs ht).trans
    (mul_le_mul_of_nonneg_right hδ (abs_nonneg _)))
  have hd' : |A / radSec * w - V| ≤ d := by
    have := div_radSec (A := A * w) (lo := V - d) (hi := V + d) (by linarith) h1 h2
    rw [mul_div_right_comm] at this
    rw [abs_le]
    constructor <;> linarith
  have hs := hn.speed (w := fun s => -(V * sin (φ + Ω * s + κ * s * s))) (L := d + V * e) (fun s hs => by
    have hV : 0 ≤ V := by linarith
    have e1 : -(A / radSec * w * s ^ 0 * sin (ph b w x y z s)) - -(V * sin (φ + Ω * s + κ * s * s))
        = -((A / radSec * w - V) * sin (ph b w x y z s)) - V * (sin (ph b w x y z s) - sin (φ + Ω * s + κ * s * s)) := by rw [pow_zero]; ring
    rw [e1]
    refine (abs_sub _ _).trans (add_le_add ?_ ?_)
    · rw [abs_neg, abs_mul]
      have := mul_le_mul hd' (abs_sin_le_one (ph b w x y z s)) (abs_nonneg _) hd0
      linarith
    · rw [abs_mul, abs_of_nonneg hV]
      refine mul_le_mul_of_nonneg_left ((abs_sin_sub_sin _ _).trans (le_trans ?_ he)) hV
      have e2 : ph b w x y z s - (φ + Ω * s + κ * s * s)
          = (b - φ) + s * (w - Ω) + s ^ 2 * (x / 1e4 - κ) + s ^ 3 * (y / 1e8) + s ^ 4 * (z / 1e8) := by unfold ph; ring
      rw [e2]
      have tri : ∀ a b c d x : ℝ, |a + b + c + d + x| ≤ |a| + |b| + |c| + |d| + |x| := fun a b c d x => by
        have h2 := abs_add_le (a + b + c + d) x
        have h3 := abs_add_le (a + b + c) d
        have h4 := abs_add_le (a + b) c
        have h5 := abs_add_le a b
        linarith
      refine (tri _ _ _ _ _).trans ?_
      rw [abs_mul, abs_mul, abs_mul, abs_mul, abs_div, abs_div, abs_of_pos (show (0 : ℝ) < 1e8 by norm_num)]
      have q2 : |s ^ 2| ≤ R ^ 2 := Bd.pow hR 2 s hs
      have q3 : |s ^ 3| ≤ R ^ 3 := Bd.pow hR 3 s hs
      have q4 : |s ^ 4| ≤ R ^ 4 := Bd.pow hR 4 s hs
      gcongr)
  refine (hs.congr (fun t => by rw [pow_zero]; ring) (fun t => rfl)).mono ?_ ?_
  · simp only [pow_zero, CharP.cast_eq_zero, zero_mul, add_zero, one_mul]
    rw [abs_of_nonneg ha0]
    have := mul_le_mul_of_nonneg_right ha1 hδ0
    linarith
  · rw [abs_of_nonneg ha0, pow_zero, mul_one]
    gcongr

/-! ## Polynomials -/

theorem poly_lip {R : ℝ} (hR : 0 ≤ R) {c1 c2 c3 c4 c5 b1 b2 b3 b4 b5 : ℝ} (h1 : |c1| ≤ b1) (h2 : |c2| ≤ b2) (h3 : |c3| ≤ b3) (h4 : |c4| ≤ b4) (h5 : |c5| ≤ b5) :
    Lip R (fun t => c1 * t ^ 1 + c2 * t ^ 2 + c3 * t ^ 3 + c4 * t ^ 4 + c5 * t ^ 5) (b1 + b2 * (2 * R) + b3 * (3 * R ^ 2) + b4 * (4 * R ^ 3) + b5 * (5 * R ^ 4)) := by
  refine ((((((Lip.pow hR 1).smul c1).add ((Lip.pow hR 2).smul c2)).add ((Lip.pow hR 3).smul c3)).add ((Lip.pow hR 4).smul c4)).add ((Lip.pow hR 5).smul c5)).mono ?_
  norm_num
  gcongr
theorem poly_bd {R : ℝ} (hR : 0 ≤ R) {c1 c2 c3 c4 c5 b1 b2 b3 b4 b5 : ℝ} (h1 : |c1| ≤ b1) (h2 : |c2| ≤ b2) (h3 : |c3| ≤ b3) (h4 : |c4| ≤ b4) (h5 : |c5| ≤ b5) :
    Bd R (fun t => c1 * t ^ 1 + c2 * t ^ 2 + c3 * t ^ 3 + c4 * t ^ 4 + c5 * t ^ 5) (b1 * R + b2 * R ^ 2 + b3 * R ^ 3 + b4 * R ^ 4 + b5 * R ^ 5) := by
  refine ((((((Bd.pow hR 1).smul c1).add ((Bd.pow hR 2).smul c2)).add ((Bd.pow hR 3).smul c3)).add ((Bd.pow hR 4).smul c4)).add ((Bd.pow hR 5).smul c5)).mono ?_
  rw [pow_one]
  gcongr

/-- the mean longitude without the terms added after the year 3000 -/
noncomputable def meanS (t : ℝ) : ℝ :=
  (3.81034409 + 8399.684730072 * t - 3.319e-05 * (t * t) + 3.11e-08 * (t * t * t) - 2.033e-10 * (t * t * t * t)) * radSec
    + (5028.792262 * t + 1.1124406 * (t * t) + 0.00007699 * (t * t * t) - 0.000023479 * (t * t * t * t) - 0.0000000178 * (t * t * t * t * t))

theorem moonMean_meanS {t : ℝ} (h : t ≤ 10) : moonMean t = meanS t := by
  unfold moonMean meanS
  simp only
  rw [if_neg (by linarith), add_zero]

/-- what the mean longitude contains beyond second order and rounding -/
noncomputable def polyM (t : ℝ) : ℝ :=
  (5028.792262 / radSec - 0.0243803) * t ^ 1 + (1.1124406 / radSec - 0.0000053933) * t ^ 2 + (3.11e-08 + 0.00007699 / radSec) * t ^ 3
    + (-2.033e-10 - 0.000023479 / radSec) * t ^ 4 + (-(0.0000000178 / radSec)) * t ^ 5

theorem meanS_eq (t : ℝ) : meanS t / radSec = 3.81034409 + 8399.709110372 * t + -0.0000277967 * t ^ 2 + polyM t := by
  have r1 := radSec_gt'
  have r0 : radSec ≠ 0 := by norm_num at r1; linarith
  unfold meanS polyM
  field_simp
  ring

theorem polyM_coef : |5028.792262 / radSec - 0.0243803| ≤ 0.0000001 ∧ |1.1124406 / radSec - 0.0000053933| ≤ 0.0000000001 ∧ |3.11e-08 + 0.00007699 / radSec| ≤ 0.0000000315
    ∧ |-2.033e-10 - 0.000023479 / radSec| ≤ 0.00000000032 ∧ |-(0.0000000178 / radSec)| ≤ 0.0000000000001 := by
  have h1 := div_radSec (A := 5028.792262) (lo := 0.0243802) (hi := 0.0243804) (by norm_num) (by norm_num) (by norm_num)
  have h2 := div_radSec (A := 1.1124406) (lo := 0.0000053932) (hi := 0.0000053934) (by norm_num) (by norm_num) (by norm_num)
  have h3 := div_radSec (A := 0.00007699) (lo := 0) (hi := 0.0000000004) (by norm_num) (by norm_num) (by norm_num)
  have h4 := div_radSec (A := 0.000023479) (lo := 0) (hi := 0.000000000115) (by norm_num) (by norm_num) (by norm_num)
  have h5 := div_radSec (A := 0.0000000178) (lo := 0) (hi := 0.0000000000001) (by norm_num) (by norm_num) (by norm_num)
  simp only [abs_le]
  norm_num at *
  refine ⟨⟨?_, ?_⟩, ⟨?_, ?_⟩, ⟨?_, ?_⟩, ⟨?_, ?_⟩, ⟨?_, ?_⟩⟩ <;> linarith

theorem polyM_lip {R : ℝ} (hR : 0 ≤ R) : Lip R polyM (0.0000001 + 0.0000000001 * (2 * R) + 0.0000000315 * (3 * R ^ 2) + 0.00000000032 * (4 * R ^ 3) + 0.0000000000001 * (5 * R ^ 4)) := by
  obtain ⟨h1, h2, h3, h4, h5⟩ := polyM_coef
  exact poly_lip hR h1 h2 h3 h4 h5
theorem polyM_bd {R : ℝ} (hR : 0 ≤ R) : Bd R polyM (0.0000001 * R + 0.0000000001 * R ^ 2 + 0.0000000315 * R ^ 3 + 0.00000000032 * R ^ 4 + 0.0000000000001 * R ^ 5) := by
  obtain ⟨h1, h2, h3, h4, h5⟩ := polyM_coef
  exact poly_bd hR h1 h2 h3 h4 h5

end Verif.Longitude
