import Verif.Props.LonSun

/-!
# Nutation and aberration in longitude (used by C74)
-/

namespace Verif.Longitude

open Real Verif.Series Verif.EphTab

/-- a sine with a quadratic phase -/
noncomputable def sq (a b c t : ℝ) : ℝ := sin (a + b * t + c * (t * t))

theorem sq_lip (a b c : ℝ) : Lip 30 (sq a b c) (|b| + 60 * |c|) := by
  intro s t hs ht
  unfold sq
  refine (abs_sin_sub_sin _ _).trans ?_
  rw [show a + b * t + c * (t * t) - (a + b * s + c * (s * s)) = (b + c * (t + s)) * (t - s) by ring, abs_mul]
  refine mul_le_mul_of_nonneg_right ((abs_add_le _ _).trans (add_le_add le_rfl ?_)) (abs_nonneg _)
  rw [abs_mul]
  have := abs_add_le t s
  nlinarith [abs_nonneg c]
theorem sq_bd (a b c : ℝ) : Bd 30 (sq a b c) 1 := fun t _ => abs_sin_le_one _

/-- nutation in longitude with the built-in table -/
noncomputable def nutR (t : ℝ) : ℝ :=
  ((-1720 + -1.742 * t) * sq 2.1824 (-33.75705) 0.000036 t + -132 * sq 3.5069 1256.66393 0.000011 t + -23 * sq 1.3375 16799.4182 (-0.000051) t
    + 21 * sq 4.3649 (-67.5141) 0.000072 t + -14 * sq 0.04 (-628.302) 0 t + 7 * sq 2.36 8328.691 0 t + -5 * sq 3.46 1884.966 0 t
    + -4 * sq 5.44 16833.175 0 t + -3 * sq 3.69 25128.11 0 t + 2 * sq 3.55 628.362 0 t) / 100 / radSec

theorem nutB_eq (b : Tab) (hb : Builtin b) (t : ℝ) : nutationLon2 b.nutB t = some (nutR t) := by
  rw [hb.2.2]
  unfold nutationLon2 nutLonLoop
  simp [nutBI, nutBI_0, nutLonLoop, dec]
  unfold nutR sq
  congr 2
  norm_num

theorem Lip.divR {R K : ℝ} {f : ℝ → ℝ} (h : Lip R f K) : Lip R (fun t => f t / 100 / radSec) (K / 20626400) := fun s t hs ht => by
  have hr := radSec_gt
  have := h s t hs ht
  have h0 : (0 : ℝ) < 100 * radSec := by linarith
  rw [show f t / 100 / radSec - f s / 100 / radSec = (f t - f s) / (100 * radSec) by rw [div_div, div_div, sub_div], abs_div, abs_of_pos h0, div_le_iff₀ h0]
  have hk : 0 ≤ K * |t - s| := (abs_nonneg _).trans this
  rw [show K / 20626400 * |t - s| * (100 * radSec) = K * |t - s| * (radSec / 206264) by ring]
  have : 1 ≤ radSec / 206264 := by rw [le_div_iff₀ (by norm_num)]; linarith
  nlinarith
theorem Bd.divR {R B : ℝ} {f : ℝ → ℝ} (h : Bd R f B) : Bd R (fun t => f t / 100 / radSec) (B / 20626400) := fun t ht => by
  have hr := radSec_gt
  have := h t ht
  have h0 : (0 : ℝ) < 100 * radSec := by linarith
  show |f t / 100 / radSec| ≤ _
  rw [div_div, abs_div, abs_of_pos h0, div_le_iff₀ h0]
  have hk : 0 ≤ B := (abs_nonneg _).trans this
  rw [show B / 20626400 * (100 * radSec) = B * (radSec / 206264) by ring]
  have : 1 ≤ radSec / 206264 := by rw [le_div_iff₀ (by norm_num)]; linarith
  nlinarith

theorem nutA_lip : Lip 30 (fun t => (-1720 + -1.742 * t)) 1.742 := by
  have := (Lip.const (R := 30) (-1720)).add ((Lip.id (R := 30)).smul (-1.742))
  refine this.mono ?_
  norm_num [abs_of_neg, abs_of_pos]
theorem nutA_bd : Bd 30 (fun t => (-1720 + -1.742 * t)) 1772.26 := by
  intro t ht
  rw [abs_le] at *
  constructor <;> norm_num at * <;> linarith

theorem nutR_lip : Lip 30 nutR 0.0406 := by
  have h1 := nutA_lip.mul (sq_lip 2.1824 (-33.75705) 0.000036) nutA_bd (sq_bd 2.1824 (-33.75705) 0.000036)
  refine ((((((((((h1.add ((sq_lip 3.5069 1256.66393 0.000011).smul (-132))).add ((sq_lip 1.3375 16799.4182 (-0.000051)).smul (-23))).add
    ((sq_lip 4.3649 (-67.5141) 0.000072).smul 21)).add ((sq_lip 0.04 (-628.302) 0).smul (-14))).add ((sq_lip 2.36 8328.691 0).smul 7)).add
    ((sq_lip 3.46 1884.966 0).smul (-5))).add ((sq_lip 5.44 16833.175 0).smul (-4))).add ((sq_lip 3.69 25128.11 0).smul (-3))).add
    ((sq_lip 3.55 628.362 0).smul 2)).divR).mono ?_
  norm_num [abs_of_neg, abs_of_pos]
theorem nutR_bd : Bd 30 nutR 0.000097 := by
  have h1 := nutA_bd.mul (sq_bd 2.1824 (-33.75705) 0.000036) (by norm_num)
  refine ((((((((((h1.add ((sq_bd 3.5069 1256.66393 0.000011).smul (-132))).add ((sq_bd 1.3375 16799.4182 (-0.000051)).smul (-23))).add
    ((sq_bd 4.3649 (-67.5141) 0.000072).smul 21)).add ((sq_bd 0.04 (-628.302) 0).smul (-14))).add ((sq_bd 2.36 8328.691 0).smul 7)).add
    ((sq_bd 3.46 1884.966 0).smul (-5))).add ((sq_bd 5.44 16833.175 0).smul (-4))).add ((sq_bd 3.69 25128.11 0).smul (-3))).add
    ((sq_bd 3.55 628.362 0).smul 2)).divR).mono ?_
  norm_num [abs_of_neg, abs_of_pos]

theorem ecc_lip : Lip 30 (fun t => 0.016708634 - 0.000042037 * t - 0.0000001267 * t * t) 0.00005 := by
  intro s t hs ht
  rw [show 0.016708634 - 0.000042037 * t - 0.0000001267 * t * t - (0.016708634 - 0.000042037 * s - 0.0000001267 * s * s)
    = -(0.000042037 + 0.0000001267 * (t + s)) * (t - s) by ring, abs_mul, abs_neg]
  refine mul_le_mul_of_nonneg_right ?_ (abs_nonneg _)
  rw [abs_le] at *
  constructor <;> norm_num at * <;> linarith
theorem ecc_bd : Bd 30 (fun t => 0.016708634 - 0.000042037 * t - 0.0000001267 * t * t) 0.01821 := by
  intro t ht
  have h2 : |t * t| ≤ 900 := by rw [abs_mul]; nlinarith [abs_nonneg t]
  show |0.016708634 - 0.000042037 * t - 0.0000001267 * t * t| ≤ _
  rw [mul_assoc (0.0000001267 : ℝ)]
  rw [abs_le] at *
  constructor <;> norm_num at * <;> linarith

theorem gxcCos (t : ℝ) : cos (-0.043126 + 628.301955 * t - 0.000002732 * t * t) = sq (-0.043126 + π / 2) 628.301955 (-0.000002732) t := by
  unfold sq
  rw [← sin_add_pi_div_two]
  congr 1
  ring

theorem gxc_eq (t : ℝ) : gxcSunLon t = (-2049.552 + -2049.552 * ((0.016708634 - 0.000042037 * t - 0.0000001267 * t * t)
    * sq (-0.043126 + π / 2) 628.301955 (-0.000002732) t)) / 100 / radSec := by
  unfold gxcSunLon
  simp only
  rw [gxcCos]
  rw [div_div, mul_comm 100 radSec, ← div_div]
  norm_num
  ring

theorem gxc_lip : Lip 30 gxcSunLon 0.0012 := by
  have := ecc_lip.mul (sq_lip (-0.043126 + π / 2) 628.301955 (-0.000002732)) ecc_bd (sq_bd (-0.043126 + π / 2) 628.301955 (-0.000002732))
  refine ((((Lip.const (-2049.552)).add (this.smul (-2049.552))).divR).congr gxc_eq).mono ?_
  norm_num [abs_of_neg, abs_of_pos]
theorem gxc_bd : Bd 30 gxcSunLon 0.000102 := by
  have := ecc_bd.mul (sq_bd (-0.043126 + π / 2) 628.301955 (-0.000002732)) (by norm_num)
  refine ((((Bd.const (-2049.552)).add (this.smul (-2049.552))).divR).congr gxc_eq).mono ?_
  norm_num [abs_of_neg, abs_of_pos]

/-! ## The apparent longitude of the sun -/

/-- `S_aLon(t, n)` as a real function -/
noncomputable def sR (n : ℤ) (t : ℝ) : ℝ := eR n t + nutR t + gxcSunLon t + π

theorem sALon_sR (b : Tab) (hb : Builtin b) (t : ℝ) (n : ℤ) (hn : n ≤ 600000) : sALon b t n = some (sR n t) := by
  unfold sALon
  rw [eLon_eR b hb t n hn, nutB_eq b hb]
  rfl

theorem sR_near (n : ℤ) (h0 : 3 ≤ useE n 0) (h1 : 2 ≤ useE n 1) (h2 : 2 ≤ useE n 2) : Near 30 (sR n) eV 0.772 16500 := by
  refine (((((eR_near n h0 h1 h2).add (Near.of_lip nutR_lip)).add (Near.of_lip gxc_lip)).add (Near.of_lip (Lip.const π))).congr (fun t => rfl) (fun t => by ring)).mono ?_ ?_ <;> norm_num

theorem sR_mean (n : ℤ) (h0 : 1 ≤ useE n 0) (h1 : 1 ≤ useE n 1) :
    Bd 30 (fun t => sR n t - (1.7534704567 + π + 628.33196674749 * t)) 0.0467 := by
  refine ((((eR_mean n h0 h1).add nutR_bd).add gxc_bd).congr (fun t => by unfold sR; ring)).mono ?_
  norm_num

theorem eV_bds (t : ℝ) (ht : |t| ≤ 30) : 602 ≤ eV t ∧ eV t ≤ 655 := by
  unfold eV
  simp only
  have e1 := abs_sin_le_one (1.527 + 628.307585 * t)
  have e2 := abs_sin_le_one (1.48 + 628.307585 * t * 2)
  have e3 : |sin (5.82 + 628.307585 * t) * t| ≤ 30 := by
    rw [abs_mul]; have := mul_le_mul (abs_sin_le_one (5.82 + 628.307585 * t)) ht (abs_nonneg _) (by norm_num); linarith
  have e4 : |sin (4.21 + 628.307585 * t) * t * t| ≤ 900 := by
    have h2 : |t * t| ≤ 900 := by rw [abs_mul]; nlinarith [abs_nonneg t]
    rw [mul_assoc, abs_mul]; have := mul_le_mul (abs_sin_le_one (4.21 + 628.307585 * t)) h2 (abs_nonneg _) (by norm_num); linarith
  rw [mul_assoc (0.129 : ℝ), mul_assoc (0.00055 * sin (4.21 + 628.307585 * t)), mul_assoc (0.00055 : ℝ), ← mul_assoc (sin (4.21 + 628.307585 * t))]
  rw [abs_le] at *
  norm_num at *
  constructor <;> linarith

end Verif.Longitude
