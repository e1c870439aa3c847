import Verif.Props.SunTimes2
import Mathlib.Analysis.SpecialFunctions.Trigonometric.Chebyshev.Basic

/-!
# C82: sunrise, sunset, twilight and noon of the built-in sun — the theorems
-/

namespace Verif.SunTimes

open Real Verif.Series Verif.Geom Verif.Longitude Verif.EphTab Verif.EqTime Verif.DeltaT

/-! ## Latitudes -/

theorem site_of {fa a σ κ α C D M : ℝ} (hf : 0 < cos fa) (hσ : |sin fa| ≤ σ) (hκ : 0 < κ) (hκσ : κ ^ 2 ≤ 1 - σ ^ 2) (hα : |sin a| ≤ α) (hC0 : 0 ≤ C) (hC : C ≤ 0.93) (hD : 0 < D)
    (hDC : D ^ 2 ≤ 1 - C ^ 2) (h : α + σ * 0.406 ≤ C * (κ * 0.9138)) (hM : α * 0.406 + σ ≤ M * (κ * 0.9138 ^ 3 * D)) (hM0 : 0 ≤ M) (hM1 : M ≤ 4.5) : Site fa a C D M := by
  have hc : κ ≤ cos fa := by
    refine abs_le_of_sq_le_sq' ?_ hf.le |>.2
    have h1 := sin_sq_add_cos_sq fa
    have h2 : sin fa ^ 2 ≤ σ ^ 2 := sq_le_sq' (by linarith [(abs_le.mp hσ).1]) (abs_le.mp hσ).2
    linarith
  have k1 : C * (κ * 0.9138) ≤ C * (cos fa * 0.9138) := mul_le_mul_of_nonneg_left (mul_le_mul_of_nonneg_right hc (by norm_num)) hC0
  have k2 : M * (κ * 0.9138 ^ 3 * D) ≤ M * (cos fa * 0.9138 ^ 3 * D) :=
    mul_le_mul_of_nonneg_left (mul_le_mul_of_nonneg_right (mul_le_mul_of_nonneg_right hc (by norm_num)) hD.le) hM0
  exact ⟨hf, hC, hD, hDC, by linarith, by linarith, hM0, hM1⟩

theorem lat_trig {fa θ σ : ℝ} (h : |fa| ≤ θ) (hθ : θ < π / 2) (hσ : sin θ ≤ σ) : 0 < cos fa ∧ |sin fa| ≤ σ := by
  have h1 := abs_le.mp h
  refine ⟨cos_pos_of_mem_Ioo ⟨by linarith [h1.1], by linarith [h1.2]⟩, ?_⟩
  refine le_trans ?_ hσ
  rw [abs_le]
  constructor
  · rw [← sin_neg]
    exact sin_le_sin_of_le_of_le_pi_div_two (by linarith [abs_nonneg fa]) (by linarith [h1.2]) h1.1
  · exact sin_le_sin_of_le_of_le_pi_div_two (by linarith [h1.1]) (by linarith) h1.2

theorem sin_low {x : ℝ} : |sin (-x)| ≤ |x| := by
  have := abs_sin_sub_sin (-x) 0
  rwa [sin_zero, sub_zero, sub_zero, abs_neg] at this

theorem site_rise {fa : ℝ} (h : |fa| ≤ π / 3) : Site fa (-(50 / 60) * (π / 180)) 0.8016 0.5978 3.825 := by
  have hp := pi_pos
  have hp2 := pi_lt_d6
  obtain ⟨h1, h2⟩ := lat_trig (σ := 0.86603) h (by linarith) (by
    rw [sin_pi_div_three]
    have : √3 ≤ 1.73206 := by rw [sqrt_le_left (by norm_num)]; norm_num
    norm_num at *; linarith)
  refine site_of (κ := 0.49999) (α := 0.01455) h1 h2 (by norm_num) (by norm_num) ?_ (by norm_num) (by norm_num) (by norm_num) (by norm_num) (by norm_num) (by norm_num) (by norm_num) (by norm_num)
  rw [neg_mul]
  refine sin_low.trans ?_
  rw [abs_of_pos (by positivity)]
  norm_num at *; linarith

theorem site_civil {fa : ℝ} (h : |fa| ≤ 3 * π / 10) : Site fa (-6 * (π / 180)) 0.807 0.5905 3.22 := by
  have hp := pi_pos
  have hp2 := pi_lt_d6
  obtain ⟨h1, h2⟩ := lat_trig (σ := 0.80902) h (by linarith) (by
    rw [show 3 * π / 10 = π / 2 - π / 5 by ring, sin_pi_div_two_sub, cos_pi_div_five]
    have : √5 ≤ 2.23607 := by rw [sqrt_le_left (by norm_num)]; norm_num
    norm_num at *; linarith)
  refine site_of (κ := 0.5877) (α := 0.10472) h1 h2 (by norm_num) (by norm_num) ?_ (by norm_num) (by norm_num) (by norm_num) (by norm_num) (by norm_num) (by norm_num) (by norm_num) (by norm_num)
  rw [neg_mul]
  refine sin_low.trans ?_
  rw [abs_of_pos (by positivity)]
  norm_num at *; linarith

theorem sin_45 : sin (π / 4) ≤ 0.70711 := by
  rw [sin_pi_div_four]
  have : √2 ≤ 1.41422 := by rw [sqrt_le_left (by norm_num)]; norm_num
  norm_num at *; linarith

theorem site_nautical {fa : ℝ} (h : |fa| ≤ π / 4) : Site fa (-12 * (π / 180)) 0.769 0.639 2.3 := by
  have hp := pi_pos
  have hp2 := pi_lt_d6
  obtain ⟨h1, h2⟩ := lat_trig (σ := 0.70711) h (by linarith) sin_45
  refine site_of (κ := 0.7071) (α := 0.20944) h1 h2 (by norm_num) (by norm_num) ?_ (by norm_num) (by norm_num) (by norm_num) (by norm_num) (by norm_num) (by norm_num) (by norm_num) (by norm_num)
  rw [neg_mul]
  refine sin_low.trans ?_
  rw [abs_of_pos (by positivity)]
  norm_num at *; linarith

theorem site_astro {fa : ℝ} (h : |fa| ≤ π / 4) : Site fa (-18 * (π / 180)) 0.9234 0.3838 4.03 := by
  have hp := pi_pos
  have hp2 := pi_lt_d6
  have hp1 := pi_gt_d6
  obtain ⟨h1, h2⟩ := lat_trig (σ := 0.70711) h (by linarith) sin_45
  refine site_of (κ := 0.7071) (α := 0.3095) h1 h2 (by norm_num) (by norm_num) ?_ (by norm_num) (by norm_num) (by norm_num) (by norm_num) (by norm_num) (by norm_num) (by norm_num) (by norm_num)
  rw [neg_mul, sin_neg, abs_neg]
  rw [abs_of_nonneg (sin_nonneg_of_nonneg_of_le_pi (by positivity) (by linarith))]
  have m : sin (18 * (π / 180)) ≤ sin 0.31416 := sin_le_sin_of_le_of_le_pi_div_two (by linarith) (by norm_num at *; linarith) (by norm_num at *; linarith)
  have q := abs_le.mp (sin_bound (x := 0.31416) (by rw [abs_le]; norm_num))
  have q2 := q.2
  rw [abs_of_pos (show (0 : ℝ) < 0.31416 by norm_num)] at q2
  norm_num at q2 m ⊢
  linarith

/-! ## The day -/

theorem day_of (b : Tab) (hb : Builtin b) (L : ℝ) {jd : ℝ} (h1 : -1095000 ≤ jd) (h2 : jd ≤ 365000) :
    |jd - mod2 (jd + L / (2 * π)) 1 - jd| ≤ 1 / 2 ∧ Day b L (dtDays jd) (hcjj (jd / 36525)) (jd - mod2 (jd + L / (2 * π)) 1) := by
  obtain ⟨⟨k, hk⟩, m1, m2⟩ := c55_mod2 (jd + L / (2 * π)) 1 (by norm_num)
  have hd := dtDays_size (x := jd) (by linarith) h2
  have near : |jd - mod2 (jd + L / (2 * π)) 1 - jd| ≤ 1 / 2 := by rw [abs_le]; constructor <;> linarith
  have hτ : |jd / 36525| ≤ 30 := by
    rw [abs_le]
    constructor
    · rw [le_div_iff₀ (by norm_num)]; linarith
    · rw [div_le_iff₀ (by norm_num)]; linarith
  obtain ⟨t1, t2⟩ := hcjj_trig hτ
  refine ⟨near, hb, t1, t2, hd, ?_, ⟨k, by linarith⟩⟩
  intro t ht
  have a := abs_le.mp near
  have c := abs_le.mp ht
  have e := abs_le.mp hd
  unfold cent
  rw [abs_le]
  constructor
  · rw [le_div_iff₀ (by norm_num)]
    norm_num at *; linarith [a.1, c.1, e.1]
  · rw [div_le_iff₀ (by norm_num)]
    norm_num at *; linarith [a.2, c.2, e.2]

/-- a morning and an evening -/
theorem found {b : Tab} {L dt E noon fa a C D M : ℝ} (d : Day b L dt E noon) (s : Site fa a C D M) {η : ℝ} (hη1 : η ≤ 1 / 10)
    (hη : (0.0026 + M * 0.0073) ^ 2 * 2.9416 ≤ 39.478 * (6.283 - (0.0026 + M * 0.0073)) * η) :
    (Found η (refine (sunBody b L dt E) (2 * π) noon (fun t => getH fa a ((sunBody b L dt E).dec t)) (-1)) (Morning (sunBody b L dt E) fa a noon)
      ∧ ∀ t, Morning (sunBody b L dt E) fa a noon t → sin ((sunBody b L dt E).H t) < 0)
    ∧ (Found η (refine (sunBody b L dt E) (2 * π) noon (fun t => getH fa a ((sunBody b L dt E).dec t)) 1) (Evening (sunBody b L dt E) fa a noon)
      ∧ ∀ t, Evening (sunBody b L dt E) fa a noon t → 0 < sin ((sunBody b L dt E).H t)) := by
  constructor
  · obtain ⟨t, c1, c2, c3, c4, c5, c6⟩ := crossing d s hη1 hη (sgn := -1) (Or.inr rfl)
    have c2' := abs_le.mp c2
    have only : ∀ t', Morning (sunBody b L dt E) fa a noon t' → t' = t := fun t' ⟨m1, m2, m3⟩ =>
      c6 t' (by linarith) (by rw [abs_le]; constructor <;> linarith) m3
    refine ⟨⟨t, ⟨by linarith [c2'.1], by linarith, c3⟩, only, c5⟩, fun t' ht' => ?_⟩
    rw [only t' ht']
    linarith
  · obtain ⟨t, c1, c2, c3, c4, c5, c6⟩ := crossing d s hη1 hη (sgn := 1) (Or.inl rfl)
    have c2' := abs_le.mp c2
    have only : ∀ t', Evening (sunBody b L dt E) fa a noon t' → t' = t := fun t' ⟨m1, m2, m3⟩ =>
      c6 t' (by linarith) (by rw [abs_le]; constructor <;> linarith) m3
    refine ⟨⟨t, ⟨by linarith, by linarith [c2'.2], c3⟩, only, c5⟩, fun t' ht' => ?_⟩
    rw [only t' ht']
    linarith

/-! ## The property -/

/-- the local mean noon nearest to `jd` at the longitude `L`: a whole number of days after the noon of 1 January 2000, local mean time -/
def NearestNoon (L jd noon : ℝ) : Prop := |noon - jd| ≤ 1 / 2 ∧ ∃ n : ℤ, noon + L / (2 * π) = n

/-- **C82 (sunrise and sunset).**  From −998 to 2999, for every longitude and every latitude up to 60°: on the local day whose mean noon is nearest to the given instant there is exactly one instant of
the morning and one of the evening at which the centre of the built-in sun stands 50′ below the horizon; it stands in the east and in the west then, and the answers for sunrise and sunset are within one
second of these instants. -/
theorem c82_sunrise (b : Tab) (hb : Builtin b) (L fa jd : ℝ) (h1 : -1095000 ≤ jd) (h2 : jd ≤ 365000) (hfa : |fa| ≤ π / 3) :
    ∃ r dt noon, sunTimes b L fa jd = some r ∧ dtTR jd = some dt ∧ NearestNoon L jd noon
      ∧ (Found (1 / 86400) r.s (Morning (sunBody b L dt (hcjj (jd / 36525))) fa (-(50 / 60) * (π / 180)) noon)
        ∧ ∀ t, Morning (sunBody b L dt (hcjj (jd / 36525))) fa (-(50 / 60) * (π / 180)) noon t → sin ((sunBody b L dt (hcjj (jd / 36525))).H t) < 0)
      ∧ (Found (1 / 86400) r.j (Evening (sunBody b L dt (hcjj (jd / 36525))) fa (-(50 / 60) * (π / 180)) noon)
        ∧ ∀ t, Evening (sunBody b L dt (hcjj (jd / 36525))) fa (-(50 / 60) * (π / 180)) noon t → 0 < sin ((sunBody b L dt (hcjj (jd / 36525))).H t)) := by
  obtain ⟨hn, d⟩ := day_of b hb L h1 h2
  refine ⟨St (sunBody b L (dtDays jd) (hcjj (jd / 36525))) L fa jd, dtDays jd, _, ?_, dtTR_days jd, ⟨hn, d.noon⟩, ?_⟩
  · unfold sunTimes
    rw [dtTR_days]
    rfl
  · have := found d (site_rise hfa) (η := 1 / 86400) (by norm_num) (by norm_num)
    rw [← alt_50] at this ⊢
    exact this

/-- **C82 (twilight).**  The same for civil twilight (6° below the horizon) up to 54° of latitude, nautical twilight (12°) up to 45°, within one second, and astronomical twilight (18°) up to 45°, within
1.1 seconds. -/
theorem c82_twilight (b : Tab) (hb : Builtin b) (L fa jd : ℝ) (h1 : -1095000 ≤ jd) (h2 : jd ≤ 365000) :
    ∃ r dt noon, sunTimes b L fa jd = some r ∧ dtTR jd = some dt ∧ NearestNoon L jd noon
      ∧ (|fa| ≤ 3 * π / 10 → Found (1 / 86400) r.c (Morning (sunBody b L dt (hcjj (jd / 36525))) fa (-6 * (π / 180)) noon)
        ∧ Found (1 / 86400) r.h (Evening (sunBody b L dt (hcjj (jd / 36525))) fa (-6 * (π / 180)) noon))
      ∧ (|fa| ≤ π / 4 → Found (1 / 86400) r.c2 (Morning (sunBody b L dt (hcjj (jd / 36525))) fa (-12 * (π / 180)) noon)
        ∧ Found (1 / 86400) r.h2 (Evening (sunBody b L dt (hcjj (jd / 36525))) fa (-12 * (π / 180)) noon))
      ∧ (|fa| ≤ π / 4 → Found (1.1 / 86400) r.c3 (Morning (sunBody b L dt (hcjj (jd / 36525))) fa (-18 * (π / 180)) noon)
        ∧ Found (1.1 / 86400) r.h3 (Evening (sunBody b L dt (hcjj (jd / 36525))) fa (-18 * (π / 180)) noon)) := by
  obtain ⟨hn, d⟩ := day_of b hb L h1 h2
  refine ⟨St (sunBody b L (dtDays jd) (hcjj (jd / 36525))) L fa jd, dtDays jd, _, ?_, dtTR_days jd, ⟨hn, d.noon⟩, ?_, ?_, ?_⟩
  · unfold sunTimes
    rw [dtTR_days]
    rfl
  · intro hfa
    have := found d (site_civil hfa) (η := 1 / 86400) (by norm_num) (by norm_num)
    rw [← alt_6] at this ⊢
    exact ⟨this.1.1, this.2.1⟩
  · intro hfa
    have := found d (site_nautical hfa) (η := 1 / 86400) (by norm_num) (by norm_num)
    rw [← alt_12] at this ⊢
    exact ⟨this.1.1, this.2.1⟩
  · intro hfa
    have := found d (site_astro hfa) (η := 1.1 / 86400) (by norm_num) (by norm_num)
    rw [← alt_18] at this ⊢
    exact ⟨this.1.1, this.2.1⟩

/-- **C82 (noon and midnight).**  For every longitude and latitude: the answer for the upper culmination is within a millisecond (10⁻⁸ days) of an instant at which the sun's hour angle is exactly a whole
number of turns, and that instant is within 35 minutes of the local mean noon; the answer for the lower culmination is within 10 ms of an instant with hour angle half a turn, within half a day and 35
minutes after that noon. -/
theorem c82_noon (b : Tab) (hb : Builtin b) (L fa jd : ℝ) (h1 : -1095000 ≤ jd) (h2 : jd ≤ 365000) :
    ∃ r dt noon, sunTimes b L fa jd = some r ∧ dtTR jd = some dt ∧ NearestNoon L jd noon
      ∧ (∃ t, |r.z - t| ≤ 1e-8 ∧ |t - noon| ≤ 35 / 1440 ∧ ∃ k : ℤ, (sunBody b L dt (hcjj (jd / 36525))).H t = 2 * π * k)
      ∧ (∃ t, |r.x - t| ≤ 1.1e-7 ∧ |t - (noon + 1 / 2)| ≤ 35 / 1440 ∧ ∃ k : ℤ, (sunBody b L dt (hcjj (jd / 36525))).H t = π + 2 * π * k) := by
  obtain ⟨hn, d⟩ := day_of b hb L h1 h2
  obtain ⟨noon, hnoon⟩ : ∃ noon, noon = jd - mod2 (jd + L / (2 * π)) 1 := ⟨_, rfl⟩
  obtain ⟨B, hB⟩ : ∃ B, B = sunBody b L (dtDays jd) (hcjj (jd / 36525)) := ⟨_, rfl⟩
  rw [← hnoon] at hn d
  have p1 := pi_gt_d6
  have p2 := pi_lt_d6
  have p0 : (0 : ℝ) < 2 * π := by linarith
  have sm := d.small (self_near noon)
  have hs0 : hS (dtDays jd) (hcjj (jd / 36525)) noon noon = eqt (dtDays jd) (hcjj (jd / 36525)) noon := by unfold hS; ring
  have big : (39.478 : ℝ) ≤ (2 * π) * (2 * π) := by
    have := mul_le_mul (by linarith : (6.283184 : ℝ) ≤ 2 * π) (by linarith : (6.283184 : ℝ) ≤ 2 * π) (by norm_num) (by linarith)
    refine le_trans ?_ this
    norm_num
  -- both culminations are refined times with a constant wanted hour angle
  have cul : ∀ (w η : ℝ), 0 ≤ w → w ≤ π → 0 ≤ η → η ≤ 0.001 → 0.0026 ^ 2 * (w + 0.15) ≤ 39.478 * 6.28 * η →
      ∃ t, |t - noon| ≤ 1 ∧ |refine B (2 * π) noon (fun _ => w) 1 - t| ≤ η ∧ 1 * w = hS (dtDays jd) (hcjj (jd / 36525)) noon t := fun w η w0 w1 hη0 hη1 hη => by
    have q1 : (w + 0.15) / (2 * π) ≤ 0.6 := by
      rw [div_le_iff₀ p0]; norm_num at *; linarith
    have q0 : 0 ≤ (w + 0.15) / (2 * π) := by positivity
    have q2 : (0.0026 + 0) * ((w + 0.15) / (2 * π)) / (2 * π) ≤ 0.001 := by
      rw [div_le_iff₀ p0]; norm_num at *; linarith
    rw [hB]
    refine refine_near (h := hS (dtDays jd) (hcjj (jd / 36525)) noon) (Hx := fun _ => w) (sv := 2 * π) (K₁ := 0.0026) (K₂ := 0) (m := noon) (r := 1) (A := w + 0.15) (η := η)
      (by norm_num) p0 (by norm_num) le_rfl (by norm_num; linarith) (fun t _ => d.turn t) d.start d.rate (fun s t _ _ => by simp) ?_ ?_ ?_ ?_
    · rw [hs0, one_mul]
      refine (abs_sub _ _).trans ?_
      rw [abs_of_nonneg w0]
      linarith
    · norm_num at *; linarith
    · rw [show (0.0026 + 0) * ((0.0026 + 0) * ((w + 0.15) / (2 * π))) / (2 * π) = 0.0026 ^ 2 * (w + 0.15) / ((2 * π) * (2 * π)) by field_simp; ring, div_le_iff₀ (by positivity)]
      refine hη.trans ?_
      have e2 : 6.28 * η ≤ (2 * π - (0.0026 + 0)) * η := mul_le_mul_of_nonneg_right (by norm_num at *; linarith) hη0
      have e3 := mul_le_mul e2 big (by norm_num) (mul_nonneg (by norm_num at *; linarith) hη0)
      linarith
    · norm_num at *; linarith
  have place : ∀ {t w : ℝ}, |t - noon| ≤ 1 → 1 * w = hS (dtDays jd) (hcjj (jd / 36525)) noon t → |2 * π * (t - noon) - w| ≤ 0.15 := fun {t w} ht h => by
    have := d.small ht
    rw [one_mul] at h
    rw [h]
    unfold hS
    rw [sub_add_cancel_left, abs_neg]
    exact this
  refine ⟨St B L fa jd, dtDays jd, noon, ?_, dtTR_days jd, ⟨hn, d.noon⟩, ?_, ?_⟩
  · unfold sunTimes
    rw [dtTR_days, hB]
    rfl
  · obtain ⟨t, c1, c2, c3⟩ := cul 0 1e-8 le_rfl pi_pos.le (by norm_num) (by norm_num) (by norm_num)
    refine ⟨t, ?_, ?_, ?_⟩
    · -- the unreduced correction is the reduced one
      have e : (St B L fa jd).z = refine B (2 * π) noon (fun _ => (0 : ℝ)) 1 := by
        obtain ⟨z, hz⟩ : ∃ z, z = noon + (0 - rrad (B.H noon)) / (2 * π) := ⟨_, rfl⟩
        have e1 : (St B L fa jd).z = z + (0 - rrad (B.H z)) / (2 * π) := by rw [hz, hnoon]; rfl
        have e2 : refine B (2 * π) noon (fun _ => (0 : ℝ)) 1 = z + rrad (0 - rrad (B.H z)) / (2 * π) := by
          rw [hz]
          unfold refine
          simp only [mul_zero]
        have st := d.start
        rw [← hB, hs0] at st
        have dz : z - noon = -(eqt (dtDays jd) (hcjj (jd / 36525)) noon / (2 * π)) := by rw [hz, st]; ring
        have bz : |z - noon| ≤ 0.15 := by
          rw [dz, abs_neg, abs_div, abs_of_pos p0, div_le_iff₀ p0]
          norm_num at *; linarith
        have near := d.rate noon z (self_near noon) (bz.trans (by norm_num))
        have hz1 : |hS (dtDays jd) (hcjj (jd / 36525)) noon z| ≤ 0.001 := by
          rw [hs0, show hS (dtDays jd) (hcjj (jd / 36525)) noon z - eqt (dtDays jd) (hcjj (jd / 36525)) noon - 2 * π * (z - noon) = hS (dtDays jd) (hcjj (jd / 36525)) noon z by
            rw [dz]; field_simp; ring] at near
          refine near.trans ?_
          norm_num at *; linarith
        obtain ⟨k, hk⟩ := d.turn z
        rw [← hB] at hk
        have b2 := abs_le.mp hz1
        have rz : rrad (B.H z) = hS (dtDays jd) (hcjj (jd / 36525)) noon z := by
          refine c36_rrad_unique _ _ ⟨?_, ?_⟩ (-k) ?_
          · norm_num at *; linarith
          · norm_num at *; linarith
          · rw [hk]; push_cast; ring
        rw [e1, e2, rz, c36_rrad_id _ ⟨by norm_num at *; linarith, by norm_num at *; linarith⟩]
      rw [e]; exact c2
    · have := place c1 c3
      rw [sub_zero, abs_mul, abs_of_pos p0] at this
      have h6 := mul_le_mul_of_nonneg_right (by linarith : (6.283 : ℝ) ≤ 2 * π) (abs_nonneg (t - noon))
      norm_num at *
      linarith
    · obtain ⟨k, hk⟩ := d.turn t
      exact ⟨k, by rw [hk, ← c3]; ring⟩
  · obtain ⟨t, c1, c2, c3⟩ := cul π 1.1e-7 pi_pos.le le_rfl (by norm_num) (by norm_num) (by norm_num at *; linarith)
    refine ⟨t, ?_, ?_, ?_⟩
    · have e : (St B L fa jd).x = refine B (2 * π) noon (fun _ => π) 1 := by
        rw [hnoon]
        unfold refine St
        simp only [one_mul]
      rw [e]; exact c2
    · have := place c1 c3
      rw [show 2 * π * (t - noon) - π = 2 * π * (t - (noon + 1 / 2)) by ring, abs_mul, abs_of_pos p0] at this
      have h6 := mul_le_mul_of_nonneg_right (by linarith : (6.283 : ℝ) ≤ 2 * π) (abs_nonneg (t - (noon + 1 / 2)))
      norm_num at *
      linarith
    · obtain ⟨k, hk⟩ := d.turn t
      exact ⟨k, by rw [hk, ← c3]; ring⟩

/-- **C82 (no remark).**  Up to 45° of latitude none of the eight remarks appears. -/
theorem c82_no_remark (b : Tab) (hb : Builtin b) (L fa jd : ℝ) (h1 : -1095000 ≤ jd) (h2 : jd ≤ 365000) (hfa : |fa| ≤ π / 4) :
    ∃ r, sunTimes b L fa jd = some r ∧ r.sm = "" := by
  obtain ⟨-, d⟩ := day_of b hb L h1 h2
  have hp := pi_pos
  refine ⟨_, by unfold sunTimes; rw [dtTR_days]; rfl, ?_⟩
  have none : ∀ {a C D M : ℝ}, Site fa a C D M → ∀ (sv m sgn : ℝ) (s : String),
      remark (sunBody b L (dtDays jd) (hcjj (jd / 36525))) sv m (fun t => getH fa a ((sunBody b L (dtDays jd) (hcjj (jd / 36525))).dec t)) sgn s = "" := by
    intro a C D M s sv m sgn txt
    unfold remark
    rw [if_neg]
    intro h
    have := (s.hour_in d (m + (sgn * getH fa a ((sunBody b L (dtDays jd) (hcjj (jd / 36525))).dec m) - rrad ((sunBody b L (dtDays jd) (hcjj (jd / 36525))).H m)) / sv)).2
    simp only at h
    rw [h] at this
    norm_num at this
  have s1 := site_rise (fa := fa) (by linarith)
  have s2 := site_civil (fa := fa) (by linarith)
  have s3 := site_nautical hfa
  have s4 := site_astro hfa
  rw [← alt_50] at s1
  rw [← alt_6] at s2
  rw [← alt_12] at s3
  rw [← alt_18] at s4
  show remark _ _ _ _ _ _ ++ remark _ _ _ _ _ _ ++ remark _ _ _ _ _ _ ++ remark _ _ _ _ _ _ ++ remark _ _ _ _ _ _ ++ remark _ _ _ _ _ _ ++ remark _ _ _ _ _ _ ++ remark _ _ _ _ _ _ = ""
  rw [none s1, none s1, none s2, none s2, none s3, none s3, none s4, none s4]
  rfl

/-- Beijing on 1 January 2000: the hypotheses of all of these hold. -/
example (b : Tab) (hb : Builtin b) : ∃ r, sunTimes b (116.4 * (π / 180)) (39.9 * (π / 180)) 0 = some r ∧ r.sm = "" :=
  c82_no_remark b hb _ _ 0 (by norm_num) (by norm_num) (by rw [abs_of_pos (by positivity)]; norm_num; linarith [pi_pos])

end Verif.SunTimes
