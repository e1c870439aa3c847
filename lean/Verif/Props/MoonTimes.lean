import Verif.SunTimes
import Verif.Props.RefineTime

/-!
# C82: moonrise and moonset for any lunar motion of bounded speed
-/

namespace Verif.SunTimes

open Real Verif.Series Verif.Geom

/-- the instant nearest to `jd` at which the mean moon culminates, as the program takes it -/
noncomputable def moonStart (L dt jd : ℝ) : ℝ := jd - mod2 (0.1726222 + 0.966136808032357 * jd - 0.0366 * dt + L / (2 * π)) 1

/-- the hour angle of the moon can be followed continuously by `h` around the instant `m`; it turns at 0.966 turns a day to within `K₁`, and the hour angle of rising and setting changes by at most `K₂` a day -/
structure LunarMotion (place : ℝ → V3) (L fa dt m : ℝ) (h : ℝ → ℝ) (K₁ K₂ : ℝ) : Prop where
  turn : ∀ t, |t - m| ≤ 1.08 → ∃ k : ℤ, (moonBody place L dt).H t = h t + 2 * π * k
  start : -π < h m ∧ h m ≤ π
  rate : ∀ s t, |s - m| ≤ 1.08 → |t - m| ≤ 1.08 → |h t - h s - 2 * π * 0.966 * (t - s)| ≤ K₁ * |t - s|
  want : ∀ s t, |s - m| ≤ 1.08 → |t - m| ≤ 1.08 → |getH fa (moonAlt (place t).z) (place t).y - getH fa (moonAlt (place s).z) (place s).y| ≤ K₂ * |t - s|

theorem LunarMotion.begin {place : ℝ → V3} {L fa dt m : ℝ} {h : ℝ → ℝ} {K₁ K₂ : ℝ} (l : LunarMotion place L fa dt m h K₁ K₂) : rrad ((moonBody place L dt).H m) = h m := by
  obtain ⟨k, hk⟩ := l.turn m (by rw [sub_self, abs_zero]; norm_num)
  refine c36_rrad_unique _ _ l.start (-k) ?_
  rw [hk]; push_cast; ring

/-- one time of the moon -/
theorem moon_near {place : ℝ → V3} {L fa dt m : ℝ} {h : ℝ → ℝ} {K₁ K₂ : ℝ} (l : LunarMotion place L fa dt m h K₁ K₂) (k1 : 0 ≤ K₁) (k2 : 0 ≤ K₂) (hK : K₁ + K₂ ≤ 0.2)
    {Hx : ℝ → ℝ} (hin : 0 ≤ Hx m ∧ Hx m ≤ π) (hx : ∀ s t, |s - m| ≤ 1.08 → |t - m| ≤ 1.08 → |Hx t - Hx s| ≤ K₂ * |t - s|) {sgn : ℝ} (hs : |sgn| ≤ 1) :
    ∃ t, |refine (moonBody place L dt) (2 * π * 0.966) m Hx sgn - t| ≤ 0.0291 * (K₁ + K₂) ^ 2 ∧ |t - m| ≤ 1.08 ∧ ∃ k : ℤ, (moonBody place L dt).H t = sgn * Hx t + 2 * π * k := by
  have p1 := pi_gt_d6
  have p2 := pi_lt_d6
  obtain ⟨K, hKe⟩ : ∃ K, K = K₁ + K₂ := ⟨_, rfl⟩
  obtain ⟨sv, hsv⟩ : ∃ sv, sv = 2 * π * 0.966 := ⟨_, rfl⟩
  have sv1 : 6.0695 ≤ sv := by rw [hsv]; norm_num at *; linarith
  have sv2 : sv ≤ 6.07 := by rw [hsv]; norm_num at *; linarith
  have sv0 : 0 < sv := by norm_num at *; linarith
  have K0 : 0 ≤ K := by rw [hKe]; linarith
  rw [← hKe] at hK
  have d1 : 6.2832 / sv ≤ 1.0353 := by rw [div_le_iff₀ sv0]; norm_num at *; linarith
  have d0 : 0 ≤ 6.2832 / sv := by positivity
  have d2 : K * (6.2832 / sv) ≤ 0.2071 := (mul_le_mul hK d1 d0 (by norm_num)).trans (by norm_num)
  have d3 : K * (6.2832 / sv) / sv ≤ 0.035 := by rw [div_le_iff₀ sv0]; norm_num at *; linarith
  have K2 : K ^ 2 ≤ 0.04 := (pow_le_pow_left₀ K0 hK 2).trans (by norm_num)
  have K20 := sq_nonneg K
  have A : |sgn * Hx m - h m| ≤ 6.2832 := by
    refine (abs_sub _ _).trans ?_
    rw [abs_mul, abs_of_nonneg hin.1]
    have a1 := mul_le_mul hs hin.2 hin.1 (by norm_num)
    have a2 : |h m| ≤ π := by rw [abs_le]; exact ⟨l.start.1.le, l.start.2⟩
    norm_num at *; linarith
  obtain ⟨t, t1, t2, t3⟩ := refine_near (b := moonBody place L dt) (h := h) (Hx := Hx) (sv := sv) (K₁ := K₁) (K₂ := K₂) (m := m) (r := 1.08) (A := 6.2832) (η := 0.0291 * (K₁ + K₂) ^ 2)
    (sgn := sgn) hs sv0 k1 k2 (by rw [← hKe]; norm_num at *; linarith) l.turn l.begin (by rw [hsv]; exact l.rate) hx A
    (by rw [← hKe]; norm_num at *; linarith)
    (by
      rw [← hKe, show K * (K * (6.2832 / sv)) / sv = K ^ 2 * 6.2832 / (sv * sv) by field_simp, div_le_iff₀ (by positivity)]
      have e1 := mul_le_mul sv1 sv1 (by norm_num) sv0.le
      have e2 : (5.8695 : ℝ) ≤ sv - K := by norm_num at *; linarith
      have e3 := mul_le_mul e2 e1 (by norm_num) (by norm_num at *; linarith)
      have e4 := mul_le_mul_of_nonneg_left e3 (mul_nonneg (by norm_num : (0 : ℝ) ≤ 0.0291) K20)
      have e5 : K ^ 2 * 6.2832 ≤ 0.0291 * K ^ 2 * (5.8695 * (6.0695 * 6.0695)) := by norm_num at *; linarith
      linarith)
    (by rw [← hKe]; norm_num at *; linarith)
  rw [← hsv]
  refine ⟨t, t2, t1, ?_⟩
  obtain ⟨k, hk⟩ := l.turn t t1
  exact ⟨k, by rw [hk, t3]⟩

/-- **C82 (moonrise and moonset).**  For every lunar ephemeris whose hour angle, and whose hour angle of rising, depart from a uniform motion by at most `K₁` and `K₂` radians a day (together at most 0.2), and
for a site where the moon does cross the altitude of rising throughout: the times computed for moonrise and moonset are within 0.0291·(K₁+K₂)² days (100 seconds for 0.2) of an instant at which the moon's
centre stands exactly at the altitude of rising (which allows for its parallax and for refraction) at that instant, on the eastern half of the sky for moonrise and on the western half for moonset. -/
theorem c82_moonrise (place : ℝ → V3) (L fa dt jd : ℝ) (h : ℝ → ℝ) (K₁ K₂ : ℝ) (l : LunarMotion place L fa dt (moonStart L dt jd) h K₁ K₂) (k1 : 0 ≤ K₁) (k2 : 0 ≤ K₂) (hK : K₁ + K₂ ≤ 0.2)
    (hf : 0 < cos fa) (hc : ∀ t, 0 < cos (place t).y) (cross : ∀ t, ∃ H, sinAlt fa (place t).y H = sin (moonAlt (place t).z)) :
    (∃ t, |(Mt place L fa dt jd).s - t| ≤ 0.0291 * (K₁ + K₂) ^ 2 ∧ sinAlt fa (place t).y (pGST t dt + L - (place t).x) = sin (moonAlt (place t).z) ∧ sin (pGST t dt + L - (place t).x) ≤ 0)
    ∧ (∃ t, |(Mt place L fa dt jd).j - t| ≤ 0.0291 * (K₁ + K₂) ^ 2 ∧ sinAlt fa (place t).y (pGST t dt + L - (place t).x) = sin (moonAlt (place t).z)
      ∧ 0 ≤ sin (pGST t dt + L - (place t).x)) := by
  have hg : ∀ t, (0 ≤ getH fa (moonAlt (place t).z) (place t).y ∧ getH fa (moonAlt (place t).z) (place t).y ≤ π)
      ∧ sinAlt fa (place t).y (getH fa (moonAlt (place t).z) (place t).y) = sin (moonAlt (place t).z) := fun t => by
    obtain ⟨g1, g2, -⟩ := c55_getH fa (moonAlt (place t).z) (place t).y hf (hc t)
    exact ⟨g1, (g2 (cross t)).1⟩
  have fin : ∀ sgn : ℝ, sgn = 1 ∨ sgn = -1 → ∃ t,
      |refine (moonBody place L dt) (2 * π * 0.966) (moonStart L dt jd) (fun t => getH fa (moonAlt (place t).z) (place t).y) sgn - t| ≤ 0.0291 * (K₁ + K₂) ^ 2
      ∧ sinAlt fa (place t).y (pGST t dt + L - (place t).x) = sin (moonAlt (place t).z) ∧ 0 ≤ sgn * sin (pGST t dt + L - (place t).x) := by
    intro sgn hs
    obtain ⟨t, t1, -, k, hk⟩ := moon_near l k1 k2 hK (Hx := fun t => getH fa (moonAlt (place t).z) (place t).y) (hg _).1 l.want (sgn := sgn)
      (by rcases hs with h | h <;> rw [h] <;> norm_num)
    have hk' : pGST t dt + L - (place t).x = sgn * getH fa (moonAlt (place t).z) (place t).y + k * (2 * π) := by
      have : (moonBody place L dt).H t = pGST t dt + L - (place t).x := rfl
      rw [← this, hk]; ring
    obtain ⟨⟨g1, g2⟩, g3⟩ := hg t
    refine ⟨t, t1, ?_, ?_⟩
    · rw [← g3]
      unfold sinAlt
      rw [hk', cos_add_int_mul_two_pi]
      rcases hs with h | h <;> rw [h]
      · rw [one_mul]
      · rw [neg_one_mul, cos_neg]
    · rw [hk', sin_add_int_mul_two_pi]
      have := sin_nonneg_of_nonneg_of_le_pi g1 g2
      rcases hs with h | h <;> rw [h]
      · rw [one_mul, one_mul]; exact this
      · rw [neg_one_mul, neg_one_mul, sin_neg, neg_neg]; exact this
  obtain ⟨t, t1, t2, t3⟩ := fin (-1) (Or.inr rfl)
  obtain ⟨u, u1, u2, u3⟩ := fin 1 (Or.inl rfl)
  exact ⟨⟨t, t1, t2, by linarith⟩, ⟨u, u1, u2, by linarith⟩⟩

/-- **C82 (culminations of the moon).**  Under the same bound on the hour angle, the upper and lower culminations are as close to instants of hour angle 0 and half a turn. -/
theorem c82_moon_culmination (place : ℝ → V3) (L fa dt jd : ℝ) (h : ℝ → ℝ) (K₁ K₂ : ℝ) (l : LunarMotion place L fa dt (moonStart L dt jd) h K₁ K₂) (k1 : 0 ≤ K₁) (k2 : 0 ≤ K₂)
    (hK : K₁ + K₂ ≤ 0.2) :
    (∃ t, |(Mt place L fa dt jd).z - t| ≤ 0.0291 * (K₁ + K₂) ^ 2 ∧ ∃ k : ℤ, pGST t dt + L - (place t).x = 2 * π * k)
    ∧ (∃ t, |(Mt place L fa dt jd).x - t| ≤ 0.0291 * (K₁ + K₂) ^ 2 ∧ ∃ k : ℤ, pGST t dt + L - (place t).x = π + 2 * π * k) := by
  have hp := pi_pos
  have nn : ∀ s t : ℝ, 0 ≤ K₂ * |t - s| := fun s t => mul_nonneg k2 (abs_nonneg _)
  obtain ⟨t, t1, -, k, hk⟩ := moon_near l k1 k2 hK (Hx := fun _ => 0) ⟨le_rfl, hp.le⟩ (fun s t _ _ => by rw [sub_self, abs_zero]; exact nn s t) (sgn := 1) (by norm_num)
  obtain ⟨u, u1, -, j, hj⟩ := moon_near l k1 k2 hK (Hx := fun _ => π) ⟨hp.le, le_rfl⟩ (fun s t _ _ => by rw [sub_self, abs_zero]; exact nn s t) (sgn := 1) (by norm_num)
  refine ⟨⟨t, ?_, k, ?_⟩, ⟨u, ?_, j, ?_⟩⟩
  · have e : (Mt place L fa dt jd).z = refine (moonBody place L dt) (2 * π * 0.966) (moonStart L dt jd) (fun _ => (0 : ℝ)) 1 := by
      unfold refine
      simp only [mul_zero]
      rfl
    rw [e]; exact t1
  · have : (moonBody place L dt).H t = pGST t dt + L - (place t).x := rfl
    rw [← this, hk]; ring
  · have e : (Mt place L fa dt jd).x = refine (moonBody place L dt) (2 * π * 0.966) (moonStart L dt jd) (fun _ => π) 1 := by
      unfold refine
      simp only [one_mul]
      rfl
    rw [e]; exact u1
  · have : (moonBody place L dt).H u = pGST u dt + L - (place u).x := rfl
    rw [← this, hj]; ring

/-- the start is within half a day of the given instant, and the mean moon is on the meridian there to within 0.017 turns -/
theorem c82_moon_start (L dt jd : ℝ) : |moonStart L dt jd - jd| ≤ 1 / 2
    ∧ ∃ k : ℤ, |0.1726222 + 0.966136808032357 * moonStart L dt jd - 0.0366 * dt + L / (2 * π) - k| ≤ 0.017 := by
  obtain ⟨⟨k, hk⟩, m1, m2⟩ := c55_mod2 (0.1726222 + 0.966136808032357 * jd - 0.0366 * dt + L / (2 * π)) 1 (by norm_num)
  obtain ⟨m, hm⟩ : ∃ m, m = mod2 (0.1726222 + 0.966136808032357 * jd - 0.0366 * dt + L / (2 * π)) 1 := ⟨_, rfl⟩
  unfold moonStart
  rw [← hm] at hk m1 m2 ⊢
  refine ⟨by rw [abs_le]; constructor <;> linarith, k, ?_⟩
  have e : 0.1726222 + 0.966136808032357 * (jd - m) - 0.0366 * dt + L / (2 * π) - k = (1 - 0.966136808032357) * m := by
    rw [mul_one] at hk
    rw [← hk]; ring
  rw [e, abs_le]
  constructor <;> norm_num at * <;> linarith

/-- a moon that moves uniformly along the equator at its mean distance meets the hypotheses at every site short of 60° -/
example : ∃ place : ℝ → V3, LunarMotion place 0 0.7 0 0 (fun t => 2 * π * 0.966 * t) 0 0 := by
  refine ⟨fun t => ⟨pGST t 0 - 2 * π * 0.966 * t, 0, 384400⟩, ?_, ?_, ?_, ?_⟩
  · intro t _
    refine ⟨0, ?_⟩
    show pGST t 0 + 0 - (pGST t 0 - 2 * π * 0.966 * t) = _
    push_cast; ring
  · have := pi_pos
    constructor <;> norm_num <;> linarith
  · intro s t _ _
    rw [show 2 * π * 0.966 * t - 2 * π * 0.966 * s - 2 * π * 0.966 * (t - s) = 0 by ring, abs_zero, zero_mul]
  · intro s t _ _
    rw [sub_self, abs_zero, zero_mul]

end Verif.SunTimes
