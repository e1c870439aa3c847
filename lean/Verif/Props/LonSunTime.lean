import Verif.Props.LonNut
import Mathlib.Topology.Order.IntermediateValue

/-!
# C74: the instant at which the sun reaches a given apparent longitude
-/

namespace Verif.Longitude

open Real Verif.Series Verif.EphTab

/-- one corrected division step -/
theorem newton_step {R K1 K2 V T e s z : ℝ} {f g v : ℝ → ℝ} (h : Near R f v K1 K2) (hK1 : 0 ≤ K1) (hK2 : 0 ≤ K2) (hs : |s| ≤ R) (hz : |z| ≤ R)
    (hV : 0 < V) (hv : V ≤ v s) (hT : |g s - f s| ≤ T) (he : |s - z| ≤ e) :
    |s + (f z - g s) / v s - z| ≤ (K1 * e + K2 * e ^ 2 + T) / V := by
  have hv0 : 0 < v s := by linarith
  have e0 : 0 ≤ e := (abs_nonneg _).trans he
  have hT0 : 0 ≤ T := (abs_nonneg _).trans hT
  have hn := h s z hs hz
  rw [show s + (f z - g s) / v s - z = ((f z - f s - v s * (z - s)) - (g s - f s)) / v s by field_simp; ring, abs_div, abs_of_pos hv0,
    div_le_div_iff₀ hv0 hV]
  have he' : |z - s| ≤ e := by rw [abs_sub_comm]; exact he
  have h2 : (z - s) ^ 2 ≤ e ^ 2 := by rw [← sq_abs]; exact pow_le_pow_left₀ (abs_nonneg _) he' 2
  have h3 : |f z - f s - v s * (z - s) - (g s - f s)| ≤ K1 * e + K2 * e ^ 2 + T := by
    refine (abs_sub _ _).trans ?_
    have := mul_le_mul_of_nonneg_left he' hK1
    have := mul_le_mul_of_nonneg_left h2 hK2
    linarith
  exact mul_le_mul h3 hv hV.le (by positivity)

theorem Near.lip {R K1 K2 V : ℝ} {f v : ℝ → ℝ} (h : Near R f v K1 K2) (hK2 : 0 ≤ K2) (hv : ∀ t, |t| ≤ R → |v t| ≤ V) :
    Lip R f (V + K1 + K2 * (2 * R)) := fun s t hs ht => by
  have hn := h s t hs ht
  have h1 := mul_le_mul_of_nonneg_right (hv s hs) (abs_nonneg (t - s))
  have h2 : (t - s) ^ 2 ≤ 2 * R * |t - s| := by
    rw [← sq_abs, pow_two]
    refine mul_le_mul_of_nonneg_right ?_ (abs_nonneg _)
    have := abs_sub t s
    linarith
  have h3 := mul_le_mul_of_nonneg_left h2 hK2
  have h4 := abs_add_le (f t - f s - v s * (t - s)) (v s * (t - s))
  rw [sub_add_cancel, abs_mul] at h4
  nlinarith

theorem Lip.continuousOn {R K : ℝ} {f : ℝ → ℝ} (h : Lip R f K) : ContinuousOn f (Set.Icc (-R) R) := by
  have : LipschitzOnWith (K.toNNReal) f (Set.Icc (-R) R) := by
    refine LipschitzOnWith.of_dist_le_mul (fun x hx y hy => ?_)
    rw [Real.dist_eq, Real.dist_eq]
    have := h y x (abs_le.2 hy) (abs_le.2 hx)
    refine this.trans (mul_le_mul_of_nonneg_right (Real.le_coe_toNNReal K) (abs_nonneg _))
  exact this.continuousOn

theorem useE_10 : useE 10 0 = 10 ∧ useE 10 1 = 7 ∧ useE 10 2 = 4 ∧ useE 10 3 = 2 ∧ useE 10 4 = 1 ∧ useE 10 5 = 1 := by decide +kernel

theorem sR_near_all : Near 30 (sR (-1)) eV 0.772 16500 := by
  obtain ⟨u0, u1, u2, -⟩ := useE_all
  exact sR_near (-1) (by omega) (by omega) (by omega)
theorem sR_mean_all : Bd 30 (fun t => sR (-1) t - (1.7534704567 + π + 628.33196674749 * t)) 0.0467 := by
  obtain ⟨u0, u1, -⟩ := useE_all
  exact sR_mean (-1) (by omega) (by omega)

theorem sR_trunc10 : Bd 30 (fun t => sR 10 t - sR (-1) t) 0.0001702 := by
  have := eR_trunc 10 1701532000000000 (by decide +kernel)
  refine (this.mono ?_).congr (fun t => by unfold sR; ring)
  norm_num

/-- the sun's apparent longitude increases at a rate between 590 and 670 radians per century over short times … -/
theorem sR_incr {s t : ℝ} (hs : |s| ≤ 30) (ht : |t| ≤ 30) (h : s < t) (h2 : t - s ≤ 0.0005) :
    592.9 * (t - s) ≤ sR (-1) t - sR (-1) s ∧ sR (-1) t - sR (-1) s ≤ 664.1 * (t - s) := by
  have hn := sR_near_all s t hs ht
  have hv := eV_bds s hs
  have h0 : 0 < t - s := by linarith
  rw [abs_of_pos h0, abs_le] at hn
  have h1 := mul_le_mul_of_nonneg_right hv.1 h0.le
  have h3 := mul_le_mul_of_nonneg_right hv.2 h0.le
  have h4 := mul_le_mul_of_nonneg_left h2 h0.le
  norm_num at *
  constructor <;> nlinarith

theorem sR_strictMono {s t : ℝ} (hs : |s| ≤ 30) (ht : |t| ≤ 30) (h : s < t) : sR (-1) s < sR (-1) t := by
  by_cases h2 : t - s ≤ 0.0005
  · have := (sR_incr hs ht h h2).1
    have h0 : 0 < t - s := by linarith
    norm_num at *
    linarith
  · have a := sR_mean_all s hs
    have b := sR_mean_all t ht
    rw [abs_le] at a b
    norm_num at *
    linarith

theorem sR_ivt {W : ℝ} (hW : |W| ≤ 18800) : ∃ z, |z| ≤ 29.94 ∧ sR (-1) z = W := by
  have hc : ContinuousOn (sR (-1)) (Set.Icc (-30) 30) := by
    refine (sR_near_all.lip (V := 655) (by norm_num) (fun t ht => ?_)).continuousOn
    have := eV_bds t ht
    rw [abs_le]
    constructor <;> linarith
  have p1 := pi_gt_d6
  have p2 := pi_lt_d6
  have a := sR_mean_all 30 (by norm_num [abs_le])
  have b := sR_mean_all (-30) (by norm_num [abs_le])
  have hmem : W ∈ Set.Icc (sR (-1) (-30)) (sR (-1) 30) := by
    rw [abs_le] at *
    constructor <;> norm_num at * <;> linarith
  obtain ⟨z, hz, hzW⟩ := intermediate_value_Icc (by norm_num : (-30 : ℝ) ≤ 30) hc hmem
  have hz' : |z| ≤ 30 := abs_le.2 hz
  refine ⟨z, ?_, hzW⟩
  have c := sR_mean_all z hz'
  simp only [hzW] at c
  rw [abs_le] at *
  constructor <;> norm_num at * <;> linarith

theorem sALonT_near (b : Tab) (hb : Builtin b) {W z : ℝ} (hz : |z| ≤ 29.94) (hW : sR (-1) z = W) :
    ∃ r, sALonT b W = some r ∧ |r - z| ≤ 0.00000000069 := by
  have p1 := pi_gt_d6
  have p2 := pi_lt_d6
  obtain ⟨t0, h0⟩ : ∃ t0, t0 = (W - 1.75347 - π) / 628.3319653318 := ⟨_, rfl⟩
  have hz30 : |z| ≤ 30 := hz.trans (by norm_num)
  have e0 : |t0 - z| ≤ 0.0000745 := by
    have m := sR_mean_all z hz30
    simp only [hW] at m
    rw [h0, show (W - 1.75347 - π) / 628.3319653318 - z = (W - 1.75347 - π - 628.3319653318 * z) / 628.3319653318 by ring, abs_div,
      abs_of_pos (by norm_num : (0 : ℝ) < 628.3319653318), div_le_iff₀ (by norm_num)]
    rw [abs_le] at *
    constructor <;> norm_num at * <;> linarith
  have t0le : |t0| ≤ 30 := by
    rw [abs_le] at *
    constructor <;> norm_num at * <;> linarith
  obtain ⟨t1, h1⟩ : ∃ t1, t1 = t0 + (W - sR 10 t0) / eV t0 := ⟨_, rfl⟩
  have e1 : |t1 - z| ≤ 0.000000531 := by
    have := newton_step sR_near_all (by norm_num) (by norm_num) t0le hz30 (by norm_num) (eV_bds t0 t0le).1 (sR_trunc10 t0 t0le) e0
    rw [hW, ← h1] at this
    refine this.trans ?_
    norm_num
  have t1le : |t1| ≤ 30 := by
    rw [abs_le] at *
    constructor <;> norm_num at * <;> linarith
  have e2 := newton_step (g := sR (-1)) (T := 0) sR_near_all (by norm_num) (by norm_num) t1le hz30 (by norm_num) (eV_bds t1 t1le).1 (by simp) e1
  rw [hW] at e2
  refine ⟨_, ?_, e2.trans ?_⟩
  · unfold sALonT
    simp only [← h0]
    rw [sALon_sR b hb t0 10 (by norm_num)]
    show ((sALon b (t0 + (W - sR 10 t0) / eV t0) (-1)).bind _) = _
    rw [← h1, sALon_sR b hb t1 (-1) (by norm_num)]
    rfl
  · norm_num

/-- **C74.**  With the built-in tables every apparent longitude `|W| ≤ 18800` of the sun (counted in radians through the turns; `t` in Julian
centuries from 2000) is reached at exactly one instant within 30 centuries, and `S_aLon_t(W)` returns an instant within 2.2 s of it. -/
theorem c74_sun (b : Tab) (hb : Builtin b) (W : ℝ) (hW : |W| ≤ 18800) :
    ∃ z r, |z| ≤ 30 ∧ sALon b z (-1) = some W ∧ (∀ y, |y| ≤ 30 → sALon b y (-1) = some W → y = z)
      ∧ sALonT b W = some r ∧ |r - z| * 36525 * 86400 ≤ 2.2 := by
  obtain ⟨z, hz, hzW⟩ := sR_ivt hW
  obtain ⟨r, hr, he⟩ := sALonT_near b hb hz hzW
  have hz30 : |z| ≤ 30 := hz.trans (by norm_num)
  refine ⟨z, r, hz30, by rw [sALon_sR b hb z (-1) (by norm_num), hzW], fun y hy hyW => ?_, hr, ?_⟩
  · rw [sALon_sR b hb y (-1) (by norm_num), Option.some.injEq] at hyW
    rcases lt_trichotomy y z with h | h | h
    · have := sR_strictMono hy hz30 h; linarith
    · exact h
    · have := sR_strictMono hz30 hy h; linarith
  · norm_num at *; linarith

/-- consecutive solar terms (the longitudes `W`, `W + 15°`) are between 14.4 and 16.2 days apart -/
theorem c74_terms (b : Tab) (hb : Builtin b) (W : ℝ) (hW : |W| ≤ 18799) :
    ∃ r r', sALonT b W = some r ∧ sALonT b (W + π / 12) = some r' ∧ 14.39 ≤ (r' - r) * 36525 ∧ (r' - r) * 36525 ≤ 16.14 := by
  have p1 := pi_gt_d6
  have p2 := pi_lt_d6
  have hW' : |W + π / 12| ≤ 18800 := by
    rw [abs_le] at *
    norm_num at *
    constructor <;> linarith
  obtain ⟨z, hz, hzW⟩ := sR_ivt (W := W) (hW.trans (by norm_num))
  obtain ⟨r, hr, he⟩ := sALonT_near b hb hz hzW
  obtain ⟨z', hz', hzW'⟩ := sR_ivt hW'
  obtain ⟨r', hr', he'⟩ := sALonT_near b hb hz' hzW'
  have hz30 : |z| ≤ 30 := hz.trans (by norm_num)
  have hz30' : |z'| ≤ 30 := hz'.trans (by norm_num)
  have hlt : z < z' := by
    by_contra h
    push Not at h
    rcases h.eq_or_lt with h | h
    · rw [h] at hzW'; linarith
    · have := sR_strictMono hz30' hz30 h; linarith
  have hd : z' - z ≤ 0.0005 := by
    by_contra h
    push Not at h
    have hy : |z + 0.0005| ≤ 30 := by
      rw [abs_le] at *
      constructor <;> norm_num at * <;> linarith
    have h1 := (sR_incr (s := z) (t := z + 0.0005) hz30 hy (by norm_num) (by norm_num)).1
    have h2 := sR_strictMono hy hz30' (by linarith)
    norm_num at *
    linarith
  have hi := sR_incr hz30 hz30' hlt hd
  rw [hzW, hzW'] at hi
  refine ⟨r, r', hr, hr', ?_, ?_⟩
  · rw [abs_le] at he he'
    norm_num at *
    linarith
  · rw [abs_le] at he he'
    norm_num at *
    linarith

end Verif.Longitude
