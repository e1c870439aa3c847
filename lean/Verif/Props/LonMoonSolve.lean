import Verif.Props.LonMoonTime

/-!
# C75: the instant at which the moon is a given angle ahead of the sun
-/

namespace Verif.Longitude

open Real Verif.Series Verif.EphTab

/-- `MS_aLon_t` follows the three corrections -/
theorem msALonT_core (b : Tab) (hb : Builtin b) {R K1 K2 B e0 e1 e2 e3 z : ℝ} (hR : 0 ≤ R) (h30 : R ≤ 30)
    (hn : Near R (fS (-1) (-1)) vD K1 K2) (hK1 : 0 ≤ K1) (hK2 : 0 ≤ K2)
    (hB : Bd R (fun t => fS (-1) (-1) t - (-1.08472 + 7771.37714500204 * t)) B)
    (hz : |z| + 0.001 ≤ R) (hz10 : z + 0.001 ≤ 10)
    (h0 : B ≤ e0 * 7771.37714500204) (h0s : e0 ≤ 0.001)
    (h1 : 1478.8 * e0 + 0.01812 ≤ e1 * 7771.37714500204) (h1s : e1 ≤ 0.001)
    (h2 : K1 * e1 + K2 * e1 ^ 2 + (0.001487 + R * 0.00000265 + R ^ 2 * 0.0000000262 + R ^ 3 * 0.0000000001 + 0.0001702) ≤ e2 * 6334) (h2s : e2 ≤ 0.001)
    (h3 : (K1 + 14172000 * (e1 + e2)) * e2 + K2 * e2 ^ 2 + 0.0000183 ≤ e3 * 6334) :
    ∃ r, msALonT b (fS (-1) (-1) z) = some r ∧ |r - z| ≤ e3 := by
  obtain ⟨W, hW⟩ : ∃ W, W = fS (-1) (-1) z := ⟨_, rfl⟩
  rw [← hW]
  have hzR : |z| ≤ R := by norm_num at hz ⊢; linarith
  have close : ∀ {t e : ℝ}, |t - z| ≤ e → e ≤ 0.001 → |t| ≤ R ∧ t ≤ 10 := by
    intro t e h he
    have h5 := abs_add_le (t - z) z
    rw [sub_add_cancel] at h5
    have h6 := (abs_le.1 h).2
    norm_num at hz hz10 he
    constructor <;> linarith
  obtain ⟨t0, ht0⟩ : ∃ t0, t0 = (W + 1.08472) / 7771.37714500204 := ⟨_, rfl⟩
  have E0 : |t0 - z| ≤ e0 := by
    have m := hB z hzR
    simp only [← hW] at m
    rw [ht0, show (W + 1.08472) / 7771.37714500204 - z = (W - (-1.08472 + 7771.37714500204 * z)) / 7771.37714500204 by ring, abs_div,
      abs_of_pos (by norm_num : (0 : ℝ) < 7771.37714500204), div_le_iff₀ (by norm_num)]
    exact m.trans h0
  obtain ⟨t0R, t010⟩ := close E0 h0s
  obtain ⟨t1, ht1⟩ : ∃ t1, t1 = t0 + (W - fS 3 3 t0) / 7771.37714500204 := ⟨_, rfl⟩
  have E1 : |t1 - z| ≤ e1 := by
    have l := fS_lip hR h30 t0 z t0R hzR
    have tr := (fS_trunc mS_trunc3 eR_trunc3) t0 (t0R.trans h30)
    simp only [← hW] at l tr
    rw [ht1, show t0 + (W - fS 3 3 t0) / 7771.37714500204 - z
      = ((W - 7771.37714500204 * z - (fS (-1) (-1) t0 - 7771.37714500204 * t0)) - (fS 3 3 t0 - fS (-1) (-1) t0)) / 7771.37714500204 by ring, abs_div,
      abs_of_pos (by norm_num : (0 : ℝ) < 7771.37714500204), div_le_iff₀ (by norm_num)]
    refine (abs_sub _ _).trans (le_trans ?_ h1)
    rw [abs_sub_comm z t0] at l
    have := mul_le_mul_of_nonneg_left E0 (by norm_num : (0 : ℝ) ≤ 1478.8)
    norm_num at *
    linarith
  obtain ⟨t1R, t110⟩ := close E1 h1s
  obtain ⟨t2, ht2⟩ : ∃ t2, t2 = t1 + (W - fS 20 10 t1) / vD t1 := ⟨_, rfl⟩
  have v1 := vD_ge (t1R.trans h30)
  have E2 : |t2 - z| ≤ e2 := by
    have tr := (fS_trunc (mS_trunc20 hR) (eR_trunc10.restrict h30)) t1 t1R
    have := newton_step (g := fS 20 10) hn hK1 hK2 t1R hzR (by norm_num) v1 tr E1
    rw [← hW, ← ht2] at this
    refine this.trans ?_
    rw [div_le_iff₀ (by norm_num)]
    exact h2
  obtain ⟨t2R, t210⟩ := close E2 h2s
  obtain ⟨t3, ht3⟩ : ∃ t3, t3 = t2 + (W - fS (-1) 60 t2) / vD t1 := ⟨_, rfl⟩
  have e20 : 0 ≤ e2 := (abs_nonneg _).trans E2
  have e10 : 0 ≤ e1 := (abs_nonneg _).trans E1
  have E3 : |t3 - z| ≤ e3 := by
    have tr := (fS_trunc (n := -1) (T := 0) (fun t _ => by simp) (eR_trunc60.restrict h30)) t2 t2R
    have n3 := hn t2 z t2R hzR
    have lv := vD_lip t1 t2 (t1R.trans h30) (t2R.trans h30)
    have v0 : 0 < vD t1 := by linarith
    simp only at tr
    rw [← hW] at n3
    rw [ht3, show t2 + (W - fS (-1) 60 t2) / vD t1 - z
      = ((W - fS (-1) (-1) t2 - vD t2 * (z - t2)) + (vD t2 - vD t1) * (z - t2) - (fS (-1) 60 t2 - fS (-1) (-1) t2)) / vD t1 by field_simp; ring,
      abs_div, abs_of_pos v0, div_le_iff₀ v0]
    have d12 : |t2 - t1| ≤ e1 + e2 := by
      rw [show t2 - t1 = (t2 - z) - (t1 - z) by ring]
      refine (abs_sub _ _).trans ?_
      linarith
    have dz : |z - t2| ≤ e2 := by rw [abs_sub_comm]; exact E2
    have dz2 : (z - t2) ^ 2 ≤ e2 ^ 2 := by rw [← sq_abs]; exact pow_le_pow_left₀ (abs_nonneg _) dz 2
    have q1 : |(vD t2 - vD t1) * (z - t2)| ≤ 14172000 * (e1 + e2) * e2 := by
      rw [abs_mul]
      refine mul_le_mul (lv.trans (mul_le_mul_of_nonneg_left d12 (by norm_num))) dz (abs_nonneg _) (by positivity)
    have q2 := mul_le_mul_of_nonneg_left dz hK1
    have q3 := mul_le_mul_of_nonneg_left dz2 hK2
    refine ((abs_sub _ _).trans (add_le_add (abs_add_le _ _) le_rfl)).trans (le_trans ?_ (h3.trans ?_))
    · norm_num at *
      linarith
    · have : 0 ≤ e3 := by
        have : 0 ≤ e3 * 6334 := le_trans (by positivity) h3
        linarith
      exact mul_le_mul_of_nonneg_left v1 this
  refine ⟨t3, ?_, E3⟩
  unfold msALonT
  simp only [← ht0]
  rw [msALon_fS b hb t010 3 3 (by norm_num) (by norm_num) (by norm_num)]
  show ((msALon b (t0 + (W - fS 3 3 t0) / 7771.37714500204) 20 10).bind _) = _
  rw [← ht1, msALon_fS b hb t110 20 10 (by norm_num) (by norm_num) (by norm_num)]
  show ((msALon b (t1 + (W - fS 20 10 t1) / vD t1) (-1) 60).bind _) = _
  rw [← ht2, msALon_fS b hb t210 (-1) 60 (by norm_num) (by norm_num) (by norm_num)]
  show some (t1 + (W - fS 20 10 t1) / vD t1 + (W - fS (-1) 60 t2) / vD t1) = _
  rw [← ht2, ht3]

theorem fS_near30 : Near 30 (fS (-1) (-1)) vD 134.6 7075500 :=
  (fS_near_of (by norm_num) mS_near30).mono (by norm_num) (by norm_num)
theorem fS_near5 : Near 5 (fS (-1) (-1)) vD 55.6 7075500 :=
  (fS_near_of (by norm_num) mS_near5).mono (by norm_num) (by norm_num)

theorem fS_mean30 : Bd 30 (fun t => fS (-1) (-1) t - (-1.08472 + 7771.37714500204 * t)) 0.2344 :=
  (fS_mean (by norm_num) (by norm_num)).mono (by norm_num)
theorem fS_mean5 : Bd 5 (fun t => fS (-1) (-1) t - (-1.08472 + 7771.37714500204 * t)) 0.2084 :=
  (fS_mean (by norm_num) (by norm_num)).mono (by norm_num)

theorem msALonT_near30 (b : Tab) (hb : Builtin b) {z : ℝ} (hz : |z| ≤ 29.999) (hz10 : z ≤ 9.999) :
    ∃ r, msALonT b (fS (-1) (-1) z) = some r ∧ |r - z| ≤ 0.0000000245 := by
  refine msALonT_core b hb (R := 30) (e0 := 0.00003017) (e1 := 0.00000808) (e2 := 0.000000524) (by norm_num) le_rfl fS_near30 (by norm_num) (by norm_num) fS_mean30 ?_ ?_
    ?_ ?_ ?_ ?_ ?_ ?_ ?_
  · norm_num at *; linarith
  · norm_num at *; linarith
  all_goals norm_num
theorem msALonT_near5 (b : Tab) (hb : Builtin b) {z : ℝ} (hz : |z| ≤ 4.999) :
    ∃ r, msALonT b (fS (-1) (-1) z) = some r ∧ |r - z| ≤ 0.0000000135 := by
  refine msALonT_core b hb (R := 5) (e0 := 0.00002682) (e1 := 0.000007436) (e2 := 0.000000394) (by norm_num) (by norm_num) fS_near5 (by norm_num) (by norm_num) fS_mean5 ?_ ?_
    ?_ ?_ ?_ ?_ ?_ ?_ ?_
  · norm_num at *; linarith
  · have := (abs_le.1 hz).2
    norm_num at *; linarith
  all_goals norm_num

/-! ## Order -/

theorem fS_incr {s t : ℝ} (hs : |s| ≤ 30) (ht : |t| ≤ 30) (h : s < t) (h2 : t - s ≤ 0.0001) : 5000 * (t - s) ≤ fS (-1) (-1) t - fS (-1) (-1) s := by
  have hn := fS_near30 s t hs ht
  have hv := vD_ge hs
  have h0 : 0 < t - s := by linarith
  rw [abs_of_pos h0, abs_le] at hn
  have h1 := mul_le_mul_of_nonneg_right hv h0.le
  have h4 := mul_le_mul_of_nonneg_left h2 h0.le
  norm_num at *
  nlinarith

theorem fS_strictMono {s t : ℝ} (hs : |s| ≤ 30) (ht : |t| ≤ 30) (h : s < t) : fS (-1) (-1) s < fS (-1) (-1) t := by
  by_cases h2 : t - s ≤ 0.0001
  · have := fS_incr hs ht h h2
    have h0 : 0 < t - s := by linarith
    linarith
  · have a := fS_mean30 s hs
    have b := fS_mean30 t ht
    rw [abs_le] at a b
    norm_num at *
    linarith

theorem fS_ivt {W : ℝ} (h1 : -233100 ≤ W) (h2 : W ≤ 77700) : ∃ z, |z| ≤ 29.999 ∧ z ≤ 9.999 ∧ fS (-1) (-1) z = W := by
  have hc : ContinuousOn (fS (-1) (-1)) (Set.Icc (-30) 30) := by
    have : Lip 30 (fS (-1) (-1)) (1478.8 + 7771.37714500204) := by
      refine ((fS_lip (R := 30) (by norm_num) le_rfl).add ((Lip.id (R := 30)).smul 7771.37714500204)).congr (fun t => by ring) |>.mono ?_
      norm_num [abs_of_pos]
    exact this.continuousOn
  have a := fS_mean30 30 (by norm_num [abs_le])
  have b := fS_mean30 (-30) (by norm_num [abs_le])
  have hmem : W ∈ Set.Icc (fS (-1) (-1) (-30)) (fS (-1) (-1) 30) := by
    rw [abs_le] at *
    constructor <;> norm_num at * <;> linarith
  obtain ⟨z, hz, hzW⟩ := intermediate_value_Icc (by norm_num : (-30 : ℝ) ≤ 30) hc hmem
  have hz' : |z| ≤ 30 := abs_le.2 hz
  have c := fS_mean30 z hz'
  simp only [hzW] at c
  refine ⟨z, ?_, ?_, hzW⟩
  · rw [abs_le] at *
    constructor <;> norm_num at * <;> linarith
  · rw [abs_le] at *
    norm_num at *
    linarith

/-- **C75.**  With the built-in tables, every angle `W` from -233100 to 77700 radians (the years -1000 to 3000; `W` counts through the months, new
moons are the multiples of 2π) is the moon's lead over the sun at exactly one instant from -30 to 10 Julian centuries from 2000, and
`MS_aLon_t(W)` returns an instant within 78 s of it. -/
theorem c75_moon (b : Tab) (hb : Builtin b) (W : ℝ) (h1 : -233100 ≤ W) (h2 : W ≤ 77700) :
    ∃ z r, -30 ≤ z ∧ z ≤ 10 ∧ msALon b z (-1) (-1) = some W ∧ (∀ y, -30 ≤ y → y ≤ 10 → msALon b y (-1) (-1) = some W → y = z)
      ∧ msALonT b W = some r ∧ |r - z| * 36525 * 86400 ≤ 78 := by
  obtain ⟨z, hz, hz10, hzW⟩ := fS_ivt h1 h2
  obtain ⟨r, hr, he⟩ := msALonT_near30 b hb hz hz10
  have hz30 : |z| ≤ 30 := hz.trans (by norm_num)
  have hz1 : z ≤ 10 := hz10.trans (by norm_num)
  refine ⟨z, r, (abs_le.1 hz30).1, hz1, by rw [msALon_fS b hb hz1 (-1) (-1) (by norm_num) (by norm_num) (by norm_num), hzW], fun y hy hy10 hyW => ?_, by rw [← hzW]; exact hr, ?_⟩
  · rw [msALon_fS b hb hy10 (-1) (-1) (by norm_num) (by norm_num) (by norm_num), Option.some.injEq] at hyW
    have hy30 : |y| ≤ 30 := abs_le.2 ⟨hy, by linarith⟩
    rcases lt_trichotomy y z with h | h | h
    · have := fS_strictMono hy30 hz30 h; linarith
    · exact h
    · have := fS_strictMono hz30 hy30 h; linarith
  · norm_num at *; linarith

/-- consecutive new moons (and other equal phases) come out in order, between 27.3 and 31.8 days apart -/
theorem c75_months (b : Tab) (hb : Builtin b) (W : ℝ) (h1 : -233100 ≤ W) (h2 : W ≤ 77690) :
    ∃ r r', msALonT b W = some r ∧ msALonT b (W + 2 * π) = some r' ∧ 27.3 ≤ (r' - r) * 36525 ∧ (r' - r) * 36525 ≤ 31.8 := by
  have p1 := pi_gt_d6
  have p2 := pi_lt_d6
  obtain ⟨z, hz, hz10, hzW⟩ := fS_ivt (W := W) h1 (by linarith)
  obtain ⟨z', hz', hz10', hzW'⟩ := fS_ivt (W := W + 2 * π) (by linarith) (by norm_num at p2; linarith)
  obtain ⟨r, hr, he⟩ := msALonT_near30 b hb hz hz10
  obtain ⟨r', hr', he'⟩ := msALonT_near30 b hb hz' hz10'
  have m := fS_mean30 z (hz.trans (by norm_num))
  have m' := fS_mean30 z' (hz'.trans (by norm_num))
  simp only at m m'
  rw [hzW] at hr m
  rw [hzW'] at hr' m'
  refine ⟨r, r', hr, hr', ?_, ?_⟩
  · rw [abs_le] at he he' m m'
    norm_num at *
    linarith
  · rw [abs_le] at he he' m m'
    norm_num at *
    linarith

end Verif.Longitude
