import Verif.Props.LonEarth

/-!
# The Earth's longitude against its mean motion and the speed function `E_v` (used by C74)
-/

namespace Verif.Longitude

open Real Verif.Series Verif.EphTab

theorem Near.scale {R : ℝ} {f v : ℝ → ℝ} {K1 K2 : ℝ} (h : Near R f v K1 K2) (c : ℝ) (hc : 0 ≤ c) :
    Near R (fun t => c * f t) (fun t => c * v t) (c * K1) (c * K2) := fun s t hs ht => by
  rw [show c * f t - c * f s - c * v s * (t - s) = c * (f t - f s - v s * (t - s)) by ring, abs_mul, abs_of_nonneg hc]
  have := mul_le_mul_of_nonneg_left (h s t hs ht) hc
  linarith

/-- the part of a series whose increments are only bounded -/
theorem rest_lip (i : ℕ) (l : List T3) (k S A : ℕ) (hS : spdI l ≤ S) (hA : ampI l ≤ A) :
    Lip 30 (fun t => ordL i (l.take k) t / 10 ^ 10) ((3 ^ i * ((S : ℝ) / 10 ^ 18) + i * 3 ^ (i - 1) * ((A : ℝ) / 10 ^ 9)) / 10 / 10 ^ 10) := by
  have h1 : ((spdI (l.take k) : ℕ) : ℝ) ≤ S := by exact_mod_cast (spdI_take l k).trans hS
  have h2 : ((ampI (l.take k) : ℕ) : ℝ) ≤ A := by exact_mod_cast (ampI_take l k).trans hA
  intro s t hs ht
  have h := (ordL_lip i (l.take k)) s t hs ht
  rw [← sub_div, abs_div, abs_of_pos (show (0 : ℝ) < 10 ^ 10 by positivity), div_le_iff₀ (by positivity)]
  refine h.trans ?_
  rw [show (3 ^ i * ((S : ℝ) / 10 ^ 18) + i * 3 ^ (i - 1) * ((A : ℝ) / 10 ^ 9)) / 10 / 10 ^ 10 * |t - s| * 10 ^ 10
    = (3 ^ i * ((S : ℝ) / 10 ^ 18) + i * 3 ^ (i - 1) * ((A : ℝ) / 10 ^ 9)) / 10 * |t - s| by ring]
  gcongr

theorem rest_bd (i : ℕ) (l : List T3) (k A : ℕ) (hA : ampI l ≤ A) :
    Bd 30 (fun t => ordL i (l.take k) t / 10 ^ 10) (3 ^ i * ((A : ℝ) / 10 ^ 9) / 10 ^ 10) := by
  have h2 : ((ampI (l.take k) : ℕ) : ℝ) ≤ A := by exact_mod_cast (ampI_take l k).trans hA
  intro t ht
  rw [abs_div, abs_of_pos (show (0 : ℝ) < 10 ^ 10 by positivity)]
  refine div_le_div_of_nonneg_right ((ordL_bd i _ t ht).trans ?_) (by positivity)
  gcongr

theorem head0 (t : ℝ) : ordL 0 ((eT 0).take 3) t / 10 ^ 10 = 1.7534704567 + 0.0334165646 * t ^ 0 * cos (4.669256804 + 628.3075849991 * t)
    + 0.0003489428 * t ^ 0 * cos (4.6261024 + 1256.61517 * t) := by
  have e1 : dec 4669256804 + t / 10 * dec 6283075849991 = 4.669256804 + 628.3075849991 * t := by rw [dec, dec]; push_cast; ring
  have e2 : dec 4626102400 + t / 10 * dec 12566151700000 = 4.6261024 + 1256.61517 * t := by rw [dec, dec]; push_cast; ring
  have e0 : dec 0 + t / 10 * dec 0 = 0 := by simp [dec]
  rw [eT_head0, ordL, ser_cons, ser_cons, ser_cons, ser_nil, e1, e2, e0, cos_zero]
  simp only [dec]
  push_cast
  ring
theorem head1 (t : ℝ) : ordL 1 ((eT 1).take 2) t / 10 ^ 10 = 628.33196674749 * t
    + 0.00020605886 * t ^ 1 * cos (2.67823456 + 628.307584999 * t) := by
  have e1 : dec 2678234560 + t / 10 * dec 6283075849990 = 2.67823456 + 628.307584999 * t := by rw [dec, dec]; push_cast; ring
  have e0 : dec 0 + t / 10 * dec 0 = 0 := by simp [dec]
  rw [eT_head1, ordL, ser_cons, ser_cons, ser_nil, e1, e0, cos_zero]
  simp only [dec]
  push_cast
  ring
theorem head2 (t : ℝ) : ordL 2 ((eT 2).take 2) t / 10 ^ 10 = 0.000005291887 * t ^ 2
    + 0.000000871984 * t ^ 2 * cos (1.072097 + 628.307585 * t) := by
  have e1 : dec 1072097000 + t / 10 * dec 6283075850000 = 1.072097 + 628.307585 * t := by rw [dec, dec]; push_cast; ring
  have e0 : dec 0 + t / 10 * dec 0 = 0 := by simp [dec]
  rw [eT_head2, ordL, ser_cons, ser_cons, ser_nil, e1, e0, cos_zero]
  simp only [dec]
  push_cast
  ring

theorem near_cos (φ ω a : ℝ) (k : ℕ) (hω : 0 ≤ ω) :
    Near 30 (fun t => a * t ^ k * cos (φ + ω * t)) (fun s => -(a * ω * s ^ k * sin (φ + ω * s))) (|a| * (k * 30 ^ (k - 1))) (|a| * 30 ^ k * ω ^ 2 / 2) := by
  have := Near.cosP (R := 30) (by norm_num) (fun t => φ + ω * t) ω 0 a k hω le_rfl (fun s t _ _ => by
    rw [show φ + ω * t - (φ + ω * s) - ω * (t - s) = 0 by ring]; simp)
  simpa using this

/-- the longitude of the Earth moves with the speed `E_v` up to 0.12% and second order -/
theorem eR_near (n : ℤ) (h0 : 3 ≤ useE n 0) (h1 : 2 ≤ useE n 1) (h2 : 2 ≤ useE n 2) : Near 30 (eR n) eV 0.73 16500 := by
  have p1 := pi_gt_d6
  have p2 := pi_lt_d6
  have A1 := (near_cos 4.669256804 628.3075849991 0.0334165646 0 (by norm_num)).speed (w := fun s => 21 * sin (1.527 + 628.307585 * s))
    (L := 0.0042 + 21 * 0.00067) (fun s hs => by
      rw [← sin_add_two_pi (1.527 + 628.307585 * s), pow_zero, mul_one]
      refine match_speed (by norm_num) (by norm_num [abs_le]) ?_
      rw [abs_le] at *
      constructor <;> norm_num at * <;> linarith)
  have A2 := (near_cos 4.6261024 1256.61517 0.0003489428 0 (by norm_num)).speed (w := fun s => 0.44 * sin (1.48 + 628.307585 * s * 2))
    (L := 0.0016 + 0.44 * 0.0046) (fun s hs => by
      rw [← sin_add_two_pi (1.48 + 628.307585 * s * 2), pow_zero, mul_one]
      refine match_speed (by norm_num) (by norm_num [abs_le]) ?_
      rw [abs_le] at *
      constructor <;> norm_num at * <;> linarith)
  have A3 := (near_cos 2.67823456 628.307584999 0.00020605886 1 (by norm_num)).speed (w := fun s => 0.129 * sin (5.82 + 628.307585 * s) * s)
    (L := 30 * (0.00048 + 0.129 * 0.0002)) (fun s hs => by
      rw [show -(0.00020605886 * 628.307584999 * s ^ 1 * sin (2.67823456 + 628.307584999 * s)) - 0.129 * sin (5.82 + 628.307585 * s) * s
        = s * (-(0.00020605886 * 628.307584999 * sin (2.67823456 + 628.307584999 * s)) - 0.129 * sin (5.82 + 628.307585 * s)) by ring, abs_mul]
      refine mul_le_mul hs (match_speed (by norm_num) (by norm_num [abs_le]) ?_) (abs_nonneg _) (by norm_num)
      rw [abs_le] at *
      constructor <;> norm_num at * <;> linarith)
  have A4 := (near_cos 1.072097 628.307585 0.000000871984 2 (by norm_num)).speed (w := fun s => 0.00055 * sin (4.21 + 628.307585 * s) * s * s)
    (L := 900 * (0.0000022 + 0.00055 * 0.0037)) (fun s hs => by
      rw [show -(0.000000871984 * 628.307585 * s ^ 2 * sin (1.072097 + 628.307585 * s)) - 0.00055 * sin (4.21 + 628.307585 * s) * s * s
        = s * s * (-(0.000000871984 * 628.307585 * sin (1.072097 + 628.307585 * s)) - 0.00055 * sin (4.21 + 628.307585 * s)) by ring, abs_mul]
      have hs2 : |s * s| ≤ 900 := by rw [abs_mul]; nlinarith [abs_nonneg s]
      refine mul_le_mul hs2 (match_speed (by norm_num) (by norm_num [abs_le]) ?_) (abs_nonneg _) (by norm_num)
      rw [show 1.072097 + 628.307585 * s + π - (4.21 + 628.307585 * s) = 1.072097 + π - 4.21 by ring, abs_le]
      constructor <;> norm_num at * <;> linarith)
  have A5 := (Near.linear (R := 30) 628.33196674749).speed (w := fun _ => 628.332) (L := 0.00004) (fun s _ => by norm_num [abs_le])
  have A6 := Near.of_lip ((Lip.pow (R := 30) (by norm_num) 2).smul 0.000005291887)
  have A7 := Near.of_lip (Lip.const (R := 30) 1.7534704567)
  have S := eT_spd
  have M := eT_amp
  have a0 : ampI ((eT 0).drop 3) ≤ 10 ^ 18 := by decide +kernel
  have B0 := Near.of_lip (rest_lip 0 ((eT 0).drop 3) (useE n 0 - 3) _ _ S.1 a0)
  have B1 := Near.of_lip (rest_lip 1 ((eT 1).drop 2) (useE n 1 - 2) _ _ S.2.1 M.2.2.2.1)
  have B2 := Near.of_lip (rest_lip 2 ((eT 2).drop 2) (useE n 2 - 2) _ _ S.2.2.1 M.2.2.2.2.1)
  have B3 := Near.of_lip (rest_lip 3 (eT 3) (useE n 3) _ _ S.2.2.2.1 M.2.2.2.2.2.1)
  have B4 := Near.of_lip (rest_lip 4 (eT 4) (useE n 4) _ _ S.2.2.2.2.1 M.2.2.2.2.2.2.1)
  have B5 := Near.of_lip (rest_lip 5 (eT 5) (useE n 5) _ _ S.2.2.2.2.2 M.2.2.2.2.2.2.2)
  have B6 := Near.of_lip corrE_lip
  have F := ((((((((((((A7.add A1).add A2).add A5).add A3).add A6).add A4).add B0).add B1).add B2).add B3).add B4).add B5).add B6
  refine (F.congr (fun t => ?_) (fun t => ?_)).mono ?_ ?_
  · unfold eR
    rw [take_split (eT 0) h0, take_split (eT 1) h1, take_split (eT 2) h2, ordL_append, ordL_append, ordL_append]
    have e0 := head0 t
    have e1 := head1 t
    have e2 := head2 t
    rw [add_div, add_div, add_div, add_div, add_div, add_div, add_div, add_div, e0, e1, e2]
    ring
  · unfold eV
    ring
  · norm_num [abs_of_pos]
  · norm_num [abs_of_pos]

/-- … and stays within 0.0465 of the mean motion -/
theorem eR_mean (n : ℤ) (h0 : 1 ≤ useE n 0) (h1 : 1 ≤ useE n 1) :
    Bd 30 (fun t => eR n t - (1.7534704567 + 628.33196674749 * t)) 0.0465 := by
  have M := eT_amp
  have B0 := rest_bd 0 ((eT 0).drop 1) (useE n 0 - 1) _ M.1
  have B1 := rest_bd 1 ((eT 1).drop 1) (useE n 1 - 1) _ M.2.1
  have B2 := rest_bd 2 (eT 2) (useE n 2) _ M.2.2.1
  have B3 := rest_bd 3 (eT 3) (useE n 3) _ M.2.2.2.2.2.1
  have B4 := rest_bd 4 (eT 4) (useE n 4) _ M.2.2.2.2.2.2.1
  have B5 := rest_bd 5 (eT 5) (useE n 5) _ M.2.2.2.2.2.2.2
  refine ((((((B0.add B1).add B2).add B3).add B4).add B5).add corrE_bd).congr (fun t => ?_) |>.mono ?_
  · unfold eR
    have e0 : ordL 0 ((eT 0).take 1) t / 10 ^ 10 = 1.7534704567 := by
      rw [eT_head01, ordL, ser_cons, ser_nil]
      simp only [dec]
      norm_num
    have e1 : ordL 1 ((eT 1).take 1) t / 10 ^ 10 = 628.33196674749 * t := by
      rw [eT_head11, ordL, ser_cons, ser_nil]
      simp only [dec]
      norm_num
      ring
    rw [take_split (eT 0) h0, take_split (eT 1) h1, ordL_append, ordL_append]
    rw [add_div, add_div, add_div, add_div, add_div, add_div, add_div, e0, e1]
    ring
  · norm_num

theorem useE_all : useE (-1) 0 = 186 ∧ useE (-1) 1 = 114 ∧ useE (-1) 2 = 60 ∧ useE (-1) 3 = 8 ∧ useE (-1) 4 = 4 ∧ useE (-1) 5 = 4 := by
  decide +kernel

/-- what is lost when `n` terms are used instead of all -/
theorem eR_trunc (n : ℤ) (N : ℕ) (hN : ampI ((eT 0).drop (useE n 0)) + 3 * ampI ((eT 1).drop (useE n 1)) + 9 * ampI ((eT 2).drop (useE n 2))
      + 27 * ampI ((eT 3).drop (useE n 3)) + 81 * ampI ((eT 4).drop (useE n 4)) + 243 * ampI ((eT 5).drop (useE n 5)) ≤ N) :
    Bd 30 (fun t => eR n t - eR (-1) t) ((N : ℝ) / 10 ^ 19) := by
  intro t ht
  obtain ⟨l0, l1, l2, l3, l4, l5⟩ := eT_length
  obtain ⟨u0, u1, u2, u3, u4, u5⟩ := useE_all
  have key : ∀ i, ordL i (eT i) t - ordL i ((eT i).take (useE n i)) t = ordL i ((eT i).drop (useE n i)) t := by
    intro i
    have := ordL_append i ((eT i).take (useE n i)) ((eT i).drop (useE n i)) t
    rw [List.take_append_drop] at this
    rw [this]; ring
  have b := fun i => ordL_bd i ((eT i).drop (useE n i)) t ht
  have e : eR n t - eR (-1) t = -(ordL 0 ((eT 0).drop (useE n 0)) t + ordL 1 ((eT 1).drop (useE n 1)) t + ordL 2 ((eT 2).drop (useE n 2)) t
      + ordL 3 ((eT 3).drop (useE n 3)) t + ordL 4 ((eT 4).drop (useE n 4)) t + ordL 5 ((eT 5).drop (useE n 5)) t) / 10 ^ 10 := by
    unfold eR
    rw [u0, u1, u2, u3, u4, u5, List.take_of_length_le l0.le, List.take_of_length_le l1.le, List.take_of_length_le l2.le,
      List.take_of_length_le l3.le, List.take_of_length_le l4.le, List.take_of_length_le l5.le]
    rw [← key 0, ← key 1, ← key 2, ← key 3, ← key 4, ← key 5]
    ring
  have hN' : ((ampI ((eT 0).drop (useE n 0)) : ℕ) : ℝ) + 3 * (ampI ((eT 1).drop (useE n 1)) : ℕ) + 9 * (ampI ((eT 2).drop (useE n 2)) : ℕ)
      + 27 * (ampI ((eT 3).drop (useE n 3)) : ℕ) + 81 * (ampI ((eT 4).drop (useE n 4)) : ℕ) + 243 * (ampI ((eT 5).drop (useE n 5)) : ℕ) ≤ N := by
    exact_mod_cast hN
  have b0 := b 0
  have b1 := b 1
  have b2 := b 2
  have b3 := b 3
  have b4 := b 4
  have b5 := b 5
  simp only [e]
  rw [abs_div, abs_neg, abs_of_pos (show (0 : ℝ) < 10 ^ 10 by positivity), div_le_iff₀ (by positivity)]
  have tri : ∀ a b c d x y : ℝ, |a + b + c + d + x + y| ≤ |a| + |b| + |c| + |d| + |x| + |y| := fun a b c d x y => by
    have h1 := abs_add_le (a + b + c + d + x) y
    have h2 := abs_add_le (a + b + c + d) x
    have h3 := abs_add_le (a + b + c) d
    have h4 := abs_add_le (a + b) c
    have h5 := abs_add_le a b
    linarith
  refine (tri _ _ _ _ _ _).trans ?_
  norm_num at b0 b1 b2 b3 b4 b5 ⊢
  linarith

end Verif.Longitude
