import Verif.Props.LonMoonSolve

/-!
# The change of the phase over a fixed span of about a month (used by C78)

Over a fixed time `Δ` a periodic term `A cos P` changes by at most `A·|ωΔ - 2πk|`; the sum over the tables is evaluated by the kernel.
-/

namespace Verif.Longitude

open Real Verif.Series Verif.EphTab

/-- the change over the span `Δ` is at most `B` -/
def Inc (Δ R : ℝ) (f : ℝ → ℝ) (B : ℝ) : Prop := ∀ s, |s| ≤ R → |s + Δ| ≤ R → |f (s + Δ) - f s| ≤ B

section
variable {Δ R : ℝ} {f g : ℝ → ℝ} {A B K : ℝ}

theorem Inc.mono (h : Inc Δ R f A) (hB : A ≤ B) : Inc Δ R f B := fun s h1 h2 => (h s h1 h2).trans hB
theorem Inc.congr (h : Inc Δ R f A) (e : ∀ t, g t = f t) : Inc Δ R g A := fun s h1 h2 => by rw [e, e]; exact h s h1 h2
theorem Inc.add (hf : Inc Δ R f A) (hg : Inc Δ R g B) : Inc Δ R (fun t => f t + g t) (A + B) := fun s h1 h2 => by
  show |f (s + Δ) + g (s + Δ) - (f s + g s)| ≤ _
  rw [show f (s + Δ) + g (s + Δ) - (f s + g s) = (f (s + Δ) - f s) + (g (s + Δ) - g s) by ring]
  exact (abs_add_le _ _).trans (add_le_add (hf s h1 h2) (hg s h1 h2))
theorem Inc.of_lip (h : Lip R f K) (hΔ : 0 ≤ Δ) : Inc Δ R f (K * Δ) := fun s h1 h2 => by
  have := h s (s + Δ) h1 h2
  rwa [add_sub_cancel_left, abs_of_nonneg hΔ] at this
end

/-! ## One term -/

/-- `2π` in units of `10⁻²¹` -/
def K2 : ℕ := 6283185307179586476925

/-- how far an angle of `x·10⁻²¹` rad is from a whole number of turns, at most 2 -/
def red (x : ℕ) : ℕ := min (2 * 10 ^ 21) (((x : ℤ) - ((x + K2 / 2) / K2 * K2 : ℕ)).natAbs + 20 * ((x + K2 / 2) / K2))

theorem two_pi_K2 : |2 * π - (K2 : ℝ) / 10 ^ 21| ≤ 20 / 10 ^ 21 := by
  have p1 := pi_gt_d20
  have p2 := pi_lt_d20
  have e : ((K2 : ℕ) : ℝ) = 6283185307179586476925 := by unfold K2; norm_num
  rw [e, abs_le]
  norm_num at p1 p2 ⊢
  constructor <;> linarith

theorem cos_inc (x : ℕ) (y d e : ℝ) (hd : |(|d|) - (x : ℝ) / 10 ^ 21| ≤ e) : |cos (y + d) - cos y| ≤ (red x : ℝ) / 10 ^ 21 + e := by
  have he : 0 ≤ e := (abs_nonneg _).trans hd
  obtain ⟨k, hk⟩ : ∃ k, k = (x + K2 / 2) / K2 := ⟨_, rfl⟩
  have hr : red x = min (2 * 10 ^ 21) (((x : ℤ) - (k * K2 : ℕ)).natAbs + 20 * k) := by rw [hk, red]
  rw [hr]
  have two : |cos (y + d) - cos y| ≤ 2 := by
    have a := abs_le.1 (abs_cos_le_one (y + d))
    have b := abs_le.1 (abs_cos_le_one y)
    rw [abs_le]; constructor <;> linarith
  have lin : |cos (y + d) - cos y| ≤ |(|d|) - k * (2 * π)| := by
    rcases le_total 0 d with h | h
    · rw [abs_of_nonneg h, show cos (y + d) = cos (y + d - k * (2 * π)) by rw [cos_sub_nat_mul_two_pi]]
      refine (abs_cos_sub_cos _ _).trans (le_of_eq (by congr 1; ring))
    · rw [abs_of_nonpos h, show cos (y + d) = cos (y + d + k * (2 * π)) by rw [cos_add_nat_mul_two_pi]]
      refine (abs_cos_sub_cos _ _).trans (le_of_eq ?_)
      rw [← abs_neg]; congr 1; ring
  have c1 : ((((x : ℤ) - (k * K2 : ℕ)).natAbs : ℕ) : ℝ) = |(x : ℝ) - k * K2| := by
    rw [Nat.cast_natAbs, Int.cast_abs]; push_cast; rfl
  have key : |(|d|) - k * (2 * π)| ≤ ((((x : ℤ) - (k * K2 : ℕ)).natAbs + 20 * k : ℕ) : ℝ) / 10 ^ 21 + e := by
    rw [Nat.cast_add, c1, Nat.cast_mul, Nat.cast_ofNat]
    have q := two_pi_K2
    have e1 : |d| - k * (2 * π) = (|d| - (x : ℝ) / 10 ^ 21) + ((x : ℝ) - k * K2) / 10 ^ 21 - k * (2 * π - K2 / 10 ^ 21) := by ring
    rw [e1]
    have a1 := abs_add_le (|d| - (x : ℝ) / 10 ^ 21) (((x : ℝ) - k * K2) / 10 ^ 21)
    have a2 := abs_sub (|d| - (x : ℝ) / 10 ^ 21 + ((x : ℝ) - k * K2) / 10 ^ 21) (k * (2 * π - K2 / 10 ^ 21))
    have a3 : |((x : ℝ) - k * K2) / 10 ^ 21| = |(x : ℝ) - k * K2| / 10 ^ 21 := by rw [abs_div, abs_of_pos (show (0 : ℝ) < 10 ^ 21 by positivity)]
    have a4 : |(k : ℝ) * (2 * π - (K2 : ℝ) / 10 ^ 21)| ≤ (k : ℝ) * (20 / 10 ^ 21) := by
      rw [abs_mul, abs_of_nonneg (show (0 : ℝ) ≤ k by positivity)]
      exact mul_le_mul_of_nonneg_left q (by positivity)
    rw [a3] at a1
    have : (|(x : ℝ) - k * K2| + 20 * k) / 10 ^ 21 = |(x : ℝ) - k * K2| / 10 ^ 21 + k * (20 / 10 ^ 21) := by ring
    rw [this]
    linarith
  rcases min_choice (2 * 10 ^ 21) (((x : ℤ) - (k * K2 : ℕ)).natAbs + 20 * k) with h | h
  · rw [h, show (((2 * 10 ^ 21 : ℕ) : ℝ) / 10 ^ 21) = 2 by norm_num]
    linarith
  · rw [h]; exact lin.trans key

/-! ## The series -/

/-- bound of the change of the sum of the terms over `n·10⁻¹²` centuries within `|t| ≤ 30`, in units of `10⁻³⁰` -/
def inc6 (n : ℕ) (l : List T6) : ℕ := (l.map (fun q => q.1.natAbs * (red (q.2.2.1.natAbs * n)
  + ((600000 * q.2.2.2.1.natAbs + 2700 * q.2.2.2.2.1.natAbs + 108000 * q.2.2.2.2.2.natAbs) * n / 10 ^ 8 + 1)))).sum

theorem ser6_inc (n : ℕ) (l : List T6) : Inc ((n : ℝ) / 10 ^ 12) 30 (ser6 l) ((inc6 n l : ℝ) / 10 ^ 30) := by
  intro s hs ht
  obtain ⟨Δ, hΔ⟩ : ∃ Δ : ℝ, Δ = (n : ℝ) / 10 ^ 12 := ⟨_, rfl⟩
  have hΔ0 : 0 ≤ Δ := by rw [hΔ]; positivity
  rw [← hΔ] at ht ⊢
  induction l with
  | nil => simp [ser6_nil, inc6]
  | cons q l ih =>
    rw [ser6_cons, ser6_cons]
    obtain ⟨N, hN⟩ : ∃ N, N = (600000 * q.2.2.2.1.natAbs + 2700 * q.2.2.2.2.1.natAbs + 108000 * q.2.2.2.2.2.natAbs) * n := ⟨_, rfl⟩
    have e : ((inc6 n (q :: l) : ℕ) : ℝ) / 10 ^ 30 = (q.1.natAbs : ℝ) / 10 ^ 9 * ((red (q.2.2.1.natAbs * n) : ℝ) / 10 ^ 21 + ((N / 10 ^ 8 + 1 : ℕ) : ℝ) / 10 ^ 21)
        + (inc6 n l : ℝ) / 10 ^ 30 := by
      rw [hN]
      simp only [inc6, List.map_cons, List.sum_cons, Nat.cast_add, Nat.cast_mul]
      ring
    obtain ⟨P, hP⟩ : ∃ P : ℝ → ℝ, P = ph (dec q.2.1) (dec q.2.2.1) (dec q.2.2.2.1) (dec q.2.2.2.2.1) (dec q.2.2.2.2.2) := ⟨_, rfl⟩
    have hl := ph_lip (by norm_num) (dec q.2.1) (dec q.2.2.1) (dec q.2.2.2.1) (dec q.2.2.2.2.1) (dec q.2.2.2.2.2) hs ht
    rw [e, ← hP]
    rw [← hP, abs_dec, abs_dec, abs_dec, add_sub_cancel_left, abs_of_nonneg hΔ0] at hl
    rw [show dec q.1 * cos (P (s + Δ)) + ser6 l (s + Δ) - (dec q.1 * cos (P s) + ser6 l s) = dec q.1 * (cos (P (s + Δ)) - cos (P s)) + (ser6 l (s + Δ) - ser6 l s) by ring]
    refine (abs_add_le _ _).trans (add_le_add ?_ ih)
    rw [abs_mul, abs_dec]
    refine mul_le_mul_of_nonneg_left ?_ (by positivity)
    rw [show P (s + Δ) = P s + (P (s + Δ) - P s) by ring]
    refine cos_inc _ _ _ _ ?_
    have h1 : |(|P (s + Δ) - P s|) - (|dec q.2.2.1 * Δ|)| ≤ |P (s + Δ) - P s - dec q.2.2.1 * Δ| := abs_abs_sub_abs_le _ _
    have h2 : |dec q.2.2.1 * Δ| = ((q.2.2.1.natAbs * n : ℕ) : ℝ) / 10 ^ 21 := by
      rw [abs_mul, abs_dec, abs_of_nonneg hΔ0, hΔ]; push_cast; ring
    rw [h2] at h1
    refine h1.trans (hl.trans ?_)
    have h3 : (N : ℝ) < ((N / 10 ^ 8 + 1 : ℕ) : ℝ) * 10 ^ 8 := by
      have h4 : N < (N / 10 ^ 8 + 1) * 10 ^ 8 := by
        have := Nat.div_add_mod N (10 ^ 8)
        have := Nat.mod_lt N (show 10 ^ 8 > 0 by norm_num)
        omega
      exact_mod_cast h4
    have h5 : (2 * 30 * ((q.2.2.2.1.natAbs : ℝ) / 10 ^ 9) / 1e4 + 3 * 30 ^ 2 * ((q.2.2.2.2.1.natAbs : ℝ) / 10 ^ 9) / 1e8 + 4 * 30 ^ 3 * ((q.2.2.2.2.2.natAbs : ℝ) / 10 ^ 9) / 1e8) * Δ
        = (N : ℝ) / 10 ^ 29 := by
      rw [hΔ, hN]; push_cast; norm_num; ring
    rw [h5, div_le_div_iff₀ (by positivity) (by positivity)]
    nlinarith

theorem ordM_inc (n i : ℕ) (l : List T6) (I A : ℕ) (hI : inc6 n l ≤ I) (hA : amp6 l ≤ A) :
    Inc ((n : ℝ) / 10 ^ 12) 30 (fun t => ordM i l t / radSec) ((30 ^ i * ((I : ℝ) / 10 ^ 30) + i * 30 ^ (i - 1) * ((n : ℝ) / 10 ^ 12) * ((A : ℝ) / 10 ^ 9)) / 206264.7) := by
  intro s hs ht
  have h1 := ser6_inc n l s hs ht
  have hI' : (inc6 n l : ℝ) / 10 ^ 30 ≤ (I : ℝ) / 10 ^ 30 := by
    have : ((inc6 n l : ℕ) : ℝ) ≤ I := by exact_mod_cast hI
    gcongr
  have hA' : (amp6 l : ℝ) / 10 ^ 9 ≤ (A : ℝ) / 10 ^ 9 := by
    have : ((amp6 l : ℕ) : ℝ) ≤ A := by exact_mod_cast hA
    gcongr
  obtain ⟨Δ, hΔ⟩ : ∃ Δ : ℝ, Δ = (n : ℝ) / 10 ^ 12 := ⟨_, rfl⟩
  have hΔ0 : 0 ≤ Δ := by rw [hΔ]; positivity
  rw [← hΔ] at ht h1 ⊢
  have h2 := ser6_bd l (s + Δ)
  have h3 := Lip.pow (R := 30) (by norm_num) i s (s + Δ) hs ht
  have h4 := Bd.pow (R := 30) (by norm_num) i s hs
  rw [add_sub_cancel_left, abs_of_nonneg hΔ0] at h3
  show |ordM i l (s + Δ) / radSec - ordM i l s / radSec| ≤ _
  have r := radSec_gt'
  have r0 : 0 < radSec := by linarith
  rw [← sub_div, abs_div, abs_of_pos r0]
  have e : ordM i l (s + Δ) - ordM i l s = s ^ i * (ser6 l (s + Δ) - ser6 l s) + ((s + Δ) ^ i - s ^ i) * ser6 l (s + Δ) := by unfold ordM; ring
  refine div_le_div₀ (by positivity) ?_ (by norm_num) r.le
  rw [e]
  refine (abs_add_le _ _).trans ?_
  rw [abs_mul, abs_mul]
  refine add_le_add (mul_le_mul h4 (h1.trans hI') (abs_nonneg _) (by positivity)) ?_
  exact mul_le_mul h3 (h2.trans hA') (abs_nonneg _) (by positivity)

/-- the same for the series of the Earth, over `m·10⁻¹²` millennia -/
def incI (m : ℕ) (l : List T3) : ℕ := (l.map (fun q => q.1.natAbs * red (q.2.2.natAbs * m))).sum

theorem ser_inc (m : ℕ) (l : List T3) (s : ℝ) : |ser l (s + (m : ℝ) / 10 ^ 12) - ser l s| ≤ (incI m l : ℝ) / 10 ^ 30 := by
  obtain ⟨Δ, hΔ⟩ : ∃ Δ : ℝ, Δ = (m : ℝ) / 10 ^ 12 := ⟨_, rfl⟩
  have hΔ0 : 0 ≤ Δ := by rw [hΔ]; positivity
  rw [← hΔ]
  induction l with
  | nil => simp [ser_nil, incI]
  | cons q l ih =>
    rw [ser_cons, ser_cons]
    have e : ((incI m (q :: l) : ℕ) : ℝ) / 10 ^ 30 = (q.1.natAbs : ℝ) / 10 ^ 9 * ((red (q.2.2.natAbs * m) : ℝ) / 10 ^ 21)
        + (incI m l : ℝ) / 10 ^ 30 := by
      simp only [incI, List.map_cons, List.sum_cons, Nat.cast_add, Nat.cast_mul]
      ring
    rw [e, show dec q.1 * cos (dec q.2.1 + (s + Δ) * dec q.2.2) + ser l (s + Δ) - (dec q.1 * cos (dec q.2.1 + s * dec q.2.2) + ser l s)
      = dec q.1 * (cos (dec q.2.1 + s * dec q.2.2 + Δ * dec q.2.2) - cos (dec q.2.1 + s * dec q.2.2)) + (ser l (s + Δ) - ser l s) by
        rw [show dec q.2.1 + (s + Δ) * dec q.2.2 = dec q.2.1 + s * dec q.2.2 + Δ * dec q.2.2 by ring]; ring]
    refine (abs_add_le _ _).trans (add_le_add ?_ ih)
    rw [abs_mul, abs_dec]
    refine mul_le_mul_of_nonneg_left ?_ (by positivity)
    have := cos_inc (q.2.2.natAbs * m) (dec q.2.1 + s * dec q.2.2) (Δ * dec q.2.2) 0 (by
      rw [abs_mul, abs_dec, abs_of_nonneg hΔ0, hΔ]
      push_cast
      rw [show (m : ℝ) / 10 ^ 12 * ((q.2.2.natAbs : ℝ) / 10 ^ 9) - (q.2.2.natAbs : ℝ) * m / 10 ^ 21 = 0 by ring]
      simp)
    linarith

theorem ordL_inc (m i : ℕ) (l : List T3) (I A : ℕ) (hI : incI m l ≤ I) (hA : ampI l ≤ A) :
    Inc ((m : ℝ) / 10 ^ 11) 30 (fun t => ordL i l t / 10 ^ 10) ((3 ^ i * ((I : ℝ) / 10 ^ 30) + i * 3 ^ (i - 1) * ((m : ℝ) / 10 ^ 12) * ((A : ℝ) / 10 ^ 9)) / 10 ^ 10) := by
  intro s hs ht
  obtain ⟨Δ, hΔ⟩ : ∃ Δ : ℝ, Δ = (m : ℝ) / 10 ^ 12 := ⟨_, rfl⟩
  have hΔ0 : 0 ≤ Δ := by rw [hΔ]; positivity
  have h1 := ser_inc m l (s / 10)
  have hI' : (incI m l : ℝ) / 10 ^ 30 ≤ (I : ℝ) / 10 ^ 30 := by
    have : ((incI m l : ℕ) : ℝ) ≤ I := by exact_mod_cast hI
    gcongr
  have hA' : (ampI l : ℝ) / 10 ^ 9 ≤ (A : ℝ) / 10 ^ 9 := by
    have : ((ampI l : ℕ) : ℝ) ≤ A := by exact_mod_cast hA
    gcongr
  have et : (s + (m : ℝ) / 10 ^ 11) / 10 = s / 10 + Δ := by rw [hΔ]; ring
  have ht' := tenth ht
  rw [et] at ht'
  rw [← hΔ] at h1 ⊢
  have h2 := ser_bd l (s / 10 + Δ)
  have h3 := Lip.pow (R := 3) (by norm_num) i (s / 10) (s / 10 + Δ) (tenth hs) ht'
  have h4 := Bd.pow (R := 3) (by norm_num) i (s / 10) (tenth hs)
  rw [add_sub_cancel_left, abs_of_nonneg hΔ0] at h3
  show |ordL i l (s + (m : ℝ) / 10 ^ 11) / 10 ^ 10 - ordL i l s / 10 ^ 10| ≤ _
  rw [← sub_div, abs_div, abs_of_pos (show (0 : ℝ) < 10 ^ 10 by positivity)]
  have e : ordL i l (s + (m : ℝ) / 10 ^ 11) - ordL i l s = (s / 10) ^ i * (ser l (s / 10 + Δ) - ser l (s / 10)) + ((s / 10 + Δ) ^ i - (s / 10) ^ i) * ser l (s / 10 + Δ) := by
    unfold ordL; rw [et]; ring
  refine div_le_div_of_nonneg_right ?_ (by positivity)
  rw [e]
  refine (abs_add_le _ _).trans ?_
  rw [abs_mul, abs_mul]
  refine add_le_add (mul_le_mul h4 (h1.trans hI') (abs_nonneg _) (by positivity)) ?_
  exact mul_le_mul h3 (h2.trans hA') (abs_nonneg _) (by positivity)


/-! ## Earth and moon over 29 and over 30 days -/

theorem eR_all (t : ℝ) : eR (-1) t = 1.7534704567 + 628.33196674749 * t + (ordL 0 ((eT 0).drop 1) t / 10 ^ 10 + ordL 1 ((eT 1).drop 1) t / 10 ^ 10 + ordL 2 (eT 2) t / 10 ^ 10
    + ordL 3 (eT 3) t / 10 ^ 10 + ordL 4 (eT 4) t / 10 ^ 10 + ordL 5 (eT 5) t / 10 ^ 10) + corrE t := by
  obtain ⟨u0, u1, u2, u3, u4, u5⟩ := useE_all
  obtain ⟨l0, l1, l2, l3, l4, l5⟩ := eT_length
  unfold eR
  rw [u0, u1, u2, u3, u4, u5, List.take_of_length_le l0.le, List.take_of_length_le l1.le, List.take_of_length_le l2.le, List.take_of_length_le l3.le,
    List.take_of_length_le l4.le, List.take_of_length_le l5.le]
  have e0 : ordL 0 (eT 0) t = 17534704567 + ordL 0 ((eT 0).drop 1) t := by
    conv_lhs => rw [← List.take_append_drop 1 (eT 0), ordL_append, eT_head01, ordL, ser_cons, ser_nil]
    simp only [dec]
    norm_num
  have e1 : ordL 1 (eT 1) t = 6283319667474.9 * t + ordL 1 ((eT 1).drop 1) t := by
    conv_lhs => rw [← List.take_append_drop 1 (eT 1), ordL_append, eT_head11, ordL, ser_cons, ser_nil]
    simp only [dec]
    norm_num
    ring
  rw [e0, e1]
  ring

theorem eR_inc (m : ℕ) (I0 I1 I2 I3 I4 I5 : ℕ) (h0 : incI m ((eT 0).drop 1) ≤ I0) (h1 : incI m ((eT 1).drop 1) ≤ I1) (h2 : incI m (eT 2) ≤ I2)
    (h3 : incI m (eT 3) ≤ I3) (h4 : incI m (eT 4) ≤ I4) (h5 : incI m (eT 5) ≤ I5) :
    Inc ((m : ℝ) / 10 ^ 11) 30 (fun t => eR (-1) t - 628.33196674749 * t)
      ((I0 + 3 * I1 + 9 * I2 + 27 * I3 + 81 * I4 + 243 * I5) / 10 ^ 40 + (m : ℝ) / 10 ^ 11 * 0.001) := by
  have M := eT_amp
  have B0 := ordL_inc m 0 _ _ _ h0 M.1
  have B1 := ordL_inc m 1 _ _ _ h1 M.2.1
  have B2 := ordL_inc m 2 _ _ _ h2 M.2.2.1
  have B3 := ordL_inc m 3 _ _ _ h3 M.2.2.2.2.2.1
  have B4 := ordL_inc m 4 _ _ _ h4 M.2.2.2.2.2.2.1
  have B5 := ordL_inc m 5 _ _ _ h5 M.2.2.2.2.2.2.2
  have C := Inc.of_lip (Δ := (m : ℝ) / 10 ^ 11) corrE_lip (by positivity)
  have D := Inc.of_lip (Δ := (m : ℝ) / 10 ^ 11) (Lip.const (R := 30) 1.7534704567) (by positivity)
  refine (((((((B0.add B1).add B2).add B3).add B4).add B5).add C).add D).congr (fun t => ?_) |>.mono ?_
  · rw [eR_all]; ring
  · have : (0 : ℝ) ≤ m := by positivity
    push_cast
    norm_num
    ring_nf
    norm_num
    linarith

theorem moon_rest_inc (n : ℕ) (l : List T6) (I0 I1 I2 I3 A : ℕ) (h0 : inc6 n l ≤ I0) (h1 : inc6 n (mT 1) ≤ I1) (h2 : inc6 n (mT 2) ≤ I2) (h3 : inc6 n (mT 3) ≤ I3) (hA : amp6 l ≤ A) :
    Inc ((n : ℝ) / 10 ^ 12) 30 (fun t => 3.81034409 + -0.0000277967 * t ^ 2 + polyM t + ordM 0 l t / radSec + ordM 1 (mT 1) t / radSec + ordM 2 (mT 2) t / radSec + ordM 3 (mT 3) t / radSec)
      ((I0 + 30 * I1 + 900 * I2 + 27000 * I3) / 10 ^ 30 / 206264.7 + (n : ℝ) / 10 ^ 12 * 0.002) := by
  obtain ⟨a0, a1, a2, a3⟩ := mT_amp
  have u0 := ordM_inc n 0 l _ _ h0 hA
  have u1 := ordM_inc n 1 (mT 1) _ _ h1 a1
  have u2 := ordM_inc n 2 (mT 2) _ _ h2 a2
  have u3 := ordM_inc n 3 (mT 3) _ _ h3 a3
  have c2 := Inc.of_lip (Δ := (n : ℝ) / 10 ^ 12) ((Lip.pow (R := 30) (by norm_num) 2).smul (-0.0000277967)) (by positivity)
  have c3 := Inc.of_lip (Δ := (n : ℝ) / 10 ^ 12) (polyM_lip (R := 30) (by norm_num)) (by positivity)
  have D := Inc.of_lip (Δ := (n : ℝ) / 10 ^ 12) (Lip.const (R := 30) 3.81034409) (by positivity)
  refine ((((((D.add c2).add c3).add u0).add u1).add u2).add u3).mono ?_
  have : (0 : ℝ) ≤ n := by positivity
  push_cast
  norm_num [abs_of_neg]
  ring_nf
  norm_num
  linarith

/-- the moon without the mean speed; `l` replaces the main table -/
noncomputable def restM (l : List T6) (t : ℝ) : ℝ :=
  3.81034409 + -0.0000277967 * t ^ 2 + polyM t + ordM 0 l t / radSec + ordM 1 (mT 1) t / radSec + ordM 2 (mT 2) t / radSec + ordM 3 (mT 3) t / radSec

theorem fS_split (t : ℝ) : fS (-1) (-1) t - 7771.37714500204 * t
    = restM (mT 0) t + (-1 * (eR (-1) t - 628.33196674749 * t) + (-1 * gxcSunLon t + (-(0.00000137753 : ℝ) * t + (-3.4E-6 - π)))) := by
  unfold fS restM
  rw [mS_all, add_div, meanS_eq]
  unfold gxcMoonLon
  norm_num
  ring

theorem Inc.neg {Δ R A : ℝ} {f : ℝ → ℝ} (h : Inc Δ R f A) : Inc Δ R (fun t => -1 * f t) A := fun s h1 h2 => by
  show |-1 * f (s + Δ) - -1 * f s| ≤ A
  rw [show -1 * f (s + Δ) - -1 * f s = -(f (s + Δ) - f s) by ring, abs_neg]
  exact h s h1 h2

/-- less than a turn in 29 days 6 minutes -/
theorem fS_29 : Inc 0.00079409081 30 (fun t => fS (-1) (-1) t - 7771.37714500204 * t) 0.0835 := by
  have E := eR_inc 79409081 171240000000000000000000000000000000000 10747000000000000000000000000000000000 468910000000000000000000000000000000
    16223000000000000000000000000000000 462540000000000000000000000000000 11538000000000000000000000000000
    (by decide +kernel) (by decide +kernel) (by decide +kernel) (by decide +kernel) (by decide +kernel) (by decide +kernel)
  have M := moon_rest_inc 794090810 (mT 0) 12835000000000000000000000000000000 2372400000000000000000000000000 6730900000000000000000000000 22983000000000000000000 _
    (by decide +kernel) (by decide +kernel) (by decide +kernel) (by decide +kernel) mT_amp.1
  have G := Inc.of_lip (Δ := 0.00079409081) gxc_lip (by norm_num)
  have Z := Inc.of_lip (Δ := 0.00079409081) (((Lip.id (R := 30)).smul (-(0.00000137753 : ℝ))).add (Lip.const (-3.4E-6 - π))) (by norm_num)
  rw [show ((79409081 : ℕ) : ℝ) / 10 ^ 11 = 0.00079409081 by norm_num] at E
  rw [show ((794090810 : ℕ) : ℝ) / 10 ^ 12 = 0.00079409081 by norm_num] at M
  refine (((M.add (E.neg.add (G.neg.add Z))).congr fS_split).mono ?_)
  push_cast
  norm_num [abs_of_neg]

/-- the other terms of the moon and those of the sun over 29 days 23 hours 54 minutes -/
theorem rest_30 : Inc 0.00082124115 30 (fun t => restM ((mT 0).take 3 |>.drop 1 |>.append ((mT 0).drop 4)) t
    + (-1 * (eR (-1) t - 628.33196674749 * t) + (-1 * gxcSunLon t + (-(0.00000137753 : ℝ) * t + (-3.4E-6 - π))))) 0.0423 := by
  have E := eR_inc 82124115 177090000000000000000000000000000000000 11114000000000000000000000000000000000 484950000000000000000000000000000000
    16777000000000000000000000000000000 478350000000000000000000000000000 11932000000000000000000000000000
    (by decide +kernel) (by decide +kernel) (by decide +kernel) (by decide +kernel) (by decide +kernel) (by decide +kernel)
  have M := moon_rest_inc 821241150 ((mT 0).take 3 |>.drop 1 |>.append ((mT 0).drop 4)) 4204600000000000000000000000000000 2209000000000000000000000000000 6288700000000000000000000000 23769000000000000000000
    33178680000000 (by decide +kernel) (by decide +kernel) (by decide +kernel) (by decide +kernel) (by decide +kernel)
  have G := Inc.of_lip (Δ := 0.00082124115) gxc_lip (by norm_num)
  have Z := Inc.of_lip (Δ := 0.00082124115) (((Lip.id (R := 30)).smul (-(0.00000137753 : ℝ))).add (Lip.const (-3.4E-6 - π))) (by norm_num)
  rw [show ((82124115 : ℕ) : ℝ) / 10 ^ 11 = 0.00082124115 by norm_num] at E
  rw [show ((821241150 : ℕ) : ℝ) / 10 ^ 12 = 0.00082124115 by norm_num] at M
  refine ((M.add (E.neg.add (G.neg.add Z))).mono ?_)
  push_cast
  norm_num [abs_of_neg]

theorem mT_head4 : (mT 0).take 4 = [(22639586000000, 784758220, 8328691424623, 1522924100, 25071900000, -123598000), (4586438000000, 187397400, 7214062865360, -2184756000, -18860000000, 82800000),
    (2369914000000, 2542952000, 15542754289980, -661832000, 6212000000, -40800000), (769026000000, 3140313000, 16657382849250, 3045850000, 50144000000, -247200000)] := by decide +kernel

noncomputable def phX : ℝ → ℝ := ph (dec 784758220) (dec 8328691424623) (dec 1522924100) (dec 25071900000) (dec (-123598000))
noncomputable def ph2X : ℝ → ℝ := ph (dec 3140313000) (dec 16657382849250) (dec 3045850000) (dec 50144000000) (dec (-247200000))

theorem restM_split (t : ℝ) : restM (mT 0) t = restM ((mT 0).take 3 |>.drop 1 |>.append ((mT 0).drop 4)) t
    + (22639.586 * cos (phX t) + 769.026 * cos (ph2X t)) / radSec := by
  have e : ordM 0 (mT 0) t = ordM 0 ((mT 0).take 3 |>.drop 1 |>.append ((mT 0).drop 4)) t + (22639.586 * cos (phX t) + 769.026 * cos (ph2X t)) := by
    conv_lhs => rw [← List.take_append_drop 4 (mT 0), ordM_append, mT_head4]
    rw [mT_head3, show ∀ l : List T6, List.append (List.drop 1 [(22639586000000, 784758220, 8328691424623, 1522924100, 25071900000, -123598000), (4586438000000, 187397400, 7214062865360, -2184756000, -18860000000, 82800000),
      (2369914000000, 2542952000, 15542754289980, -661832000, 6212000000, -40800000)]) l = [(4586438000000, 187397400, 7214062865360, -2184756000, -18860000000, 82800000),
      (2369914000000, 2542952000, 15542754289980, -661832000, 6212000000, -40800000)] ++ l from fun l => rfl, ordM_append]
    simp only [ordM, ser6_cons, ser6_nil, pow_zero, phX, ph2X]
    rw [show dec 22639586000000 = 22639.586 by simp only [dec]; norm_num, show dec 769026000000 = 769.026 by simp only [dec]; norm_num]
    ring
  unfold restM
  rw [e]
  ring

/-- the second term of the moon's longitude is the first harmonic of the greatest -/
theorem ph2X_eq {t : ℝ} (ht : |t| ≤ 30) : |ph2X t - 2 * phX t - π / 2| ≤ 0.00001 := by
  have p1 := pi_gt_d20
  have p2 := pi_lt_d20
  have h2 := Bd.pow (R := 30) (by norm_num) 2 t ht
  have h3 := Bd.pow (R := 30) (by norm_num) 3 t ht
  have h4 := Bd.pow (R := 30) (by norm_num) 4 t ht
  have e : ph2X t - 2 * phX t = 1.57079656 + 0.000000004 * t + 0.00000000018 * t ^ 2 + 0.000000000002 * t ^ 3 - 0.00000000000004 * t ^ 4 := by
    unfold ph2X phX ph
    simp only [dec]
    norm_num
    ring
  rw [e, abs_le]
  simp only [abs_le] at ht h2 h3 h4
  norm_num at p1 p2 ht h2 h3 h4 ⊢
  constructor <;> linarith [ht.1, ht.2, h2.1, h2.2, h3.1, h3.2, h4.1, h4.2]

theorem pair_low {A B s1 s2 S : ℝ} (hA : 4 * B * s2 ≤ A * s1) (hB : 0 ≤ B * s2) (_ : -1 ≤ S) (h2 : S ≤ 1) :
    -(2 * A * s1) + 2 * B * s2 ≤ -2 * A * s1 * S - 2 * B * s2 * (1 - 2 * S ^ 2) := by
  nlinarith [mul_nonneg (sub_nonneg.2 h2) (sub_nonneg.2 hA), mul_nonneg (sub_nonneg.2 h2) (mul_nonneg hB (sub_nonneg.2 h2))]

/-- the two terms in the anomaly of the moon together -/
theorem pair_30 {s : ℝ} (hs : |s| ≤ 30) (ht : |s + 0.00082124115| ≤ 30) :
    -0.0565 * radSec ≤ 22639.586 * (cos (phX (s + 0.00082124115)) - cos (phX s)) + 769.026 * (cos (ph2X (s + 0.00082124115)) - cos (ph2X s)) := by
  have p1 := pi_gt_d20
  have p2 := pi_lt_d20
  obtain ⟨δ, hδ⟩ : ∃ δ, δ = phX (s + 0.00082124115) - phX s - 2 * π := ⟨_, rfl⟩
  have hl := ph_lip (by norm_num) (dec 784758220) (dec 8328691424623) (dec 1522924100) (dec 25071900000) (dec (-123598000)) hs ht
  rw [abs_dec, abs_dec, abs_dec, add_sub_cancel_left, abs_of_pos (show (0 : ℝ) < 0.00082124115 by norm_num)] at hl
  have d1 : 0.55665 ≤ δ ∧ δ ≤ 0.5567 := by
    change |phX (s + 0.00082124115) - phX s - _| ≤ _ at hl
    rw [abs_le] at hl
    simp only [dec] at hl
    norm_num at hl p1 p2 ⊢
    rw [hδ]
    constructor <;> linarith [hl.1, hl.2]
  have e1 : cos (phX (s + 0.00082124115)) = cos (phX s + δ) := by
    rw [hδ, show phX s + (phX (s + 0.00082124115) - phX s - 2 * π) = phX (s + 0.00082124115) - 2 * π by ring, cos_sub_two_pi]
  have two : ∀ {t : ℝ}, |t| ≤ 30 → |cos (ph2X t) + sin (2 * phX t)| ≤ 0.00001 := by
    intro t h
    have := abs_cos_sub_cos (ph2X t) (2 * phX t + π / 2)
    rw [cos_add_pi_div_two, sub_neg_eq_add] at this
    refine this.trans ?_
    rw [show ph2X t - (2 * phX t + π / 2) = ph2X t - 2 * phX t - π / 2 by ring]
    exact ph2X_eq h
  have t1 := two hs
  have t2 := two ht
  have e2 : sin (2 * phX (s + 0.00082124115)) = sin (2 * (phX s + δ)) := by
    rw [hδ, show 2 * (phX s + (phX (s + 0.00082124115) - phX s - 2 * π)) = 2 * phX (s + 0.00082124115) - (2 : ℕ) * (2 * π) by push_cast; ring, sin_sub_nat_mul_two_pi]
  rw [e1]
  rw [e2] at t2
  obtain ⟨θ, hθ⟩ : ∃ θ, θ = phX s + δ / 2 := ⟨_, rfl⟩
  have c1 : cos (phX s + δ) - cos (phX s) = -2 * sin θ * sin (δ / 2) := by
    rw [cos_sub_cos, hθ]; congr 2 <;> ring_nf
  have c2 : sin (2 * (phX s + δ)) - sin (2 * phX s) = 2 * (1 - 2 * sin θ ^ 2) * sin δ := by
    rw [sin_sub_sin, show (2 * (phX s + δ) + 2 * phX s) / 2 = 2 * θ by rw [hθ]; ring, cos_two_mul, cos_sq', show (2 * (phX s + δ) - 2 * phX s) / 2 = δ by ring]
    ring
  have s1 : sin (δ / 2) ≤ 0.2748 := by
    have := sin_bound (x := δ / 2) (by rw [abs_le]; constructor <;> linarith [d1.1, d1.2])
    have a4 : |δ / 2| ^ 5 ≤ 0.27835 ^ 5 := pow_le_pow_left₀ (abs_nonneg _) (by rw [abs_of_pos (by linarith [d1.1])]; linarith [d1.2]) 5
    have a3 : 0.278325 ^ 3 ≤ (δ / 2) ^ 3 := pow_le_pow_left₀ (by norm_num) (by linarith [d1.1]) 3
    rw [abs_le] at this
    norm_num at a3 a4 this ⊢
    linarith [this.2, d1.2]
  have s1' : 0 ≤ sin (δ / 2) := sin_nonneg_of_nonneg_of_le_pi (by linarith [d1.1]) (by norm_num at p1; linarith [d1.2])
  have s1g : 0.27 ≤ sin (δ / 2) := by
    have := sin_gt_sub_cube (x := δ / 2) (by linarith [d1.1])
    have a3 : (δ / 2) ^ 3 ≤ 0.27835 ^ 3 := pow_le_pow_left₀ (by linarith [d1.1]) (by linarith [d1.2]) 3
    norm_num at a3 ⊢
    linarith [d1.1]
  have s2 : 0.5278 ≤ sin δ := by
    have := sin_gt_sub_cube (x := δ) (by linarith [d1.1])
    have a3 : δ ^ 3 ≤ 0.5567 ^ 3 := pow_le_pow_left₀ (by linarith [d1.1]) (by linarith [d1.2]) 3
    norm_num at a3 ⊢
    linarith [d1.1]
  have s2' : sin δ ≤ 0.5567 := (sin_le (by linarith [d1.1])).trans d1.2
  have pl := pair_low (A := 22639.586) (B := 769.026) (s1 := sin (δ / 2)) (s2 := sin δ) (S := sin θ) (by norm_num at *; linarith) (by positivity)
    (neg_one_le_sin θ) (sin_le_one θ)
  rw [c1]
  have r1 := radSec_gt'
  rw [abs_le] at t1 t2
  norm_num at *
  linarith [t1.1, t1.2, t2.1, t2.2]

/-- more than a turn in 29 days 23 hours 54 minutes -/
theorem fS_30 {s : ℝ} (hs : |s| ≤ 30) (ht : |s + 0.00082124115| ≤ 30) : fS (-1) (-1) s + 2 * π + 0.0001 < fS (-1) (-1) (s + 0.00082124115) := by
  have p2 := pi_lt_d20
  have h := rest_30 s hs ht
  have e1 := fS_split s
  have e2 := fS_split (s + 0.00082124115)
  rw [restM_split] at e1 e2
  have r1 := radSec_gt'
  have q := pair_30 hs ht
  have q' : -0.0565 ≤ (22639.586 * cos (phX (s + 0.00082124115)) + 769.026 * cos (ph2X (s + 0.00082124115))) / radSec
      - (22639.586 * cos (phX s) + 769.026 * cos (ph2X s)) / radSec := by
    rw [← sub_div, le_div_iff₀ (by linarith)]
    linarith
  rw [abs_le] at h
  norm_num at *
  linarith [h.1]

theorem fS_29' {s : ℝ} (hs : |s| ≤ 30) (ht : |s + 0.00079409081| ≤ 30) : fS (-1) (-1) (s + 0.00079409081) < fS (-1) (-1) s + 2 * π - 0.0001 := by
  have p1 := pi_gt_d20
  have h := fS_29 s hs ht
  rw [abs_le] at h
  norm_num at *
  linarith [h.2]

end Verif.Longitude
