import Verif.AngleNorm
import Verif.Props.AngleText

/-!
# C36 (doubles) and C53
-/

namespace Verif.AngleNorm

open Verif Verif.Fp Verif.AngleText

theorem P_eq : P = 2 * mpi := by
  unfold P
  exact rnd_exact 884279719003555 (-47) (by norm_num) (by norm_num) (by norm_num [mpi])

theorem P_pos : 0 < P := by rw [P_eq]; norm_num [mpi]

theorem fmod_bound (v : ℚ) {m : ℚ} (hm : 0 < m) : |fmod v m| < m ∧ (0 ≤ v → 0 ≤ fmod v m) ∧ (v ≤ 0 → fmod v m ≤ 0) := by
  have hv : v = m * (v / m) := by field_simp
  unfold fmod trunc
  split_ifs with h
  · have h1 := Int.floor_le (v / m)
    have h2 := Int.lt_floor_add_one (v / m)
    have e1 := mul_le_mul_of_nonneg_left h1 hm.le
    have e2 := mul_lt_mul_of_pos_left h2 hm
    refine ⟨by rw [abs_lt]; constructor <;> linarith, fun _ => by linarith, fun h0 => ?_⟩
    have h3 : v / m ≤ 0 := div_nonpos_of_nonpos_of_nonneg h0 hm.le
    have h4 : v / m = 0 := le_antisymm h3 h
    rw [h4]; simp
    exact h0
  · have h1 := Int.le_ceil (v / m)
    have h2 := Int.ceil_lt_add_one (v / m)
    have e1 := mul_le_mul_of_nonneg_left h1 hm.le
    have e2 := mul_lt_mul_of_pos_left h2 hm
    refine ⟨by rw [abs_lt]; constructor <;> linarith, fun h0 => absurd (div_nonneg h0 hm.le) h, fun _ => by linarith⟩

/-- the remainder of two doubles is a double: `fmod` needs no rounding -/
theorem fmod_isDouble {v m : ℚ} (hv : IsDouble v) (hm : IsDouble m) (h0 : 0 < m) : IsDouble (fmod v m) := by
  by_cases hlt : |v| < m
  · have : trunc (v / m) = 0 := by
      have hb := abs_lt.1 hlt
      unfold trunc
      split_ifs with h
      · rw [Int.floor_eq_zero_iff]
        exact ⟨h, by rw [div_lt_one h0]; exact hb.2⟩
      · rw [Int.ceil_eq_zero_iff]
        exact ⟨by rw [lt_div_iff₀ h0]; linarith, le_of_not_ge h⟩
    unfold fmod
    rw [this]; simpa using hv
  · have hv0 : v ≠ 0 := by rintro rfl; simp at hlt; linarith
    obtain ⟨k, hk, hkb⟩ := hm.form h0.ne'
    obtain ⟨j, hj, -⟩ := hv.form hv0
    have hle : ulpExp m ≤ ulpExp v := by
      have := ilog_mono h0.ne' (by rw [abs_of_pos h0]; exact not_lt.1 hlt : |m| ≤ |v|)
      unfold ulpExp; omega
    obtain ⟨d, hd⟩ := Int.eq_ofNat_of_zero_le (by omega : 0 ≤ ulpExp v - ulpExp m)
    have hmul : fmod v m = ((j * 2 ^ d - k * trunc (v / m) : ℤ) : ℚ) * (2:ℚ) ^ ulpExp m := by
      have e1 : v = (j * 2 ^ d : ℚ) * (2:ℚ) ^ ulpExp m := by
        conv_lhs => rw [hj]
        rw [show ulpExp v = (d:ℤ) + ulpExp m by omega, zpow_add₀ (by norm_num), zpow_natCast]; ring
      have e2 : fmod v m = v - m * trunc (v / m) := rfl
      generalize trunc (v / m) = n at *
      rw [e2]; push_cast
      linear_combination e1 - (n:ℚ) * hk
    refine rnd_exact _ (ulpExp m) (by unfold ulpExp; omega) ?_ hmul
    have hb := (fmod_bound v h0).1
    rw [hmul] at hb
    generalize j * 2 ^ d - k * trunc (v / m) = n at hb
    conv_rhs at hb => rw [hk]
    rw [abs_mul, abs_of_pos (two_zpow_pos _)] at hb
    have hk0 : 0 < (k:ℚ) := by
      by_contra hc
      have := mul_nonpos_of_nonpos_of_nonneg (not_lt.1 hc) (two_zpow_pos (ulpExp m)).le
      rw [← hk] at this; linarith
    rw [← hk] at hb
    have h2 : |(n:ℚ)| * (2:ℚ) ^ ulpExp m < k * (2:ℚ) ^ ulpExp m := by rw [← hk]; exact hb
    have h3 : |(n:ℚ)| < k := lt_of_mul_lt_mul_right h2 (two_zpow_pos _).le
    have h4 : |n| < k := by exact_mod_cast h3
    have := lt_of_abs_lt hkb
    omega

theorem mpi_isDouble : IsDouble mpi :=
  rnd_exact 884279719003555 (-48) (by norm_num) (by norm_num) (by norm_num [mpi])

theorem P_isDouble : IsDouble P := rnd_isDouble _

theorem fmod_turns (v : ℚ) : ∃ k : ℤ, fmod v P = v + k * P := ⟨-trunc (v / P), by unfold fmod; push_cast; ring⟩

/-- `rad2mrad` in doubles, for every finite argument: the result is in [0, 2π] (2π the double), differs from the argument by whole
turns up to one rounding, and is exact and below 2π for arguments that are not negative.  `2π` itself can be returned:
`c36_mrad_full_circle`. -/
theorem c36_mrad (v : ℚ) (hv : IsDouble v) :
    IsDouble (mrad v) ∧ 0 ≤ mrad v ∧ mrad v ≤ P
    ∧ ∃ k : ℤ, |mrad v - (v + k * P)| ≤ P / 2 ^ 53 ∧ (0 ≤ v → mrad v = v + k * P ∧ mrad v < P) := by
  obtain ⟨hb, hp, -⟩ := fmod_bound v P_pos
  have hb' := abs_lt.1 hb
  obtain ⟨k, hk⟩ := fmod_turns v
  have hd := fmod_isDouble hv P_isDouble P_pos
  have hP0 : 1 ≤ P := by rw [P_eq]; norm_num [mpi]
  unfold mrad
  simp only []
  split_ifs with h
  · refine ⟨rnd_isDouble _, rnd_nonneg (by linarith), rnd_le_of_double P_isDouble (by linarith), k + 1, ?_, fun h0 => absurd (hp h0) (not_le.2 h)⟩
    have := rnd_err1 (q := fmod v P + P) (B := P) (by rw [abs_le]; constructor <;> linarith) hP0
    rw [show v + ((k + 1 : ℤ) : ℚ) * P = fmod v P + P by rw [hk]; push_cast; ring]
    refine this.trans_eq ?_
    norm_num
  · refine ⟨hd, not_lt.1 h, hb'.2.le, k, ?_, fun _ => ⟨hk, hb'.2⟩⟩
    rw [← hk, sub_self, abs_zero]
    exact div_nonneg P_pos.le (by norm_num)

/-- A defect: the result is documented to be in [0, 2π), but for an argument just below 0 it is 2π itself. -/
theorem c36_mrad_full_circle : IsDouble (-(1 / 2 ^ 60)) ∧ mrad (-(1 / 2 ^ 60)) = P := by
  refine ⟨rnd_exact (-1) (-60) (by norm_num) (by norm_num) (by norm_num), ?_⟩
  have hf : fmod (-(1 / 2 ^ 60)) P = -(1 / 2 ^ 60) := by
    have : trunc (-(1 / 2 ^ 60) / P) = 0 := by
      unfold trunc
      have h1 : (-(1 / 2 ^ 60) : ℚ) / P < 0 := div_neg_of_neg_of_pos (by norm_num) P_pos
      rw [if_neg (not_le.2 h1), Int.ceil_eq_zero_iff]
      refine ⟨?_, h1.le⟩
      rw [lt_div_iff₀ P_pos, P_eq]
      norm_num [mpi]
    unfold fmod
    rw [this]; norm_num
  unfold mrad
  simp only []
  rw [hf, if_pos (by norm_num), P_eq]
  unfold mpi
  decide +kernel

/-- `rad2rrad` in doubles, for every finite argument: the result is in (-π, π] (π the double) and differs from the argument by whole
turns of the double 2π exactly: nothing is rounded. -/
theorem c36_rrad (v : ℚ) (hv : IsDouble v) :
    IsDouble (rrad v) ∧ -mpi < rrad v ∧ rrad v ≤ mpi ∧ ∃ k : ℤ, rrad v = v + k * P := by
  obtain ⟨hb, -, -⟩ := fmod_bound v P_pos
  have hb' := abs_lt.1 hb
  obtain ⟨k, hk⟩ := fmod_turns v
  have hd := fmod_isDouble hv P_isDouble P_pos
  have hPe := P_eq
  have hm0 : 0 < mpi := by norm_num [mpi]
  have hm2 : (2:ℚ) ^ ((-51:ℤ) + 52) ≤ mpi := by norm_num [mpi]
  have hPk : P = ((884279719003555 * 2 ^ 4 : ℤ) : ℚ) * (2:ℚ) ^ (-51:ℤ) := by rw [hPe]; norm_num [mpi]
  have hmk : mpi = ((884279719003555 * 2 ^ 3 : ℤ) : ℚ) * (2:ℚ) ^ (-51:ℤ) := by norm_num [mpi]
  have small : ∀ n : ℤ, |(n:ℚ) * (2:ℚ) ^ (-51:ℤ)| ≤ mpi → |n| ≤ 2 ^ 53 := by
    intro n h
    rw [hmk, abs_mul, abs_of_pos (two_zpow_pos _)] at h
    have := le_of_mul_le_mul_right h (two_zpow_pos _)
    have h2 : |n| ≤ 884279719003555 * 2 ^ 3 := by exact_mod_cast this
    omega
  unfold rrad
  simp only []
  split_ifs with h h'
  · obtain ⟨n, hn⟩ := hd.multiple (-51) (by rw [abs_of_neg (by linarith)]; linarith)
    have e : fmod v P + P = ((n + 884279719003555 * 2 ^ 4 : ℤ) : ℚ) * (2:ℚ) ^ (-51:ℤ) := by
      rw [hn, hPk]; push_cast; ring
    have hx : rnd (fmod v P + P) = fmod v P + P :=
      rnd_exact _ (-51) (by norm_num) (small _ (by rw [← e, abs_le]; constructor <;> linarith)) e
    refine ⟨rnd_isDouble _, by rw [hx]; linarith, by rw [hx]; linarith, k + 1, ?_⟩
    rw [hx, hk]; push_cast; ring
  · obtain ⟨n, hn⟩ := hd.multiple (-51) (by rw [abs_of_pos (by linarith)]; linarith)
    have e : fmod v P - P = ((n - 884279719003555 * 2 ^ 4 : ℤ) : ℚ) * (2:ℚ) ^ (-51:ℤ) := by
      rw [hn, hPk]; push_cast; ring
    have hx : rnd (fmod v P - P) = fmod v P - P :=
      rnd_exact _ (-51) (by norm_num) (small _ (by rw [← e, abs_le]; constructor <;> linarith)) e
    refine ⟨rnd_isDouble _, by rw [hx]; linarith, by rw [hx]; linarith, k - 1, ?_⟩
    rw [hx, hk]; push_cast; ring
  · exact ⟨hd, by linarith, by linarith, k, hk⟩

theorem turn_near (v : ℚ) (k : ℤ) : |((v + k * P : ℚ) : ℝ) - (v + 2 * Real.pi * k)| ≤ |(k:ℝ)| * 2.6e-16 := by
  have h := mpi_near
  rw [P_eq]
  push_cast
  rw [show ((v:ℝ) + k * (2 * mpi) - (v + 2 * Real.pi * k)) = k * (2 * (mpi - Real.pi)) by ring, abs_mul, abs_mul]
  refine mul_le_mul_of_nonneg_left ?_ (abs_nonneg _)
  rw [abs_of_pos (by norm_num : (0:ℝ) < 2)]
  linarith

/-- Against the true circle: `rad2mrad` and `rad2rrad` change the angle by `k` true turns, up to `2.6·10⁻¹⁶` for each turn taken off
(and one rounding). -/
theorem c36_true_turns (v : ℚ) (hv : IsDouble v) :
    (∃ k : ℤ, |(mrad v : ℝ) - (v + 2 * Real.pi * k)| ≤ |(k:ℝ)| * 2.6e-16 + 7e-16)
    ∧ ∃ k : ℤ, |(rrad v : ℝ) - (v + 2 * Real.pi * k)| ≤ |(k:ℝ)| * 2.6e-16 := by
  constructor
  · obtain ⟨-, -, -, k, hk, -⟩ := c36_mrad v hv
    refine ⟨k, ?_⟩
    have h1 := turn_near v k
    have h2 : |(mrad v : ℝ) - ((v + k * P : ℚ) : ℝ)| ≤ 7e-16 := by
      have : P / 2 ^ 53 ≤ 7e-16 := by rw [P_eq]; norm_num [mpi]
      have := (Rat.cast_le (K := ℝ)).mpr (hk.trans this)
      push_cast at this ⊢
      exact this
    have := abs_add_le ((mrad v : ℝ) - ((v + k * P : ℚ) : ℝ)) (((v + k * P : ℚ) : ℝ) - (v + 2 * Real.pi * k))
    rw [sub_add_sub_cancel] at this
    linarith
  · obtain ⟨-, -, -, k, hk⟩ := c36_rrad v hv
    exact ⟨k, by rw [hk]; exact turn_near v k⟩

example : IsDouble 100 ∧ ∃ k : ℤ, rrad 100 = 100 + k * P :=
  ⟨rnd_exact 100 0 (by norm_num) (by norm_num) (by norm_num),
    (c36_rrad 100 (rnd_exact 100 0 (by norm_num) (by norm_num) (by norm_num))).2.2.2⟩

/-- C53: whatever the angle, as long as the library's cosine stays in [-1, 1], the illuminated fraction is in [0, 1], and
within `2⁻⁵²` of `(1 + cos)/2`. -/
theorem c53_moonIll (c : ℚ) (h : -1 ≤ c ∧ c ≤ 1) : 0 ≤ moonIll c ∧ moonIll c ≤ 1 ∧ |moonIll c - (1 + c) / 2| ≤ 1 / 2 ^ 52 := by
  have h2 : IsDouble 2 := rnd_exact 2 0 (by norm_num) (by norm_num) (by norm_num)
  have h1 : IsDouble 1 := rnd_exact 1 0 (by norm_num) (by norm_num) (by norm_num)
  have e0 : 0 ≤ rnd (1 + c) := rnd_nonneg (by linarith)
  have e1 : rnd (1 + c) ≤ 2 := rnd_le_of_double h2 (by linarith)
  unfold moonIll
  refine ⟨rnd_nonneg (by linarith), rnd_le_of_double h1 (by linarith), ?_⟩
  have a := rnd_err1 (q := 1 + c) (B := 2) (by rw [abs_le]; constructor <;> linarith) (by norm_num)
  have b := rnd_err1 (q := rnd (1 + c) / 2) (B := 1) (by rw [abs_le]; constructor <;> linarith) le_rfl
  rw [abs_le] at a b ⊢
  constructor <;> linarith [a.1, a.2, b.1, b.2]

end Verif.AngleNorm
