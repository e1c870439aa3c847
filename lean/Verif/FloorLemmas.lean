import Verif.FpLemmas
import Verif.CBase

/-! Floors of rounded quotients. -/

namespace Verif.Fp

theorem rnd_int_le {n : ℤ} {q : ℚ} (hn : |n| ≤ 2^53) (h : (n:ℚ) ≤ q) : (n:ℚ) ≤ rnd q :=
  le_rnd_of_double (isDouble_int hn) h

theorem rnd_le_int {n : ℤ} {q : ℚ} (hn : |n| ≤ 2^53) (h : q ≤ n) : rnd q ≤ n :=
  rnd_le_of_double (isDouble_int hn) h

/-- rounding a quotient of exactly represented integers does not change its floor -/
theorem floor_rnd_div (a b : ℤ) (ha : |a| < 2^53) (hb : 0 < b) (hb2 : b ≤ 2^53) :
    ⌊rnd ((a:ℚ) / b)⌋ = a / b := by
  have hbq : (0:ℚ) < b := by exact_mod_cast hb
  have hmod := Int.emod_add_mul_ediv a b
  have hm0 := Int.emod_nonneg a hb.ne'
  have hm1 := Int.emod_lt_of_pos a hb
  set k := a / b with hk
  have hkabs : |k| ≤ 2^53 := by
    have := Int.abs_ediv_le_abs a b
    rw [← hk] at this
    omega
  rw [Int.floor_eq_iff]
  constructor
  · apply rnd_int_le hkabs
    rw [le_div_iff₀ hbq]
    have : k * b ≤ a := by nlinarith
    exact_mod_cast this
  · by_cases ha0 : a = 0
    · have hk0 : k = 0 := by rw [hk, ha0]; simp
      rw [ha0, hk0]; simp [rnd_zero]
    · have hpos : (1:ℚ) ≤ |(a:ℚ)| := by
        have : (1:ℤ) ≤ |a| := Int.one_le_abs ha0
        exact_mod_cast this
      have hbb : (b:ℚ) ≤ 2^53 := by exact_mod_cast hb2
      have he := rnd_err (q := (a:ℚ)/b) (le_refl _) (by
        rw [abs_div, abs_of_pos hbq, le_div_iff₀ hbq]
        have h1 : (2:ℚ)^(-1022:ℤ) ≤ 2^(-53:ℤ) := zpow_le_zpow_right₀ (by norm_num) (by norm_num)
        have h2 : (2:ℚ)^(-53:ℤ) * 2^53 = 1 := by norm_num
        have h3 := two_zpow_pos (-53)
        calc (2:ℚ)^(-1022:ℤ) * b ≤ 2^(-53:ℤ) * 2^53 := by
              apply mul_le_mul h1 hbb hbq.le h3.le
          _ = 1 := h2
          _ ≤ _ := hpos)
      have h2 := (abs_le.mp he).2
      have h4 : (a:ℚ)/b ≤ k + 1 - 1/b := by
        rw [div_le_iff₀ hbq]
        have : a + 1 ≤ (k + 1) * b := by nlinarith
        have : (a:ℚ) + 1 ≤ (k + 1) * b := by exact_mod_cast this
        field_simp
        linarith
      have h5 : |(a:ℚ)/b| * 2^(-53:ℤ) < 1/b := by
        rw [abs_div, abs_of_pos hbq, div_mul_eq_mul_div, div_lt_div_iff_of_pos_right hbq]
        have : |(a:ℚ)| < 2^53 := by exact_mod_cast ha
        rw [show (2:ℚ)^(-53:ℤ) = 1/2^53 by norm_num]
        rw [mul_one_div, div_lt_one (by positivity)]
        exact this
      linarith

/-- `floor` of something near a non-integral fraction `a/b` -/
theorem floor_near (a b : ℤ) (hb : 0 < b) (q : ℚ) (hmod : a % b ≠ 0) (h : |q - (a:ℚ)/b| < 1/b) :
    ⌊q⌋ = a / b := by
  have hbq : (0:ℚ) < b := by exact_mod_cast hb
  have hm := Int.emod_add_mul_ediv a b
  have hm0 := Int.emod_nonneg a hb.ne'
  have hm1 := Int.emod_lt_of_pos a hb
  obtain ⟨h1, h2⟩ := abs_lt.mp h
  have l1 : ((a / b : ℤ) : ℚ) + 1/b ≤ a/b := by
    rw [le_div_iff₀ hbq]
    have : (a/b) * b + 1 ≤ a := by
      have : 1 ≤ a % b := by omega
      nlinarith
    have : (((a/b : ℤ):ℚ)) * b + 1 ≤ a := by exact_mod_cast this
    field_simp
    linarith
  have l2 : (a:ℚ)/b ≤ ((a/b : ℤ):ℚ) + 1 - 1/b := by
    rw [div_le_iff₀ hbq]
    have : a + 1 ≤ (a/b + 1) * b := by nlinarith
    have : (a:ℚ) + 1 ≤ (((a/b : ℤ):ℚ) + 1) * b := by exact_mod_cast this
    field_simp
    linarith
  rw [Int.floor_eq_iff]
  constructor <;> linarith

/-- dyadic numbers with at most 53 significant bits are exact -/
theorem rnd_dyadic (k : ℤ) (e : ℕ) (he : e ≤ 1074) (hk : |k| ≤ 2^53) :
    rnd ((k:ℚ) / 2^e) = (k:ℚ) / 2^e :=
  rnd_exact k (-(e:ℤ)) (by omega) hk (by rw [zpow_neg, zpow_natCast]; rfl)

end Verif.Fp
