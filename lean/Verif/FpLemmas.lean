import Verif.Fp

/-! Helper lemmas about the rounding function of `Verif.Fp`. -/

namespace Verif.Fp

theorem pow2_eq (e : ℤ) : pow2 e = (2 : ℚ) ^ e := by
  unfold pow2
  split_ifs with h
  · obtain ⟨n, rfl⟩ := Int.eq_ofNat_of_zero_le h
    simp
  · obtain ⟨n, hn⟩ := Int.eq_ofNat_of_zero_le (by omega : (0:ℤ) ≤ -e)
    have : e = -(n : ℤ) := by omega
    subst this
    simp

theorem pow2_pos (e : ℤ) : 0 < pow2 e := by rw [pow2_eq]; positivity

theorem two_zpow_pos (e : ℤ) : (0:ℚ) < 2 ^ e := by positivity

theorem natAbs_bounds (q : ℚ) (hq : q ≠ 0) :
    (2:ℚ) ^ ((Nat.log2 q.num.natAbs : ℤ) - (Nat.log2 q.den : ℤ) - 1) < |q| ∧
    |q| < (2:ℚ) ^ ((Nat.log2 q.num.natAbs : ℤ) - (Nat.log2 q.den : ℤ) + 1) := by
  have hn : q.num.natAbs ≠ 0 := by simpa using hq
  have hd : q.den ≠ 0 := q.den_nz
  have h1 := Nat.log2_self_le hn
  have h2 := Nat.lt_log2_self (n := q.num.natAbs)
  have h3 := Nat.log2_self_le hd
  have h4 := Nat.lt_log2_self (n := q.den)
  set a := Nat.log2 q.num.natAbs
  set b := Nat.log2 q.den
  have hq' : |q| = (q.num.natAbs : ℚ) / (q.den : ℚ) := by
    conv_lhs => rw [← Rat.num_div_den q]
    rw [abs_div, Nat.abs_cast]
    congr 1
    rw [Nat.cast_natAbs, Int.cast_abs]
  have hdp : (0:ℚ) < q.den := by exact_mod_cast Nat.pos_of_ne_zero hd
  have h1' : (2:ℚ)^a ≤ q.num.natAbs := by exact_mod_cast h1
  have h2' : (q.num.natAbs : ℚ) < 2^(a+1) := by exact_mod_cast h2
  have h3' : (2:ℚ)^b ≤ q.den := by exact_mod_cast h3
  have h4' : (q.den : ℚ) < 2^(b+1) := by exact_mod_cast h4
  rw [hq']
  constructor
  · rw [lt_div_iff₀ hdp]
    have : (2:ℚ) ^ ((a:ℤ) - b - 1) = 2^a / 2^(b+1) := by
      rw [show (a:ℤ) - b - 1 = (a:ℤ) - ((b+1 : ℕ) : ℤ) by push_cast; ring, zpow_sub₀ (by norm_num),
        zpow_natCast, zpow_natCast]
    rw [this]
    calc (2:ℚ)^a / 2^(b+1) * q.den < 2^a / 2^(b+1) * 2^(b+1) := by
          apply mul_lt_mul_of_pos_left h4'; positivity
      _ = 2^a := by field_simp
      _ ≤ _ := h1'
  · rw [div_lt_iff₀ hdp]
    have : (2:ℚ) ^ ((a:ℤ) - b + 1) = 2^(a+1) / 2^b := by
      rw [show (a:ℤ) - b + 1 = ((a+1 : ℕ) : ℤ) - b by push_cast; ring, zpow_sub₀ (by norm_num),
        zpow_natCast, zpow_natCast]
    rw [this]
    calc (q.num.natAbs : ℚ) < 2^(a+1) := h2'
      _ = 2^(a+1) / 2^b * 2^b := by field_simp
      _ ≤ _ := by apply mul_le_mul_of_nonneg_left h3'; positivity

theorem ilog_spec (q : ℚ) (hq : q ≠ 0) : (2:ℚ)^(ilog q) ≤ |q| ∧ |q| < (2:ℚ)^(ilog q + 1) := by
  have := natAbs_bounds q hq
  unfold ilog
  simp only [pow2_eq]
  split_ifs with h
  · exact ⟨h, this.2⟩
  · refine ⟨this.1.le, ?_⟩
    rw [sub_add_cancel]
    exact not_le.mp h

theorem ilog_unique (q : ℚ) (hq : q ≠ 0) (e : ℤ) (h1 : (2:ℚ)^e ≤ |q|) (h2 : |q| < (2:ℚ)^(e+1)) :
    ilog q = e := by
  obtain ⟨h3, h4⟩ := ilog_spec q hq
  have a : (2:ℚ)^(ilog q) < 2^(e+1) := lt_of_le_of_lt h3 h2
  have b : (2:ℚ)^e < 2^(ilog q + 1) := lt_of_le_of_lt h1 h4
  rw [zpow_lt_zpow_iff_right₀ (by norm_num)] at a b
  omega

theorem ilog_neg (q : ℚ) : ilog (-q) = ilog q := by
  by_cases hq : q = 0
  · simp [hq]
  · obtain ⟨h1, h2⟩ := ilog_spec q hq
    exact ilog_unique _ (by simpa using hq) _ (by simpa using h1) (by simpa using h2)

theorem ilog_mono {x y : ℚ} (hx : x ≠ 0) (h : |x| ≤ |y|) : ilog x ≤ ilog y := by
  have hy : y ≠ 0 := by
    rintro rfl
    simp at h; exact hx h
  have h1 := (ilog_spec x hx).1
  have h2 := (ilog_spec y hy).2
  have : (2:ℚ)^(ilog x) < 2^(ilog y + 1) := lt_of_le_of_lt (h1.trans h) h2
  rw [zpow_lt_zpow_iff_right₀ (by norm_num)] at this
  omega

theorem rne_err (q : ℚ) : |(rne q : ℚ) - q| ≤ 1/2 := by
  have h1 := Int.floor_le q
  have h2 := Int.lt_floor_add_one q
  unfold rne
  simp only
  split_ifs <;> rw [abs_le] <;> push_cast <;> constructor <;> linarith

theorem rne_int (n : ℤ) : rne (n : ℚ) = n := by
  unfold rne
  simp

theorem rne_mono {x y : ℚ} (h : x ≤ y) : rne x ≤ rne y := by
  have hf := Int.floor_le_floor h
  have x1 := Int.floor_le x
  have x2 := Int.lt_floor_add_one x
  have y1 := Int.floor_le y
  have y2 := Int.lt_floor_add_one y
  rcases lt_or_eq_of_le hf with hlt | heq
  · have : ⌊x⌋ + 1 ≤ ⌊y⌋ := hlt
    have a : rne x ≤ ⌊x⌋ + 1 := by unfold rne; simp only; split_ifs <;> omega
    have b : ⌊y⌋ ≤ rne y := by unfold rne; simp only; split_ifs <;> omega
    omega
  · unfold rne
    simp only
    rw [heq] at *
    split_ifs <;> first | omega | (exfalso; linarith)

theorem rne_neg (q : ℚ) : rne (-q) = - rne q := by
  by_cases hz : q = ⌊q⌋
  · rw [hz, ← Int.cast_neg, rne_int, rne_int]
  · have h1 : (⌊q⌋ : ℚ) < q := lt_of_le_of_ne (Int.floor_le q) (Ne.symm hz)
    have h2 := Int.lt_floor_add_one q
    have hf : ⌊-q⌋ = -⌊q⌋ - 1 := by
      rw [Int.floor_eq_iff]
      push_cast
      constructor <;> linarith
    unfold rne
    simp only
    rw [hf]
    push_cast
    split_ifs <;> first | omega | (exfalso; linarith)

theorem rnd_zero : rnd 0 = 0 := by simp [rnd]

theorem ulpExp_neg (q : ℚ) : ulpExp (-q) = ulpExp q := by simp [ulpExp, ilog_neg]

theorem rnd_neg (q : ℚ) : rnd (-q) = - rnd q := by
  unfold rnd
  simp only [ulpExp_neg, neg_eq_zero]
  split_ifs
  · simp
  · rw [neg_mul, rne_neg]; push_cast; ring

/-- every `rnd` is a small integer times a power of two -/
theorem rnd_form (q : ℚ) (hq : q ≠ 0) :
    ∃ k : ℤ, rnd q = k * (2:ℚ)^(ulpExp q) ∧ |(k:ℚ) - q * 2^(-(ulpExp q))| ≤ 1/2 := by
  refine ⟨rne (q * pow2 (-(ulpExp q))), ?_, ?_⟩
  · unfold rnd; rw [if_neg hq, pow2_eq (ulpExp q)]
  · have := rne_err (q * pow2 (-(ulpExp q)))
    rwa [pow2_eq] at this ⊢

theorem abs_lt_ulp (q : ℚ) (hq : q ≠ 0) : |q| < (2:ℚ)^53 * 2^(ulpExp q) := by
  obtain ⟨_, h2⟩ := ilog_spec q hq
  refine lt_of_lt_of_le h2 ?_
  have : (2:ℚ)^53 * 2^(ulpExp q) = 2^(53 + ulpExp q) := by
    rw [zpow_add₀ (by norm_num)]; norm_num
  rw [this]
  apply zpow_le_zpow_right₀ (by norm_num)
  unfold ulpExp; omega

theorem rnd_err_ulp (q : ℚ) : |rnd q - q| ≤ 1/2 * (2:ℚ)^(ulpExp q) := by
  by_cases hq : q = 0
  · subst hq; rw [rnd_zero]; simp; positivity
  · obtain ⟨k, h1, h2⟩ := rnd_form q hq
    rw [h1]
    have hp := two_zpow_pos (ulpExp q)
    have : (k:ℚ) * 2^(ulpExp q) - q = (k - q * 2^(-(ulpExp q))) * 2^(ulpExp q) := by
      rw [zpow_neg]; field_simp
    rw [this, abs_mul, abs_of_pos hp]
    exact mul_le_mul_of_nonneg_right h2 hp.le

/-- Error bound: with `|q| ≤ B`, the rounding error is at most `B·2^-53`. -/
theorem rnd_err {q B : ℚ} (hB : |q| ≤ B) (hn : (2:ℚ)^(-1022:ℤ) ≤ B) :
    |rnd q - q| ≤ B * (2:ℚ)^(-53:ℤ) := by
  by_cases hq : q = 0
  · subst hq; rw [rnd_zero]; simp
    exact le_trans (two_zpow_pos _).le hn
  refine (rnd_err_ulp q).trans ?_
  unfold ulpExp
  rcases max_cases (ilog q - 52) (-1074) with ⟨h, _⟩ | ⟨h, _⟩ <;> rw [h]
  · have h1 := (ilog_spec q hq).1
    rw [show ilog q - 52 = ilog q + (-52) by ring, zpow_add₀ (by norm_num)]
    have : (2:ℚ)^(-53:ℤ) = 1/2 * 2^(-52:ℤ) := by norm_num
    rw [this]
    have hp := two_zpow_pos (-52)
    nlinarith
  · have : (1/2:ℚ) * 2^(-1074:ℤ) = 2^(-1022:ℤ) * 2^(-53:ℤ) := by
      rw [← zpow_add₀ (by norm_num), show (1/2:ℚ) = 2^(-1:ℤ) by norm_num, ← zpow_add₀ (by norm_num)]
      norm_num
    rw [this]
    exact mul_le_mul_of_nonneg_right hn (two_zpow_pos _).le

theorem rnd_exact {q : ℚ} (k : ℤ) (e : ℤ) (he : -1074 ≤ e) (hk : |k| ≤ 2^53) (hq : q = k * (2:ℚ)^e) :
    rnd q = q := by
  by_cases h0 : q = 0
  · rw [h0, rnd_zero]
  have hk0 : k ≠ 0 := by rintro rfl; simp at hq; exact h0 hq
  -- reduce to |k| < 2^53 or k = ±2^53
  obtain ⟨k', e', he', hk', hq'⟩ : ∃ k' e' : ℤ, -1074 ≤ e' ∧ |k'| < 2^53 ∧ q = k' * (2:ℚ)^e' := by
    rcases lt_or_eq_of_le hk with h | h
    · exact ⟨k, e, he, h, hq⟩
    · have hev : ∃ j, k = 2 * j := by
        rcases abs_eq (by norm_num : (0:ℤ) ≤ 2^53) |>.mp h with h | h
        · exact ⟨2^52, by rw [h]; norm_num⟩
        · exact ⟨-2^52, by rw [h]; norm_num⟩
      obtain ⟨j, hj⟩ := hev
      refine ⟨j, e+1, by omega, ?_, ?_⟩
      · rw [hj, abs_mul] at h; norm_num at h; omega
      · rw [hq, hj, zpow_add₀ (by norm_num)]; push_cast; ring
  -- ulpExp q ≤ e'
  have hu : ulpExp q ≤ e' := by
    unfold ulpExp
    apply max_le _ he'
    have h1 := (ilog_spec q h0).1
    have h2 : |q| < (2:ℚ)^(53 + e') := by
      rw [hq', abs_mul, abs_of_pos (two_zpow_pos e'), zpow_add₀ (by norm_num)]
      apply mul_lt_mul_of_pos_right _ (two_zpow_pos e')
      have : ((|k'| : ℤ) : ℚ) < ((2^53 : ℤ) : ℚ) := by exact_mod_cast hk'
      push_cast at this
      rw [show ((2:ℚ)^(53:ℤ)) = 2^53 by norm_num]
      exact this
    have := lt_of_le_of_lt h1 h2
    rw [zpow_lt_zpow_iff_right₀ (by norm_num)] at this
    omega
  obtain ⟨d, hd⟩ := Int.eq_ofNat_of_zero_le (by omega : 0 ≤ e' - ulpExp q)
  unfold rnd
  rw [if_neg h0, pow2_eq, pow2_eq]
  have : q * (2:ℚ)^(-(ulpExp q)) = ((k' * 2^d : ℤ) : ℚ) := by
    conv_lhs => rw [hq', ← hq']
    have e1 : (2:ℚ)^e' * 2^(-(ulpExp q)) = 2^d := by
      rw [← zpow_add₀ (by norm_num), show e' + -ulpExp q = (d:ℤ) by omega, zpow_natCast]
    push_cast
    rw [← e1, ← mul_assoc, ← hq']
  rw [this, rne_int, ← this, mul_assoc, ← zpow_add₀ (by norm_num)]
  simp

theorem rnd_intCast (n : ℤ) (h : |n| ≤ 2^53) : rnd (n:ℚ) = n :=
  rnd_exact n 0 (by norm_num) h (by simp)

theorem rnd_natCast (n : ℕ) (h : n ≤ 2^53) : rnd (n:ℚ) = n := by
  have := rnd_intCast (n:ℤ) (by rw [abs_of_nonneg (by omega)]; exact_mod_cast h)
  simpa using this

/-- a double not larger than B in its own grid: multiple of 2^j as soon as 2^(j+52) ≤ |x| -/
theorem IsDouble.form {x : ℚ} (hx : IsDouble x) (h0 : x ≠ 0) :
    ∃ k : ℤ, x = k * (2:ℚ)^(ulpExp x) ∧ |k| < 2^53 := by
  obtain ⟨k, h1, _⟩ := rnd_form x h0
  rw [hx] at h1
  refine ⟨k, h1, ?_⟩
  have := abs_lt_ulp x h0
  rw [h1, abs_mul, abs_of_pos (two_zpow_pos _)] at this
  have h2 : |(k:ℚ)| < 2^53 := by
    have h3 := lt_of_mul_lt_mul_right (a := (2:ℚ)^(ulpExp (↑k * 2 ^ ulpExp x))) (b := |(k:ℚ)|) (c := 2^53)
      (by rw [← h1]; rw [← h1] at this; exact this) (two_zpow_pos _).le
    exact h3
  exact_mod_cast h2

theorem IsDouble.multiple {x : ℚ} (hx : IsDouble x) (j : ℤ) (hb : (2:ℚ)^(j+52) ≤ |x|) :
    ∃ k : ℤ, x = k * (2:ℚ)^j := by
  have h0 : x ≠ 0 := by
    rintro rfl
    simp at hb
    exact absurd hb (not_le.mpr (two_zpow_pos _))
  obtain ⟨k, h1, _⟩ := hx.form h0
  have hle : j ≤ ulpExp x := by
    have h2 := (ilog_spec x h0).2
    have := lt_of_le_of_lt hb h2
    rw [zpow_lt_zpow_iff_right₀ (by norm_num)] at this
    unfold ulpExp; omega
  obtain ⟨d, hd⟩ := Int.eq_ofNat_of_zero_le (by omega : 0 ≤ ulpExp x - j)
  refine ⟨k * 2^d, ?_⟩
  conv_lhs => rw [h1]
  rw [show ulpExp x = (d:ℤ) + j by omega, zpow_add₀ (by norm_num)]
  push_cast; rw [zpow_natCast]; ring

theorem rnd_abs_le_pow {q : ℚ} {e : ℤ} (he : -1074 ≤ e) (h : |q| ≤ (2:ℚ)^e) : |rnd q| ≤ (2:ℚ)^e := by
  by_cases hq : q = 0
  · subst hq; rw [rnd_zero]; simp; positivity
  obtain ⟨k, h1, h2⟩ := rnd_form q hq
  set u := ulpExp q
  have hu : u ≤ e := by
    have := (ilog_spec q hq).1.trans h
    rw [zpow_le_zpow_iff_right₀ (by norm_num)] at this
    simp only [u, ulpExp]; omega
  obtain ⟨d, hd⟩ := Int.eq_ofNat_of_zero_le (by omega : 0 ≤ e - u)
  rw [h1, abs_mul, abs_of_pos (two_zpow_pos u), show e = (d:ℤ) + u by omega, zpow_add₀ (by norm_num)]
  apply mul_le_mul_of_nonneg_right _ (two_zpow_pos u).le
  have h3 : |q * 2^(-u)| ≤ (2:ℚ)^d := by
    rw [abs_mul, abs_of_pos (two_zpow_pos _)]
    have : (2:ℚ)^d = 2^e * 2^(-u) := by rw [← zpow_add₀ (by norm_num), show e + -u = (d:ℤ) by omega]; simp
    rw [this]
    exact mul_le_mul_of_nonneg_right h (two_zpow_pos _).le
  -- |k| ≤ 2^d since k within 1/2 of number in [-2^d, 2^d]
  have h4 : |(k:ℚ)| ≤ 2^d + 1/2 := by
    have := abs_sub_abs_le_abs_sub (k:ℚ) (q * 2^(-u))
    linarith
  have h5 : |k| ≤ 2^d := by
    by_contra hc
    have : 2^d + 1 ≤ |k| := by omega
    have : ((2^d + 1 : ℤ) : ℚ) ≤ ((|k| : ℤ) : ℚ) := by exact_mod_cast this
    push_cast at this
    linarith
  have : ((|k| : ℤ) : ℚ) ≤ ((2^d : ℤ) : ℚ) := by exact_mod_cast h5
  push_cast at this
  simpa using this

theorem rnd_nonneg {q : ℚ} (h : 0 ≤ q) : 0 ≤ rnd q := by
  unfold rnd
  split_ifs with h0
  · exact le_refl _
  · apply mul_nonneg _ (pow2_pos _).le
    have : rne 0 ≤ rne (q * pow2 (-(ulpExp q))) := rne_mono (mul_nonneg h (pow2_pos _).le)
    have h1 : rne 0 = 0 := by simpa using rne_int 0
    rw [h1] at this
    exact_mod_cast this

theorem rnd_ge_pow {q : ℚ} {e : ℤ} (he : -1074 ≤ e) (h : (2:ℚ)^e ≤ q) : (2:ℚ)^e ≤ rnd q := by
  have hqp : 0 < q := lt_of_lt_of_le (two_zpow_pos e) h
  have hq : q ≠ 0 := hqp.ne'
  obtain ⟨k, h1, h2⟩ := rnd_form q hq
  set u := ulpExp q with hu
  by_cases hc : u ≤ e
  · obtain ⟨d, hd⟩ := Int.eq_ofNat_of_zero_le (by omega : 0 ≤ e - u)
    rw [h1, show e = (d:ℤ) + u by omega, zpow_add₀ (by norm_num)]
    apply mul_le_mul_of_nonneg_right _ (two_zpow_pos u).le
    have h3 : (2:ℚ)^d ≤ q * 2^(-u) := by
      have : (2:ℚ)^d = 2^e * 2^(-u) := by rw [← zpow_add₀ (by norm_num), show e + -u = (d:ℤ) by omega]; simp
      rw [this]
      exact mul_le_mul_of_nonneg_right h (two_zpow_pos _).le
    have h4 := (abs_le.mp h2).1
    have h5 : (2:ℤ)^d ≤ k := by
      by_contra hcc
      have : k + 1 ≤ 2^d := by omega
      have : ((k + 1 : ℤ) : ℚ) ≤ ((2^d : ℤ) : ℚ) := by exact_mod_cast this
      push_cast at this
      linarith
    have : ((2^d : ℤ):ℚ) ≤ (k:ℚ) := by exact_mod_cast h5
    push_cast at this
    simpa using this
  · -- then u = ilog q - 52 and rnd q ≥ 2^52*2^u
    have hu2 : u = ilog q - 52 := by
      simp only [hu, ulpExp] at hc ⊢; omega
    have h3 := (ilog_spec q hq).1
    rw [abs_of_pos hqp] at h3
    have h4 : (2:ℚ)^52 ≤ q * 2^(-u) := by
      have : (2:ℚ)^52 = 2^(ilog q) * 2^(-u) := by
        rw [← zpow_add₀ (by norm_num), show ilog q + -u = 52 by omega]; norm_num
      rw [this]
      exact mul_le_mul_of_nonneg_right h3 (two_zpow_pos _).le
    have h5 := (abs_le.mp h2).1
    have h6 : (2:ℚ)^52 - 1/2 ≤ k := by linarith
    have h7 : (1:ℚ) ≤ k := by norm_num at h6 ⊢; linarith
    rw [h1]
    have : (2:ℚ)^e ≤ 2^u := zpow_le_zpow_right₀ (by norm_num) (by omega)
    nlinarith [two_zpow_pos u]

theorem rnd_mono {x y : ℚ} (h : x ≤ y) : rnd x ≤ rnd y := by
  -- positive case
  have pos : ∀ x y : ℚ, 0 < x → x ≤ y → rnd x ≤ rnd y := by
    intro x y hx h
    have hy : 0 < y := lt_of_lt_of_le hx h
    have hil : ilog x ≤ ilog y := ilog_mono hx.ne' (by rwa [abs_of_pos hx, abs_of_pos hy])
    rcases eq_or_lt_of_le hil with he | hl
    · have hu : ulpExp x = ulpExp y := by simp [ulpExp, he]
      unfold rnd
      rw [if_neg hx.ne', if_neg hy.ne', hu]
      apply mul_le_mul_of_nonneg_right _ (pow2_pos _).le
      have := rne_mono (mul_le_mul_of_nonneg_right h (pow2_pos (-(ulpExp y))).le)
      exact_mod_cast this
    · -- different binade
      by_cases hs : -1074 ≤ ilog y
      · have h1 := (ilog_spec y hy.ne').1
        rw [abs_of_pos hy] at h1
        have h2 := (ilog_spec x hx.ne').2
        rw [abs_of_pos hx] at h2
        have h3 : |x| ≤ (2:ℚ)^(ilog y) := by
          rw [abs_of_pos hx]
          exact h2.le.trans (zpow_le_zpow_right₀ (by norm_num) (by omega))
        have h4 := rnd_abs_le_pow hs h3
        exact (le_abs_self _).trans (h4.trans (rnd_ge_pow hs h1))
      · have hu : ulpExp x = ulpExp y := by simp only [ulpExp]; omega
        unfold rnd
        rw [if_neg hx.ne', if_neg hy.ne', hu]
        apply mul_le_mul_of_nonneg_right _ (pow2_pos _).le
        have := rne_mono (mul_le_mul_of_nonneg_right h (pow2_pos (-(ulpExp y))).le)
        exact_mod_cast this
  rcases lt_trichotomy x 0 with hx | hx | hx
  · rcases lt_or_ge y 0 with hy | hy
    · have := pos (-y) (-x) (by linarith) (by linarith)
      rw [rnd_neg, rnd_neg] at this
      linarith
    · have h1 : 0 ≤ rnd (-x) := rnd_nonneg (by linarith)
      rw [rnd_neg] at h1
      have h2 := rnd_nonneg hy
      linarith
  · subst hx; rw [rnd_zero]; exact rnd_nonneg h
  · exact pos x y hx h

theorem rnd_le_of_double {x y : ℚ} (hy : IsDouble y) (h : x ≤ y) : rnd x ≤ y := by
  have := rnd_mono h; rwa [hy] at this

theorem le_rnd_of_double {x y : ℚ} (hx : IsDouble x) (h : x ≤ y) : x ≤ rnd y := by
  have := rnd_mono h; rwa [hx] at this

theorem isDouble_int {n : ℤ} (h : |n| ≤ 2^53) : IsDouble (n:ℚ) := rnd_intCast n h

theorem isDouble_zero : IsDouble 0 := rnd_zero

/-- the result of rounding is a double -/
theorem rnd_isDouble (q : ℚ) : IsDouble (rnd q) := by
  by_cases hq : q = 0
  · subst hq; rw [rnd_zero]; exact rnd_zero
  obtain ⟨k, h1, h2⟩ := rnd_form q hq
  have h3 := abs_lt_ulp q hq
  refine rnd_exact k (ulpExp q) (by unfold ulpExp; omega) ?_ h1
  have h4 : |q * 2^(-(ulpExp q))| < (2:ℚ)^53 := by
    rw [abs_mul, abs_of_pos (two_zpow_pos _)]
    calc |q| * 2^(-(ulpExp q)) < (2^53 * 2^(ulpExp q)) * 2^(-(ulpExp q)) :=
          mul_lt_mul_of_pos_right h3 (two_zpow_pos _)
      _ = 2^53 := by rw [mul_assoc, ← zpow_add₀ (by norm_num)]; simp
  have h5 : |(k:ℚ)| < 2^53 + 1 := by
    have := abs_sub_abs_le_abs_sub (k:ℚ) (q * 2^(-(ulpExp q)))
    linarith
  have h6 : ((|k| : ℤ) : ℚ) < ((2^53 + 1 : ℤ) : ℚ) := by push_cast; norm_num at h5 ⊢; exact h5
  have h7 : |k| < 2^53 + 1 := by exact_mod_cast h6
  omega

theorem IsDouble.neg {x : ℚ} (h : IsDouble x) : IsDouble (-x) := by
  unfold IsDouble at *; rw [rnd_neg, h]

/-- convenient error form for concrete bounds: `|q| ≤ B`, `1 ≤ B` -/
theorem rnd_err1 {q B : ℚ} (hB : |q| ≤ B) (hn : 1 ≤ B) : |rnd q - q| ≤ B / 9007199254740992 := by
  have h1 : (2:ℚ)^(-1022:ℤ) ≤ B := le_trans (by
    have : (2:ℚ)^(-1022:ℤ) ≤ 2^(0:ℤ) := zpow_le_zpow_right₀ (by norm_num) (by norm_num)
    simpa using this) hn
  have := rnd_err hB h1
  rw [show (2:ℚ)^(-53:ℤ) = 1 / 9007199254740992 by norm_num] at this
  linarith

end Verif.Fp
