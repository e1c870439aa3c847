import Verif.AngleText
import Verif.FpLemmas
import Verif.ClockLemmas
import Verif.Props.Dtoa
import Mathlib.Analysis.Real.Pi.Bounds

/-! # C34: angle texts -/

namespace Verif.AngleText

open Verif.Fp Verif.Cal

/-- subtracting an integer part is exact -/
theorem rnd_sub_int {x : ℚ} (hx : IsDouble x) (n : ℤ) (h0 : 0 ≤ (n:ℚ)) (h1 : (n:ℚ) ≤ x) (hb : x ≤ 2^53) : rnd (x - n) = x - n := by
  by_cases hz : x = 0
  · have : (n:ℚ) = 0 := by linarith
    rw [hz, this]; norm_num [rnd_zero]
  obtain ⟨k, hk, hkb⟩ := hx.form hz
  have he : -1074 ≤ ulpExp x := by unfold ulpExp; exact le_max_right _ _
  rcases le_or_gt 0 (ulpExp x) with h | h
  · obtain ⟨e, he'⟩ := Int.eq_ofNat_of_zero_le h
    rw [he', zpow_natCast] at hk
    have : x - n = ((k * 2^e - n : ℤ):ℚ) := by rw [hk]; push_cast; ring
    rw [this]
    apply rnd_intCast
    have h2 : (0:ℚ) ≤ ((k * 2^e - n : ℤ):ℚ) := by rw [← this]; linarith
    have h3 : ((k * 2^e - n : ℤ):ℚ) ≤ ((2^53 : ℤ):ℚ) := by rw [← this]; push_cast; linarith
    rw [abs_of_nonneg (by exact_mod_cast h2)]
    exact_mod_cast h3
  · obtain ⟨e, he'⟩ := Int.eq_ofNat_of_zero_le (show 0 ≤ -(ulpExp x) by omega)
    have hp : (2:ℚ)^(ulpExp x) * 2^e = 1 := by
      rw [← zpow_natCast, ← zpow_add₀ (by norm_num)]
      rw [show ulpExp x + (e:ℤ) = 0 by omega]; simp
    have hpos := two_zpow_pos (ulpExp x)
    have hq : x - n = ((k - n * 2^e : ℤ):ℚ) * (2:ℚ)^(ulpExp x) := by
      push_cast
      rw [sub_mul, ← hk, mul_assoc, mul_comm ((2:ℚ)^e), hp, mul_one]
    refine rnd_exact _ _ he ?_ hq
    have h2 : (0:ℚ) ≤ ((k - n * 2^e : ℤ):ℚ) := by
      by_contra hc
      push Not at hc
      have := mul_neg_of_neg_of_pos hc hpos
      rw [← hq] at this; linarith
    have h2' : 0 ≤ k - n * 2^e := by exact_mod_cast h2
    have hn : 0 ≤ n := by exact_mod_cast h0
    rw [abs_of_nonneg h2']
    have h3 : 0 ≤ n * 2^e := by positivity
    have h4 := (abs_lt.mp hkb).2
    omega

theorem rnd_frac {x : ℚ} (hx : IsDouble x) (h0 : 0 ≤ x) (hb : x ≤ 2^53) : rnd (x - ⌊x⌋) = x - ⌊x⌋ :=
  rnd_sub_int hx _ (by exact_mod_cast Int.floor_nonneg.mpr h0) (Int.floor_le x) hb

/-- the next sexagesimal place -/
theorem place {x : ℚ} (hx : IsDouble x) (h0 : 0 ≤ x) (hb : x ≤ 2^53) : ∃ u, (x ⊟ (⌊x⌋:ℤ)) ⊠ 60 = u ∧ IsDouble u ∧ 0 ≤ u ∧ u ≤ 60 ∧
    |u - (x - ⌊x⌋) * 60| ≤ 60 / 9007199254740992 ∧ (x = ⌊x⌋ → u = 0) := by
  have f0 : 0 ≤ x - ⌊x⌋ := by linarith [Int.floor_le x]
  have f1 : x - ⌊x⌋ < 1 := by linarith [Int.lt_floor_add_one x]
  refine ⟨_, rfl, rnd_isDouble _, ?_, ?_, ?_, ?_⟩
  all_goals unfold fsub fmul; rw [rnd_frac hx h0 hb]
  · exact rnd_nonneg (by positivity)
  · have := rnd_le_int (n := 60) (q := (x - ⌊x⌋) * 60) (by norm_num) (by push_cast; linarith)
    exact_mod_cast this
  · exact rnd_err1 (by rw [abs_of_nonneg (by positivity)]; linarith) (by norm_num)
  · intro h
    rw [show (x - ⌊x⌋) = 0 by rw [← h]; ring]
    norm_num [rnd_zero]

theorem floor_bounds {u : ℚ} (h0 : 0 ≤ u) (h1 : u ≤ 60) : 0 ≤ ⌊u⌋ ∧ ⌊u⌋ ≤ 60 ∧ (⌊u⌋ = 60 → u = ⌊u⌋) := by
  have a := Int.floor_nonneg.mpr h0
  have b : ⌊u⌋ ≤ 60 := by
    have : (⌊u⌋:ℚ) ≤ 60 := le_trans (Int.floor_le u) h1
    exact_mod_cast this
  refine ⟨a, b, fun h => ?_⟩
  have := Int.floor_le u
  rw [h] at this ⊢
  push_cast at this ⊢
  linarith

/-- the four numbers -/
theorem fields_eq (ext : ℕ) (he : ext ≤ 6) {t : ℚ} (ht : IsDouble t) (h0 : 0 ≤ t) (hb : t ≤ 1000) :
    ∃ a b c D : ℤ, fields t ext = some (a, b, c, D) ∧ 0 ≤ a ∧ a ≤ 1000 ∧ (a:ℚ) ≤ t ∧ 0 ≤ b ∧ b ≤ 60 ∧ 0 ≤ c ∧ c ≤ 60 ∧ 0 ≤ D ∧ D ≤ 10^ext ∧
      (b = 60 → c = 0 ∧ D = 0) ∧ (c = 60 → D = 0) ∧
      |(a:ℚ) + b/60 + c/3600 + D/(3600 * 10^ext) - t| ≤ 1/2/(3600 * 10^ext) + 1/3000000000000000 := by
  have big : (1000:ℚ) ≤ 2^53 := by norm_num
  obtain ⟨u, hu, du, u0, u1, ue, uz⟩ := place ht h0 (by linarith)
  obtain ⟨b0, b1, b2⟩ := floor_bounds u0 u1
  obtain ⟨w, hw, dw, w0, w1, we, wz⟩ := place du u0 (by linarith)
  obtain ⟨c0, c1, c2⟩ := floor_bounds w0 w1
  have a0 : 0 ≤ ⌊t⌋ := Int.floor_nonneg.mpr h0
  have a1 : ⌊t⌋ ≤ 1000 := by
    have : (⌊t⌋:ℚ) ≤ 1000 := le_trans (Int.floor_le t) hb
    exact_mod_cast this
  have g0 : 0 ≤ w - ⌊w⌋ := by linarith [Int.floor_le w]
  have g1 : w - ⌊w⌋ < 1 := by linarith [Int.lt_floor_add_one w]
  have hQ1 : (1:ℚ) ≤ 10^ext := one_le_pow₀ (by norm_num)
  have hQ2 : (10:ℚ)^ext ≤ 10^6 := pow_le_pow_right₀ (by norm_num) he
  have hQi : ((10^ext : ℤ):ℚ) = (10:ℚ)^ext := by push_cast; rfl
  have hQ2i : (10:ℤ)^ext ≤ 10^6 := pow_le_pow_right₀ (by norm_num) he
  have hQ1i : (1:ℤ) ≤ 10^ext := one_le_pow₀ (by norm_num)
  generalize hQ : (10:ℚ)^ext = Q at *
  generalize hQz : (10:ℤ)^ext = Z at *
  -- the last place
  have hs : w ⊟ (⌊w⌋:ℤ) = w - ⌊w⌋ := by unfold fsub; exact rnd_frac dw w0 (by linarith)
  obtain ⟨p, hp⟩ : ∃ p, p = (w - ⌊w⌋) ⊠ Q := ⟨_, rfl⟩
  have hp' : p = rnd ((w - ⌊w⌋) * Q) := hp
  have gq : (w - ⌊w⌋) * Q ≤ Q := by
    have := mul_le_mul_of_nonneg_right g1.le (by linarith : (0:ℚ) ≤ Q)
    linarith
  have gq0 : 0 ≤ (w - ⌊w⌋) * Q := mul_nonneg g0 (by linarith)
  have p0 : 0 ≤ p := by rw [hp']; exact rnd_nonneg gq0
  have p1 : p ≤ Q := by
    rw [hp', ← hQi]; apply rnd_le_int
    · rw [abs_of_nonneg (by omega)]; exact le_trans hQ2i (by norm_num)
    · rw [hQi]; exact gq
  have pe : |p - (w - ⌊w⌋) * Q| ≤ Q / 9007199254740992 := by
    rw [hp']; exact rnd_err1 (by rw [abs_of_nonneg gq0]; exact gq) hQ1
  obtain ⟨r, hr⟩ : ∃ r, r = p ⊞ (1/2) := ⟨_, rfl⟩
  have hr' : r = rnd (p + 1/2) := hr
  have r0 : 0 ≤ r := by rw [hr']; exact rnd_nonneg (by linarith)
  have r1 : r ≤ Q + 1/2 := by
    rw [hr', ← hQi]
    refine rnd_le_of_double ?_ (by rw [hQi]; linarith)
    refine rnd_exact (2 * Z + 1) (-1) (by norm_num) ?_ ?_
    · rw [abs_of_nonneg (by omega)]
      have : (10:ℤ)^6 ≤ 2^51 := by norm_num
      have h53 : (2:ℤ)^53 = 4 * 2^51 := by norm_num
      omega
    · rw [zpow_neg, zpow_one]; push_cast; ring
  have re : |r - (p + 1/2)| ≤ (Q + 1/2) / 9007199254740992 := by
    rw [hr']; exact rnd_err1 (by rw [abs_of_nonneg (by linarith)]; linarith) (by linarith)
  have D0 : 0 ≤ ⌊r⌋ := Int.floor_nonneg.mpr r0
  have D1 : ⌊r⌋ ≤ Z := by
    have h1 : (⌊r⌋:ℚ) ≤ Q + 1/2 := le_trans (Int.floor_le r) r1
    rw [← hQi] at h1
    have h2 : (⌊r⌋:ℚ) < ((Z + 1 : ℤ):ℚ) := by push_cast; linarith
    have : ⌊r⌋ < Z + 1 := by exact_mod_cast h2
    omega
  have Dz : w = ⌊w⌋ → ⌊r⌋ = 0 := by
    intro h
    have hpz : p = 0 := by rw [hp', show (w - ⌊w⌋ : ℚ) = 0 by rw [← h]; ring, zero_mul, rnd_zero]
    have hrz : r = 1/2 := by
      rw [hr', hpz]
      rw [zero_add]
      exact rnd_exact (q := 1/2) 1 (-1) (by norm_num) (by norm_num) (by norm_num)
    rw [hrz]; norm_num
  refine ⟨⌊t⌋, ⌊u⌋, ⌊w⌋, ⌊r⌋, ?_, a0, a1, Int.floor_le t, b0, b1, c0, c1, D0, D1, ?_, fun h => Dz (c2 h), ?_⟩
  · unfold fields
    rw [int2_eq (k := ⌊t⌋) rfl (by omega) (by omega)]
    simp only [Option.bind_eq_bind, Option.bind_some]
    rw [hu, int2_eq (k := ⌊u⌋) rfl (by omega) (by omega)]
    simp only [Option.bind_some]
    rw [hw, int2_eq (k := ⌊w⌋) rfl (by omega) (by omega)]
    simp only [Option.bind_some]
    rw [hs, hQ, ← hp, ← hr]
    rfl
  · intro h
    have hu6 := b2 h
    have hwz := wz hu6
    have : ⌊w⌋ = 0 := by rw [hwz]; norm_num
    exact ⟨this, Dz (by rw [this, hwz]; norm_num)⟩
  · have hd1 := Int.floor_le r
    have hd2 := Int.lt_floor_add_one r
    have hD : |(⌊r⌋:ℚ) - (w - ⌊w⌋) * Q| ≤ 1/2 + (2 * Q + 1/2) / 9007199254740992 := by
      rw [abs_le] at re pe ⊢
      constructor <;> linarith [re.1, re.2, pe.1, pe.2]
    have hDQ : |(⌊r⌋:ℚ) / Q - (w - ⌊w⌋)| ≤ 1/2/Q + (2 + 1/2) / 9007199254740992 := by
      have hQp : 0 < Q := by linarith
      have e : (⌊r⌋:ℚ) / Q - (w - ⌊w⌋) = ((⌊r⌋:ℚ) - (w - ⌊w⌋) * Q) / Q := by field_simp
      rw [e, abs_div, abs_of_pos hQp, div_le_iff₀ hQp]
      refine le_trans hD ?_
      have : (1/2/Q + (2 + 1/2) / 9007199254740992) * Q = 1/2 + (2 * Q + 1/2 * Q) / 9007199254740992 := by field_simp
      rw [this]
      linarith
    have e2 : (⌊r⌋:ℚ) / (3600 * Q) = (⌊r⌋:ℚ) / Q / 3600 := by rw [div_div, mul_comm]
    have e3 : 1/2/(3600 * Q) = 1/2/Q/3600 := by rw [div_div, div_div, div_div]; congr 1; ring
    rw [e2, e3]
    generalize (⌊r⌋:ℚ) / Q = A at *
    generalize 1/2/Q = B at *
    rw [abs_le] at hDQ ue we ⊢
    constructor <;> linarith [hDQ.1, hDQ.2, ue.1, ue.2, we.1, we.2]

/-- after the carries every field is in range and the total is the same -/
theorem carry_ok (ext : ℕ) (a b c D : ℤ) (hb : 0 ≤ b ∧ b ≤ 60) (hc : 0 ≤ c ∧ c ≤ 60) (hD : 0 ≤ D ∧ D ≤ 10^ext)
    (h1 : b = 60 → c = 0 ∧ D = 0) (h2 : c = 60 → D = 0) :
    ∃ a' b' c' D' : ℤ, carry ext (a, b, c, D) = (a', b', c', D') ∧ a ≤ a' ∧ a' ≤ a + 1 ∧ 0 ≤ b' ∧ b' < 60 ∧ 0 ≤ c' ∧ c' < 60 ∧ 0 ≤ D' ∧ D' < 10^ext ∧
      (a':ℚ) + b'/60 + c'/3600 + D'/(3600 * 10^ext) = a + b/60 + c/3600 + D/(3600 * 10^ext) := by
  have hQ : (0:ℤ) < 10^ext := by positivity
  have hQq : (0:ℚ) < 10^ext := by positivity
  have hQi : ((10^ext : ℤ):ℚ) = (10:ℚ)^ext := by push_cast; rfl
  unfold carry
  generalize (10:ℤ)^ext = Z at *
  simp only []
  generalize (10:ℚ)^ext = Q at *
  split_ifs with c1 c2 c3 c3 c2 c3 c3 <;>
    refine ⟨_, _, _, _, rfl, by omega, by omega, by omega, by omega, by omega, by omega, by omega, by omega, ?_⟩ <;>
    push_cast <;> rw [← hQi] <;> (try rw [hQi]) <;> (try subst hQi) <;> field_simp <;> ring

theorem text_blank (a : ℤ) (h0 : 0 ≤ a) (h1 : a < 1000) : lastK 3 ([' ', ' ', ' '] ++ decimal a) = some (blankK 3 a.toNat) := by
  have hl : (Nat.toDigits 10 a.natAbs).length ≤ 3 := decimal_length_nat _ 3 (by norm_num) (by omega)
  have hd : decimal a = Nat.toDigits 10 a.toNat := by
    unfold decimal; rw [if_neg (by omega), show a.natAbs = a.toNat by omega]
  rw [show a.natAbs = a.toNat by omega] at hl
  rw [hd, lastK_append 3 _ _ hl (by simp)]
  unfold blankK
  congr 2
  generalize (Nat.toDigits 10 a.toNat).length = n at *
  interval_cases n <;> rfl

theorem text_two (b : ℤ) (h0 : 0 ≤ b) (h1 : b < 60) : lastK 2 ('0' :: decimal b) = some (Dtoa.padDigits 2 b.toNat) := by
  have key : ∀ k : Fin 60, lastK 2 ('0' :: decimal (k.val : ℤ)) = some (Dtoa.padDigits 2 k.val) := by decide +kernel
  have := key ⟨b.toNat, by omega⟩
  simp only [] at this
  rwa [show ((b.toNat : ℕ) : ℤ) = b by omega] at this

theorem toDigits_digits (n : ℕ) : Dtoa.Digits (Nat.toDigits 10 n) := by
  intro c hc
  exact Nat.isDigit_of_mem_toDigits (by norm_num) (by norm_num) hc

theorem text_dec (ext : ℕ) (h1 : 1 ≤ ext) (h6 : ext ≤ 6) (D : ℤ) (d0 : 0 ≤ D) (d1 : D < 10^ext) :
    lastK ext (['0', '0', '0', '0', '0'] ++ decimal D) = some (Dtoa.padDigits ext D.toNat) := by
  have hd : decimal D = Nat.toDigits 10 D.toNat := by
    unfold decimal; rw [if_neg (by omega), show D.natAbs = D.toNat by omega]
  have hlt : D.toNat < 10^ext := by
    have : ((D.toNat : ℕ) : ℤ) < ((10^ext : ℕ) : ℤ) := by push_cast; omega
    exact_mod_cast this
  have hl := decimal_length_nat D.toNat ext h1 hlt
  have hl0 : 0 < (Nat.toDigits 10 D.toNat).length := Nat.length_toDigits_pos
  rw [hd, lastK_append ext _ _ hl (by simp; omega)]
  have hF : (['0', '0', '0', '0', '0'] : Str).drop (5 + (Nat.toDigits 10 D.toNat).length - ext) =
      List.replicate (ext - (Nat.toDigits 10 D.toNat).length) '0' := by
    generalize (Nat.toDigits 10 D.toNat).length = n at *
    interval_cases ext <;> interval_cases n <;> rfl
  rw [show (['0', '0', '0', '0', '0'] : Str).length = 5 from rfl, hF]
  have hdig : Dtoa.Digits (List.replicate (ext - (Nat.toDigits 10 D.toNat).length) '0' ++ Nat.toDigits 10 D.toNat) :=
    Dtoa.digits_app.mpr ⟨Dtoa.digits_rep _, toDigits_digits _⟩
  have := Dtoa.padDigits_val _ hdig
  rw [Dtoa.val_append] at this
  have hz : Dtoa.val (List.replicate (ext - (Nat.toDigits 10 D.toNat).length) '0') = 0 := by
    generalize ext - (Nat.toDigits 10 D.toNat).length = m
    induction m with
    | zero => rfl
    | succ m ih => rw [List.replicate_succ, show ('0' :: List.replicate m '0') = ['0'] ++ List.replicate m '0' from rfl, Dtoa.val_append, ih]; rfl
  rw [hz] at this
  have hv : Dtoa.val (Nat.toDigits 10 D.toNat) = D.toNat := by simp [Dtoa.val]
  rw [hv] at this
  rw [show (List.replicate (ext - (Nat.toDigits 10 D.toNat).length) '0' ++ Nat.toDigits 10 D.toNat).length = ext by simp; omega] at this
  simp only [Nat.mul_zero, Nat.zero_add] at this
  rw [this]

theorem mpi_near : |(mpi:ℝ) - Real.pi| ≤ 1.3e-16 := by
  have h1 := Real.pi_gt_d20
  have h2 := Real.pi_lt_d20
  unfold mpi
  push_cast
  rw [abs_le]
  constructor <;> norm_num at * <;> linarith

/-- the conversion factor as a double -/
theorem factor (n : ℚ) (hn : n = 180 ∨ n = 12) : |((n ⊘ mpi : ℚ):ℝ) - (n:ℝ) / Real.pi| ≤ 1.4e-14 ∧ 0 ≤ n ⊘ mpi ∧ n ⊘ mpi ≤ 58 := by
  have hm : 0 < mpi := by norm_num [mpi]
  have hnn : 0 ≤ n ∧ n ≤ 180 := by rcases hn with rfl | rfl <;> norm_num
  have hb : |n / mpi| ≤ 57.5 := by
    rw [abs_of_nonneg (div_nonneg hnn.1 hm.le), div_le_iff₀ hm]
    refine le_trans hnn.2 ?_
    norm_num [mpi]
  have h1 := rnd_err1 hb (by norm_num)
  have h1' : |((n ⊘ mpi : ℚ):ℝ) - (n:ℝ) / (mpi:ℝ)| ≤ 6.5e-15 := by
    have : |n ⊘ mpi - n / mpi| ≤ 6.5e-15 := le_trans h1 (by norm_num)
    have h2 : ((|n ⊘ mpi - n / mpi| : ℚ):ℝ) ≤ ((6.5e-15 : ℚ):ℝ) := by exact_mod_cast this
    push_cast at h2
    norm_num at h2 ⊢
    exact h2
  have hp := Real.pi_gt_three
  have hmr : (3:ℝ) < (mpi:ℝ) := by norm_num [mpi]
  have h3 : |(n:ℝ) / (mpi:ℝ) - (n:ℝ) / Real.pi| ≤ 2.7e-15 := by
    have e : (n:ℝ) / (mpi:ℝ) - (n:ℝ) / Real.pi = (n:ℝ) * (Real.pi - mpi) / (mpi * Real.pi) := by
      have : (mpi:ℝ) ≠ 0 := by linarith
      have : Real.pi ≠ 0 := by linarith
      field_simp
    have hmp : (9:ℝ) ≤ mpi * Real.pi := by
      have := mul_le_mul hmr.le hp.le (by norm_num) (by linarith)
      linarith
    rw [e, abs_div, abs_of_pos (by linarith : (0:ℝ) < mpi * Real.pi), div_le_iff₀ (by linarith), abs_mul, abs_sub_comm]
    have hn' : |(n:ℝ)| ≤ 180 := by
      rw [abs_of_nonneg (by exact_mod_cast hnn.1)]; exact_mod_cast hnn.2
    calc |(n:ℝ)| * |(mpi:ℝ) - Real.pi| ≤ 180 * 1.3e-16 := mul_le_mul hn' mpi_near (abs_nonneg _) (by norm_num)
      _ ≤ 2.7e-15 * 9 := by norm_num
      _ ≤ 2.7e-15 * (mpi * Real.pi) := by nlinarith
  refine ⟨?_, ?_, ?_⟩
  · have := abs_sub_le ((n ⊘ mpi : ℚ):ℝ) ((n:ℝ) / (mpi:ℝ)) ((n:ℝ) / Real.pi)
    linarith
  · exact rnd_nonneg (div_nonneg hnn.1 hm.le)
  · have := rnd_le_int (n := 58) (q := n / mpi) (by norm_num) (by have := (abs_le.mp hb).2; push_cast; linarith)
    exact_mod_cast this

/-- the double the digits are taken from is the angle in degrees (hours) up to 4e-13 -/
theorem scaled (n : ℚ) (hn : n = 180 ∨ n = 12) (x : ℚ) (h0 : 0 ≤ x) (h1 : x ≤ 17) :
    ∃ t, x ⊠ (n ⊘ mpi) = t ∧ IsDouble t ∧ 0 ≤ t ∧ t ≤ 986 ∧ |(t:ℝ) - (x:ℝ) * ((n:ℝ) / Real.pi)| ≤ 4e-13 := by
  obtain ⟨f1, f2, f3⟩ := factor n hn
  have hp : 0 ≤ x * (n ⊘ mpi) := mul_nonneg h0 f2
  have hp2 : x * (n ⊘ mpi) ≤ 986 := le_trans (mul_le_mul h1 f3 f2 (by norm_num)) (by norm_num)
  refine ⟨_, rfl, rnd_isDouble _, rnd_nonneg hp, ?_, ?_⟩
  · have := rnd_le_int (n := 986) (q := x * (n ⊘ mpi)) (by norm_num) (by push_cast; exact hp2)
    exact_mod_cast this
  · have e := rnd_err1 (q := x * (n ⊘ mpi)) (B := 986) (by rw [abs_of_nonneg hp]; exact hp2) (by norm_num)
    have e' : |((x ⊠ (n ⊘ mpi) : ℚ):ℝ) - (x:ℝ) * ((n ⊘ mpi : ℚ):ℝ)| ≤ 1.1e-13 := by
      have : |x ⊠ (n ⊘ mpi) - x * (n ⊘ mpi)| ≤ 1.1e-13 := le_trans e (by norm_num)
      have h2 : ((|x ⊠ (n ⊘ mpi) - x * (n ⊘ mpi)| : ℚ):ℝ) ≤ ((1.1e-13 : ℚ):ℝ) := by exact_mod_cast this
      push_cast at h2
      norm_num at h2 ⊢
      exact h2
    have e2 : |(x:ℝ) * ((n ⊘ mpi : ℚ):ℝ) - (x:ℝ) * ((n:ℝ) / Real.pi)| ≤ 17 * 1.4e-14 := by
      rw [← mul_sub, abs_mul]
      refine mul_le_mul ?_ f1 (abs_nonneg _) (by norm_num)
      rw [abs_of_nonneg (by exact_mod_cast h0)]; exact_mod_cast h1
    have := abs_sub_le ((x ⊠ (n ⊘ mpi) : ℚ):ℝ) ((x:ℝ) * ((n ⊘ mpi : ℚ):ℝ)) ((x:ℝ) * ((n:ℝ) / Real.pi))
    norm_num at *
    linarith

/-- **C34** `rad2strE`: for every angle up to 17 radians (2.7 turns) and 1 to 6 decimals, the text is sign, degrees (hours), minutes,
seconds and decimals, minutes and seconds below 60, and these fields denote the angle rounded to the last printed decimal (half a unit,
plus 5e-13 of a degree for the binary arithmetic). -/
theorem c34_rad2strE (d : ℚ) (flag : Bool) (ext : ℕ) (hd : |d| ≤ 17) (h1 : 1 ≤ ext) (h6 : ext ≤ 6) :
    ∃ a b c D : ℕ, b < 60 ∧ c < 60 ∧ D < 10^ext ∧
      rad2strE d flag ext = some ((if d < 0 then '-' else ' ') :: blankK 3 a ++ [if flag then 'h' else '°'] ++ Dtoa.padDigits 2 b ++
        [if flag then 'm' else '\''] ++ Dtoa.padDigits 2 c ++ '.' :: Dtoa.padDigits ext D ++ [if flag then 's' else '"']) ∧
      |((a:ℝ) + b/60 + c/3600 + D/(3600 * 10^ext)) - |(d:ℝ)| * ((if flag then 12 else 180) / Real.pi)| ≤ 1/2/(3600 * 10^ext) + 5e-13 := by
  obtain ⟨x, hx⟩ : ∃ x, x = |d| := ⟨_, rfl⟩
  have hxd : (if d < 0 then -d else d) = x := by
    rw [hx]; split_ifs with h
    · rw [abs_of_neg h]
    · rw [abs_of_nonneg (not_lt.mp h)]
  obtain ⟨n, hn, hn2⟩ : ∃ n : ℚ, (n = 180 ∨ n = 12) ∧ n = if flag then 12 else 180 := by
    cases flag
    · exact ⟨180, Or.inl rfl, rfl⟩
    · exact ⟨12, Or.inr rfl, rfl⟩
  obtain ⟨t, ht, td, t0, t1, te⟩ := scaled n hn x (by rw [hx]; exact abs_nonneg d) (by rw [hx]; exact hd)
  obtain ⟨a, b, c, D, hf, a0, a1, a2, b0, b1, c0, c1, D0, D1, z1, z2, he⟩ := fields_eq ext h6 td t0 (by linarith)
  obtain ⟨a', b', c', D', hc, a3, a4, b3, b4, c3, c4, D3, D4, hsum⟩ := carry_ok ext a b c D ⟨b0, b1⟩ ⟨c0, c1⟩ ⟨D0, D1⟩ z1 z2
  have ha986 : a ≤ 986 := by
    have : (a:ℚ) ≤ 986 := le_trans a2 t1
    exact_mod_cast this
  have hZ : (10:ℤ)^ext ≤ 10^6 := pow_le_pow_right₀ (by norm_num) h6
  refine ⟨a'.toNat, b'.toNat, c'.toNat, D'.toNat, by omega, by omega, ?_, ?_, ?_⟩
  · have : ((D'.toNat : ℕ) : ℤ) < ((10^ext : ℕ) : ℤ) := by push_cast; omega
    exact_mod_cast this
  · have hk : (if flag then (x ⊠ k12, 'h', 'm', 's') else (x ⊠ k180, '°', '\'', '"')) =
        (t, if flag then 'h' else '°', if flag then 'm' else '\'', if flag then 's' else '"') := by
      rw [← ht, hn2]
      cases flag <;> rfl
    unfold rad2strE
    rw [hxd]
    simp only [hk, hf, Option.bind_eq_bind, Option.bind_some, hc]
    rw [i32_some (by omega) (by norm_num at hZ; omega), Option.bind_some, text_blank a' (by omega) (by omega), Option.bind_some,
      text_two b' b3 b4, Option.bind_some, text_two c' c3 c4, Option.bind_some, if_pos (by omega), text_dec ext h1 h6 D' D3 D4, Option.bind_some]
    by_cases hneg : d < 0
    · simp [hneg]
    · simp [hneg]
  · have ca : ((a'.toNat : ℕ) : ℝ) = (a' : ℝ) := by
      have : ((a'.toNat : ℕ) : ℤ) = a' := by omega
      exact_mod_cast this
    have cb : ((b'.toNat : ℕ) : ℝ) = (b' : ℝ) := by
      have : ((b'.toNat : ℕ) : ℤ) = b' := by omega
      exact_mod_cast this
    have cc : ((c'.toNat : ℕ) : ℝ) = (c' : ℝ) := by
      have : ((c'.toNat : ℕ) : ℤ) = c' := by omega
      exact_mod_cast this
    have cD : ((D'.toNat : ℕ) : ℝ) = (D' : ℝ) := by
      have : ((D'.toNat : ℕ) : ℤ) = D' := by omega
      exact_mod_cast this
    rw [ca, cb, cc, cD]
    rw [← hsum] at he
    have he' : |((a':ℝ) + b'/60 + c'/3600 + D'/(3600 * 10^ext)) - (t:ℝ)| ≤ 1/2/(3600 * 10^ext) + 1/3000000000000000 := by
      have := (Rat.cast_le (K := ℝ)).mpr he
      push_cast at this
      exact this
    have hxr : |(d:ℝ)| = (x:ℝ) := by rw [hx]; push_cast; rfl
    have hnr : ((if flag then 12 else 180 : ℝ)) = (n:ℝ) := by rw [hn2]; cases flag <;> simp
    rw [hxr, hnr]
    have := abs_sub_le ((a':ℝ) + b'/60 + c'/3600 + D'/(3600 * 10^ext)) (t:ℝ) ((x:ℝ) * ((n:ℝ) / Real.pi))
    norm_num at *
    linarith

/-- **C34** `rad2str2`: sign, degrees, minutes below 60, the angle rounded to the minute -/
theorem c34_rad2str2 (d : ℚ) (hd : |d| ≤ 17) :
    ∃ a b : ℕ, b < 60 ∧
      rad2str2 d = some ((if d < 0 then '-' else '+') :: blankK 3 a ++ ['°'] ++ Dtoa.padDigits 2 b ++ ['\'']) ∧
      |((a:ℝ) + b/60) - |(d:ℝ)| * (180 / Real.pi)| ≤ 1/2/60 + 5e-13 := by
  obtain ⟨x, hx⟩ : ∃ x, x = |d| := ⟨_, rfl⟩
  have hxd : (if d < 0 then -d else d) = x := by
    rw [hx]; split_ifs with h
    · rw [abs_of_neg h]
    · rw [abs_of_nonneg (not_lt.mp h)]
  obtain ⟨t, ht, td, t0, t1, te⟩ := scaled 180 (Or.inl rfl) x (by rw [hx]; exact abs_nonneg d) (by rw [hx]; exact hd)
  obtain ⟨u, hu, du, u0, u1, ue, uz⟩ := place td t0 (by norm_num; linarith)
  have a0 : 0 ≤ ⌊t⌋ := Int.floor_nonneg.mpr t0
  have a1 : ⌊t⌋ ≤ 986 := by
    have : (⌊t⌋:ℚ) ≤ 986 := le_trans (Int.floor_le t) t1
    exact_mod_cast this
  obtain ⟨r, hr⟩ : ∃ r, r = u ⊞ (1/2) := ⟨_, rfl⟩
  have hr' : r = rnd (u + 1/2) := hr
  have r0 : 0 ≤ r := by rw [hr']; exact rnd_nonneg (by linarith)
  have r1 : r ≤ 60 + 1/2 := by
    rw [hr']
    refine rnd_le_of_double ?_ (by linarith)
    exact rnd_exact 121 (-1) (by norm_num) (by norm_num) (by norm_num)
  have re : |r - (u + 1/2)| ≤ (60 + 1/2) / 9007199254740992 := by
    rw [hr']; exact rnd_err1 (by rw [abs_of_nonneg (by linarith)]; linarith) (by norm_num)
  have b0 : 0 ≤ ⌊r⌋ := Int.floor_nonneg.mpr r0
  have b1 : ⌊r⌋ ≤ 60 := by
    have h1 : (⌊r⌋:ℚ) ≤ 60 + 1/2 := le_trans (Int.floor_le r) r1
    have h2 : (⌊r⌋:ℚ) < ((61 : ℤ):ℚ) := by push_cast; linarith
    have : ⌊r⌋ < 61 := by exact_mod_cast h2
    omega
  have hD : |((⌊t⌋:ℚ) + ⌊r⌋/60) - t| ≤ 1/2/60 + 1/3000000000000000 := by
    have hd1 := Int.floor_le r
    have hd2 := Int.lt_floor_add_one r
    rw [abs_le] at ue re ⊢
    constructor <;> linarith [ue.1, ue.2, re.1, re.2]
  obtain ⟨a', b', hab, h1, h2, h3, h4, hsum⟩ : ∃ a' b' : ℤ, (if ⌊r⌋ ≥ 60 then (⌊t⌋ + 1, ⌊r⌋ - 60) else (⌊t⌋, ⌊r⌋)) = (a', b') ∧ 0 ≤ a' ∧ a' < 1000 ∧
      0 ≤ b' ∧ b' < 60 ∧ (a':ℚ) + b'/60 = ⌊t⌋ + ⌊r⌋/60 := by
    split_ifs with h
    · exact ⟨_, _, rfl, by omega, by omega, by omega, by omega, by push_cast; ring⟩
    · exact ⟨_, _, rfl, by omega, by omega, by omega, by omega, rfl⟩
  refine ⟨a'.toNat, b'.toNat, by omega, ?_, ?_⟩
  · unfold rad2str2
    rw [hxd]
    simp only [show x ⊠ k180 = t from ht]
    rw [int2_eq (k := ⌊t⌋) rfl (by omega) (by omega)]
    simp only [Option.bind_eq_bind, Option.bind_some]
    rw [hu, ← hr, int2_eq (k := ⌊r⌋) rfl (by omega) (by omega)]
    simp only [Option.bind_some, hab]
    rw [text_blank a' h1 h2, Option.bind_some, text_two b' h3 h4, Option.bind_some]
    by_cases hneg : d < 0
    · simp [hneg]
    · simp [hneg]
  · have ca : ((a'.toNat : ℕ) : ℝ) = (a' : ℝ) := by
      have : ((a'.toNat : ℕ) : ℤ) = a' := by omega
      exact_mod_cast this
    have cb : ((b'.toNat : ℕ) : ℝ) = (b' : ℝ) := by
      have : ((b'.toNat : ℕ) : ℤ) = b' := by omega
      exact_mod_cast this
    rw [ca, cb]
    rw [← hsum] at hD
    have he' : |((a':ℝ) + b'/60) - (t:ℝ)| ≤ 1/2/60 + 1/3000000000000000 := by
      have := (Rat.cast_le (K := ℝ)).mpr hD
      push_cast at this
      exact this
    have hxr : |(d:ℝ)| = (x:ℝ) := by rw [hx]; push_cast; rfl
    rw [hxr]
    have := abs_sub_le ((a':ℝ) + b'/60) (t:ℝ) ((x:ℝ) * (180 / Real.pi))
    norm_num at *
    linarith

/-- concrete texts, with carries -/
example : rad2strE (-1/1000000000) false 2 = some ['-', ' ', ' ', '0', '°', '0', '0', '\'', '0', '0', '.', '0', '0', '"'] := by decide +kernel
example : rad2strE (884279719003555 / 1688849860263936 - 1/10000000000) true 2 =
    some [' ', ' ', ' ', '2', 'h', '0', '0', 'm', '0', '0', '.', '0', '0', 's'] := by decide +kernel
example : rad2str2 (884279719003555 / 1688849860263936 - 1/10000) = some ['+', ' ', '3', '0', '°', '0', '0', '\''] := by decide +kernel

/-- **finding** outside the range of `c34_rad2strE`: without decimals the seconds mark is missing, and degrees above 999 lose their
first digits -/
theorem c34_limits : rad2strE 1 false 0 = some [' ', ' ', '5', '7', '°', '1', '7', '\'', '4', '5'] ∧
    rad2strE 18 false 1 = some [' ', '0', '3', '1', '°', '1', '9', '\'', '2', '6', '.', '5', '"'] := by
  constructor <;> decide +kernel

end Verif.AngleText
