import Verif.MinSec
import Verif.Props.Dtoa
import Verif.Props.AngleText

/-!
# C35: minutes and seconds
-/

namespace Verif.MinSec

open Verif Verif.Fp Verif.Dtoa Verif.NumText Verif.AngleText

/-- dividing by 60 in doubles never rounds up to a whole number that is not reached -/
theorem floor_div60 {v : ℚ} (hv : IsDouble v) (h0 : 0 ≤ v) (hb : v ≤ 2 ^ 52) : ⌊rnd (v / 60)⌋ = ⌊v / 60⌋ := by
  obtain ⟨n, hn⟩ : ∃ n : ℤ, n = ⌊rnd (v / 60)⌋ := ⟨_, rfl⟩
  have hq0 : 0 ≤ v / 60 := by positivity
  have hfl : (⌊v / 60⌋ : ℚ) ≤ v / 60 := Int.floor_le _
  have hfb : |⌊v / 60⌋| ≤ 2 ^ 53 := by
    have h1 : 0 ≤ ⌊v / 60⌋ := Int.floor_nonneg.2 hq0
    rw [abs_of_nonneg h1]
    have : (⌊v / 60⌋ : ℚ) ≤ 2 ^ 53 := by
      refine hfl.trans ?_
      rw [div_le_iff₀ (by norm_num)]
      refine hb.trans (by norm_num)
    exact_mod_cast this
  refine le_antisymm ?_ (Int.floor_mono (rnd_int_le hfb hfl) |>.trans' (by rw [Int.floor_intCast]))
  rw [← hn]
  by_contra hlt
  push Not at hlt
  have hq : v / 60 < n := Int.floor_lt.1 hlt
  have hnr : (n : ℚ) ≤ rnd (v / 60) := by rw [hn]; exact Int.floor_le _
  have hn1 : 1 ≤ n := by
    have : 0 ≤ ⌊v / 60⌋ := Int.floor_nonneg.2 hq0
    omega
  have hn1q : (1 : ℚ) ≤ n := by exact_mod_cast hn1
  have hvne : v ≠ 0 := by
    rintro rfl
    rw [zero_div, rnd_zero] at hnr
    linarith
  have hvpos : 0 < v := lt_of_le_of_ne h0 (Ne.symm hvne)
  have hqne : v / 60 ≠ 0 := by positivity
  -- at least 1/2
  have hhalf : 1 / 2 ≤ v / 60 := by
    by_contra hc
    have : rnd (v / 60) ≤ 1 / 2 := rnd_le_of_double (rnd_exact 1 (-1) (by norm_num) (by norm_num) (by norm_num)) (by linarith)
    linarith
  have hv30 : 30 ≤ v := by rw [le_div_iff₀ (by norm_num)] at hhalf; linarith
  have iq1 : -1 ≤ ilog (v / 60) := by
    have := (ilog_spec (v / 60) hqne).2
    rw [abs_of_nonneg hq0] at this
    by_contra hc
    have h2 : (2:ℚ) ^ (ilog (v / 60) + 1) ≤ 2 ^ (-1:ℤ) := zpow_le_zpow_right₀ (by norm_num) (by omega)
    have : v / 60 < 1 / 2 := lt_of_lt_of_le this (h2.trans (by norm_num))
    linarith
  have iqv : ilog (v / 60) + 5 ≤ ilog v := by
    have a := (ilog_spec (v / 60) hqne).1
    have b := (ilog_spec v hvne).2
    rw [abs_of_nonneg hq0] at a
    rw [abs_of_nonneg h0] at b
    have : (2:ℚ) ^ (ilog (v / 60) + 5) < 2 ^ (ilog v + 1) := by
      rw [zpow_add₀ (by norm_num)]
      refine lt_of_le_of_lt ?_ b
      have : (2:ℚ) ^ ilog (v / 60) * 2 ^ (5:ℤ) ≤ v / 60 * 2 ^ (5:ℤ) := mul_le_mul_of_nonneg_right a (by norm_num)
      refine this.trans ?_
      norm_num
      linarith
    have := (zpow_lt_zpow_iff_right₀ (by norm_num : (1:ℚ) < 2)).1 this
    omega
  have hv52 : ilog v ≤ 52 := by
    have a := (ilog_spec v hvne).1
    rw [abs_of_nonneg h0] at a
    have : (2:ℚ) ^ ilog v ≤ 2 ^ (52:ℤ) := a.trans (hb.trans (by norm_num))
    exact (zpow_le_zpow_iff_right₀ (by norm_num : (1:ℚ) < 2)).1 this
  have huq : ulpExp (v / 60) = ilog (v / 60) - 52 := by unfold ulpExp; omega
  have huv : ulpExp v = ilog v - 52 := by unfold ulpExp; omega
  obtain ⟨k, hk, -⟩ := hv.form hvne
  -- both `60n` and `v` are multiples of the unit of `v`
  obtain ⟨d, hd⟩ := Int.eq_ofNat_of_zero_le (by omega : 0 ≤ -ulpExp v)
  have hone : (1:ℚ) = 2 ^ d * (2:ℚ) ^ ulpExp v := by
    rw [show ulpExp v = -(d:ℤ) by omega, zpow_neg, zpow_natCast]
    field_simp
  have hgap : (2:ℚ) ^ ulpExp v ≤ 60 * n - v := by
    have e : 60 * n - v = ((60 * n * 2 ^ d - k : ℤ) : ℚ) * (2:ℚ) ^ ulpExp v := by
      push_cast
      linear_combination (60 * n : ℚ) * hone - hk
    have hpos : 0 < 60 * (n:ℚ) - v := by rw [div_lt_iff₀ (by norm_num)] at hq; linarith
    rw [e] at hpos ⊢
    have h1 : (0:ℚ) < ((60 * n * 2 ^ d - k : ℤ) : ℚ) := pos_of_mul_pos_left hpos (two_zpow_pos _).le
    have h2 : (1:ℤ) ≤ 60 * n * 2 ^ d - k := by
      have : (0:ℤ) < 60 * n * 2 ^ d - k := by exact_mod_cast h1
      omega
    have h3 : (1:ℚ) ≤ ((60 * n * 2 ^ d - k : ℤ) : ℚ) := by exact_mod_cast h2
    have := mul_le_mul_of_nonneg_right h3 (two_zpow_pos (ulpExp v)).le
    linarith
  have herr := (abs_le.1 (rnd_err_ulp (v / 60))).2
  have hle : (2:ℚ) ^ ulpExp (v / 60) * 32 ≤ 2 ^ ulpExp v := by
    have : (2:ℚ) ^ (ulpExp (v / 60) + 5) ≤ 2 ^ ulpExp v := zpow_le_zpow_right₀ (by norm_num) (by omega)
    rw [zpow_add₀ (by norm_num)] at this
    norm_num at this ⊢
    exact this
  have hp := two_zpow_pos (ulpExp v)
  have : (n:ℚ) - v / 60 ≤ 1 / 2 * (2:ℚ) ^ ulpExp (v / 60) := by linarith
  have h60 : v = 60 * (v / 60) := by ring
  linarith

/-- the split into minutes and seconds loses nothing -/
theorem split {v : ℚ} (hv : IsDouble v) (h0 : 0 ≤ v) (hb : v < 2147483640) :
    ∃ f : ℕ, int2 (rnd (v / 60)) = some (f : ℤ) ∧ i32 ((f : ℤ) * 60) = some (60 * (f : ℤ)) ∧ rnd (v - (60 * (f : ℤ) : ℤ)) = v - 60 * f
      ∧ 60 * (f : ℚ) ≤ v ∧ v < 60 * (f + 1) ∧ f ≤ 35791393 := by
  obtain ⟨f, hf⟩ := Int.eq_ofNat_of_zero_le (Int.floor_nonneg.2 (by positivity : 0 ≤ v / 60))
  have hff : ⌊rnd (v / 60)⌋ = f := by rw [floor_div60 hv h0 (by linarith), hf]
  have h1 := Int.floor_le (v / 60)
  have h2 := Int.lt_floor_add_one (v / 60)
  rw [hf] at h1 h2
  simp only [Int.cast_natCast] at h1 h2
  rw [le_div_iff₀ (by norm_num)] at h1
  rw [div_lt_iff₀ (by norm_num)] at h2
  have hfb : f ≤ 35791393 := by
    have : (f:ℚ) < 35791394 := by linarith
    have : f < 35791394 := by exact_mod_cast this
    omega
  refine ⟨f, int2_eq hff (by omega) (by omega), ?_, ?_, by linarith, by linarith, hfb⟩
  · rw [mul_comm]; exact i32_some (by omega) (by omega)
  · have := rnd_sub_int hv (60 * (f:ℤ)) (by push_cast; positivity) (by push_cast; linarith) (by linarith)
    rw [this]; push_cast; ring

/-- the size of a number from its digits -/
theorem magnitude {ds : Str} (k : ℤ) (hs : SigDigits ds) :
    (10:ℚ) ^ ((ds.length : ℤ) + k - 1) ≤ decValue ds k ∧ decValue ds k < (10:ℚ) ^ ((ds.length : ℤ) + k) := by
  obtain ⟨h0, hd, hz, -⟩ := hs
  have hv : decValue ds k = (val ds : ℚ) * 10 ^ k := rfl
  constructor
  · obtain ⟨d, t, rfl⟩ : ∃ d t, ds = d :: t := by
      cases ds with
      | nil => exact absurd rfl h0
      | cons d t => exact ⟨d, t, rfl⟩
    obtain ⟨x, hx, rfl⟩ := digit_cases (hd d (by simp))
    have hx0 : 1 ≤ x := by
      rcases Nat.eq_zero_or_pos x with h | h
      · subst h; simp [Nat.digitChar] at hz
      · exact h
    have hval : val (Nat.digitChar x :: t) = x * 10 ^ t.length + val t := by
      rw [show Nat.digitChar x :: t = [Nat.digitChar x] ++ t by rfl, val_append]
      have : val [Nat.digitChar x] = x := by
        unfold val
        rw [Nat.ofDigitChars_cons_digitChar_of_lt_ten hx]; simp
      rw [this, mul_comm]
    rw [hv, hval, show (((Nat.digitChar x :: t).length : ℕ) : ℤ) + k - 1 = (t.length : ℤ) + k by simp only [List.length_cons]; push_cast; ring,
      zpow_add₀ (by norm_num), zpow_natCast]
    refine mul_le_mul_of_nonneg_right ?_ (by positivity)
    push_cast
    have : (1:ℚ) ≤ x := by exact_mod_cast hx0
    nlinarith [pow_pos (by norm_num : (0:ℚ) < 10) t.length, (Nat.cast_nonneg (val t) : (0:ℚ) ≤ val t)]
  · rw [hv, zpow_add₀ (by norm_num), zpow_natCast]
    refine mul_lt_mul_of_pos_right ?_ (by positivity)
    exact_mod_cast val_lt ds hd

/-- the decimals of a number below 60 round to less than 60 unless they run into the carry defect -/
theorem below_sixty {ds : Str} {k : ℤ} {p N : ℕ} (hs : SigDigits ds) (hlt : decValue ds k < 60) (hbug : ¬ CarryBug ds k p)
    (hN : RoundsTo (decValue ds k * 10 ^ p) N) : N < 60 * 10 ^ p := by
  obtain ⟨hlo, hhi⟩ := magnitude k hs
  obtain ⟨h0, hd, hz, hl⟩ := hs
  by_contra hge
  push Not at hge
  have hgeq : (60 * 10 ^ p : ℚ) ≤ N := by exact_mod_cast hge
  have hp1 : (1:ℚ) ≤ 10 ^ p := one_le_pow₀ (by norm_num)
  have hD : (60 * 10 ^ p : ℚ) - 1 / 2 ≤ decValue ds k * 10 ^ p := by linarith [hN.1]
  have hD2 : decValue ds k * 10 ^ p < 60 * 10 ^ p := mul_lt_mul_of_pos_right hlt (by positivity)
  have hv : decValue ds k = (val ds : ℚ) * 10 ^ k := rfl
  have hL : (ds.length : ℤ) + k = 2 := by
    have hD59 : (59:ℚ) ≤ decValue ds k := by
      by_contra hc
      push Not at hc
      have := mul_lt_mul_of_pos_right hc (by positivity : (0:ℚ) < 10 ^ p)
      linarith
    have a1 : (ds.length : ℤ) + k - 1 < 2 := by
      have : (10:ℚ) ^ ((ds.length : ℤ) + k - 1) < 10 ^ (2:ℤ) := lt_of_le_of_lt hlo (hlt.trans (by norm_num))
      exact (zpow_lt_zpow_iff_right₀ (by norm_num : (1:ℚ) < 10)).1 this
    have a2 : (1:ℤ) < (ds.length : ℤ) + k := by
      have : (10:ℚ) ^ (1:ℤ) < 10 ^ ((ds.length : ℤ) + k) := lt_of_lt_of_le (by norm_num) (hD59.trans hhi.le)
      exact (zpow_lt_zpow_iff_right₀ (by norm_num : (1:ℚ) < 10)).1 this
    omega
  have hk : k = 2 - (ds.length : ℤ) := by omega
  by_cases hlen : ds.length ≤ 2 + p
  · -- no digit is dropped
    have hint : decValue ds k * 10 ^ p = ((val ds * 10 ^ (2 + p - ds.length) : ℕ) : ℚ) := by
      rw [hv, hk]
      push_cast
      rw [mul_assoc]
      congr 1
      rw [← zpow_natCast, ← zpow_natCast, ← zpow_add₀ (by norm_num)]
      congr 1
      omega
    rw [hint] at hN hD2
    have : val ds * 10 ^ (2 + p - ds.length) < 60 * 10 ^ p := by exact_mod_cast hD2
    have h3 : val ds * 10 ^ (2 + p - ds.length) + 1 ≤ 60 * 10 ^ p := this
    have h4 : ((val ds * 10 ^ (2 + p - ds.length) : ℕ) : ℚ) + 1 ≤ 60 * 10 ^ p := by exact_mod_cast h3
    linarith [hN.1]
  · push Not at hlen
    obtain ⟨A, hA⟩ : ∃ A, A = ds.take (2 + p) := ⟨_, rfl⟩
    obtain ⟨e, r, her⟩ : ∃ e r, ds.drop (2 + p) = e :: r := by
      cases hx : ds.drop (2 + p) with
      | nil =>
        have : (ds.drop (2 + p)).length = 0 := by rw [hx]; rfl
        rw [List.length_drop] at this; omega
      | cons e r => exact ⟨e, r, rfl⟩
    have hdsplit : ds = A ++ e :: r := by rw [hA, ← her, List.take_append_drop]
    have hAl : A.length = 2 + p := by rw [hA, List.length_take]; omega
    have hrl : ds.length = 2 + p + (r.length + 1) := by rw [hdsplit]; simp [hAl]
    have hAd : Digits A := fun c hc => hd c (by rw [hdsplit]; simp [hc])
    have herd : Digits (e :: r) := fun c hc => hd c (by rw [hdsplit]; exact List.mem_append_right _ hc)
    have hvalsplit : val ds = 10 ^ (r.length + 1) * val A + val (e :: r) := by
      conv_lhs => rw [hdsplit]
      rw [val_append]; rfl
    have hscale : decValue ds k * 10 ^ p * 10 ^ (r.length + 1) = val ds := by
      rw [hv, hk, mul_assoc, mul_assoc]
      rw [← zpow_natCast, ← zpow_natCast, ← zpow_add₀ (by norm_num), ← zpow_add₀ (by norm_num)]
      rw [show (2 - (ds.length : ℤ)) + ((p:ℤ) + ((r.length + 1 : ℕ) : ℤ)) = 0 by omega]; simp
    have hQ : (0:ℚ) < 10 ^ (r.length + 1) := by positivity
    have u1 : val ds < 60 * 10 ^ p * 10 ^ (r.length + 1) := by
      have := mul_lt_mul_of_pos_right hD2 hQ
      rw [hscale] at this
      exact_mod_cast this
    have u2 : 120 * 10 ^ p * 10 ^ (r.length + 1) ≤ 2 * val ds + 10 ^ (r.length + 1) := by
      have := mul_le_mul_of_nonneg_right hD hQ.le
      rw [hscale] at this
      have h3 : (120 * 10 ^ p * 10 ^ (r.length + 1) : ℚ) ≤ 2 * val ds + 10 ^ (r.length + 1) := by linarith
      exact_mod_cast h3
    have herlt := val_lt _ herd
    simp only [List.length_cons] at herlt
    rw [hvalsplit] at u1 u2
    generalize hT : 10 ^ (r.length + 1) = T at u1 u2 herlt
    generalize hM : 60 * 10 ^ p = M at u1
    have hM2 : 120 * 10 ^ p = 2 * M := by omega
    rw [hM2] at u2
    have hTpos : 0 < T := by rw [← hT]; positivity
    have vA1 : val A < M := by
      by_contra hc
      push Not at hc
      have := Nat.mul_le_mul_left T hc
      rw [Nat.mul_comm M T] at u1
      omega
    have vA2 : M ≤ val A + 1 := by
      by_contra hc
      push Not at hc
      have := Nat.mul_le_mul_left T (show val A + 2 ≤ M by omega)
      rw [Nat.mul_add] at this
      rw [Nat.mul_assoc 2 M T, Nat.mul_comm M T] at u2
      omega
    have vA : val A = M - 1 := by omega
    have he5 : T ≤ 2 * val (e :: r) := by
      have hMA : M = val A + 1 := by omega
      rw [hMA, Nat.mul_assoc 2, Nat.add_mul, Nat.mul_comm (val A) T] at u2
      omega
    -- the first digits are 5, 9, 9, …
    have hA9 : A = '5' :: List.replicate (1 + p) '9' := by
      have hB : Digits ('5' :: List.replicate (1 + p) '9') := by
        intro c hc
        rcases List.mem_cons.1 hc with h | h
        · subst h; decide
        · rw [List.eq_of_mem_replicate h]; decide
      have hBv : val ('5' :: List.replicate (1 + p) '9') = M - 1 := by
        rw [show '5' :: List.replicate (1 + p) '9' = ['5'] ++ List.replicate (1 + p) '9' by rfl, val_append, List.length_replicate]
        have h5 : val ['5'] = 5 := by decide
        have h9 : val (List.replicate (1 + p) '9') + 1 = 10 ^ (1 + p) := by
          have := of_nines (1 + p) 0
          simpa [val] using this
        rw [h5, ← hM]
        rw [show (10:ℕ) ^ (1 + p) = 10 * 10 ^ p by rw [pow_add]; rfl] at h9 ⊢
        omega
      have e1 := padDigits_val A hAd
      have e2 := padDigits_val _ hB
      rw [hAl, vA] at e1
      rw [hBv] at e2
      simp only [List.length_cons, List.length_replicate] at e2
      rw [← e1, ← e2, show 1 + p + 1 = 2 + p by omega]
    refine hbug ⟨by omega, ?_, e, r, ?_, ?_⟩
    · rw [hL]
      intro c hc
      rw [show ((2:ℤ)).toNat + p = 2 + p by rfl, ← hA, hA9] at hc
      exact List.eq_of_mem_replicate hc
    · rw [hL]; exact her
    · obtain ⟨y, hy, rfl⟩ := digit_cases (herd e (by simp))
      have hey : val (Nat.digitChar y :: r) = y * 10 ^ r.length + val r := by
        rw [show Nat.digitChar y :: r = [Nat.digitChar y] ++ r by rfl, val_append]
        have : val [Nat.digitChar y] = y := by
          unfold val
          rw [Nat.ofDigitChars_cons_digitChar_of_lt_ten hy]; simp
        rw [this, mul_comm]
      have hrlt := val_lt r (fun c hc => herd c (by simp [hc]))
      rw [hey, ← hT, pow_succ] at he5
      have hy5 : 5 ≤ y := by
        by_contra hc
        have := Nat.mul_le_mul_right (10 ^ r.length) (show y + 1 ≤ 5 by omega)
        rw [Nat.add_mul] at this
        omega
      clear * - hy hy5
      interval_cases y <;> decide

/-- the unit marks of the three formats -/
def marks (fs : ℤ) : Str × Str :=
  if fs = 0 then (['\''], ['"']) else if fs = 1 then (['分'], ['秒']) else (['m'], ['s'])

/-- C35: `m2fm(v, p, fs)` for every double `|v| < 2147483640`, whose seconds part is not 0 and not below 10⁻⁶, with 1 … 27 decimals: the
text is the sign, whole minutes `f`, and seconds with `p` decimals, where `|v| = 60·f + m` exactly, `0 < m < 60`, the seconds are
the rounding of (the digits of) `m` and are below 60 — unless those digits hit the carry defect.  Missing for the full property: the
defect (`c35_carry_defect`), seconds below 10⁻⁶ (`c35_tiny_defect`); whole minutes are `c35_whole_minutes`. -/
theorem c35_m2fm_partial (dig : ℚ → Option Dec) (v : ℚ) (p : ℕ) (fs : ℤ) (hv : IsDouble v) (hb : |v| < 2147483640)
    (hp : 0 < p ∧ p ≤ 27) (hfs : fs = 0 ∨ fs = 1 ∨ fs = 2)
    (ds : Str) (k : ℤ) (f : ℕ) (m : ℚ) (hm : |v| = 60 * f + m) (hm0 : 0 < m) (hm1 : m < 60)
    (hdig : dig m = some ⟨ds, k⟩) (hs : SigDigits ds) (hback : rnd (decValue ds k) = m) (htiny : -6 < ds.length + k)
    (hbug : ¬ CarryBug ds k p) :
    ∃ N : ℕ, RoundsTo (decValue ds k * 10 ^ p) N ∧ N < 60 * 10 ^ p ∧
      m2fm dig v p fs = some ((if v < 0 then ['-'] else []) ++ Nat.toDigits 10 f ++ (marks fs).1 ++ fixedText p N ++ (marks fs).2) := by
  have habs : (if v < 0 then -v else v) = |v| := by
    split_ifs with h
    · rw [abs_of_neg h]
    · rw [abs_of_nonneg (not_lt.1 h)]
  have hva : IsDouble |v| := by
    rw [← habs]; split_ifs
    · exact hv.neg
    · exact hv
  obtain ⟨f', h1, h2, h3, h4, h5, h6⟩ := split hva (abs_nonneg _) hb
  have hff : f' = f := by
    have a : (f:ℚ) < f' + 1 := by linarith
    have b : (f':ℚ) < f + 1 := by linarith
    have a' : f < f' + 1 := by exact_mod_cast a
    have b' : f' < f + 1 := by exact_mod_cast b
    omega
  subst hff
  have h3' : rnd (|v| - ((60 * (f':ℤ) : ℤ) : ℚ)) = m := by rw [h3]; linarith
  have hlt : decValue ds k < 60 := by
    by_contra hc
    push Not at hc
    have := le_rnd_of_double (rnd_exact 60 0 (by norm_num) (by norm_num) (by norm_num) : IsDouble 60) hc
    linarith
  have hk2 : (ds.length : ℤ) + k ≤ 2 := by
    have : (10:ℚ) ^ ((ds.length : ℤ) + k - 1) < 10 ^ (2:ℤ) := lt_of_le_of_lt (magnitude k hs).1 (hlt.trans (by norm_num))
    have := (zpow_lt_zpow_iff_right₀ (by norm_num : (1:ℚ) < 10)).1 this
    omega
  obtain ⟨N, s, hN, hs1, hs2⟩ := c29_fixed_partial false ds k p 0 false hs htiny (by omega) hp.1
    (by simp only [sgn, Bool.false_eq_true, if_false, List.length_nil]; push_cast; omega) hbug le_rfl (by norm_num)
  obtain ⟨q, hq, hql⟩ := hs2
  have hq0 : q = 0 := by
    have : ((q + (sgn false ++ fixedText p N).length : ℕ) : ℤ) = (sgn false ++ fixedText p N).length := by rw [hql]; omega
    omega
  have hst : s = fixedText p N := by rw [hq, hq0]; simp [sgn]
  refine ⟨N, hN, below_sixty hs hlt hbug hN, ?_⟩
  obtain ⟨j, hj, hjl⟩ := c30_to_str_pad 32 true (f' : ℤ) ⟨by norm_num, by simp; omega⟩ 0 le_rfl (by omega) false
  have hj0 : j = 0 := by omega
  have hF : toStrInt 32 (f' : ℤ) 0 false = some (Nat.toDigits 10 f') := by
    rw [hj, hj0]
    have : ¬ ((f' : ℤ) < 0) := by omega
    simp [decimal, this]
  have hM : toStrDec (m < 0) (dig |m|) (p : ℤ) 0 false = some (fixedText p N) := by
    rw [abs_of_pos hm0, hdig, show (decide (m < 0)) = false from decide_eq_false (not_lt.2 hm0.le), hs1, hst]
  unfold m2fm
  simp only []
  rw [habs]
  simp only [h1, h2, h3', hF, hM, Option.bind_eq_bind, Option.bind_some, Option.pure_def]
  rcases hfs with rfl | rfl | rfl <;> simp [marks]

/-- The defect: 59.996 seconds with two decimals are printed as 150.00 seconds, 119.996 as `1'150.00"`. -/
theorem c35_carry_defect :
    m2fm (fun _ => some ⟨['5', '9', '9', '9', '6'], -3⟩) (rnd 59.996) 2 0 = some ['0', '\'', '1', '5', '0', '.', '0', '0', '"']
    ∧ rnd (decValue ['5', '9', '9', '9', '6'] (-3)) = rnd 59.996 := by
  constructor
  · decide +kernel
  · decide +kernel

/-- Another: seconds below 10⁻⁶ are printed with an exponent: 60 + 2⁻⁴⁶ is `1'1.4210854715202004e-14"`. -/
theorem c35_tiny_defect :
    m2fm (fun _ => some ⟨['1','4','2','1','0','8','5','4','7','1','5','2','0','2','0','0','4'], -30⟩) (60 + 1 / 2 ^ 46) 2 0
      = some ['1', '\'', '1', '.', '4', '2', '1', '0', '8', '5', '4', '7', '1', '5', '2', '0', '2', '0', '0', '4', 'e', '-', '1', '4', '"']
    ∧ IsDouble (60 + 1 / 2 ^ 46)
    ∧ rnd (decValue ['1','4','2','1','0','8','5','4','7','1','5','2','0','2','0','0','4'] (-30)) = 1 / 2 ^ 46 := by
  refine ⟨by decide +kernel, rnd_exact (60 * 2 ^ 46 + 1) (-46) (by norm_num) (by norm_num) (by norm_num), by decide +kernel⟩

/-- whole minutes -/
theorem c35_whole_minutes (dig : ℚ → Option Dec) (h0 : dig 0 = none) (f : ℕ) (hf : f ≤ 35791393) (p : ℕ) (hp : 0 < p ∧ p ≤ 27) (fs : ℤ)
    (hfs : fs = 0 ∨ fs = 1 ∨ fs = 2) :
    m2fm dig (60 * f : ℚ) p fs = some (Nat.toDigits 10 f ++ (marks fs).1 ++ fixedText p 0 ++ (marks fs).2) := by
  have hfq : (f:ℚ) ≤ 35791393 := by exact_mod_cast hf
  have hv : IsDouble (60 * f : ℚ) := rnd_exact (60 * f) 0 (by norm_num) (by rw [abs_of_nonneg (by positivity)]; omega) (by push_cast; ring)
  obtain ⟨f', h1, h2, h3, h4, h5, h6⟩ := split hv (by positivity) (by linarith)
  have hff : f' = f := by
    have a : (f:ℚ) < f' + 1 := by linarith
    have b : (f':ℚ) < f + 1 := by linarith
    have a' : f < f' + 1 := by exact_mod_cast a
    have b' : f' < f + 1 := by exact_mod_cast b
    omega
  subst hff
  have h3' : rnd ((60 * f' : ℚ) - ((60 * (f':ℤ) : ℤ) : ℚ)) = 0 := by rw [h3]; ring
  have hM : toStrDec false none (p : ℤ) 0 false = some (fixedText p 0) := by
    obtain ⟨h, h'⟩ := hp
    clear * - h h'
    interval_cases p <;> decide +kernel
  obtain ⟨j, hj, hjl⟩ := c30_to_str_pad 32 true (f' : ℤ) ⟨by norm_num, by simp; omega⟩ 0 le_rfl (by omega) false
  have hj0 : j = 0 := by omega
  have hF : toStrInt 32 (f' : ℤ) 0 false = some (Nat.toDigits 10 f') := by
    rw [hj, hj0]
    have : ¬ ((f' : ℤ) < 0) := by omega
    simp [decimal, this]
  unfold m2fm
  simp only []
  rw [if_neg (not_lt.2 (by positivity : (0:ℚ) ≤ 60 * f')), if_neg (not_lt.2 (by positivity : (0:ℚ) ≤ 60 * f'))]
  simp only [h1, h2, h3', abs_zero, h0, lt_irrefl, decide_false, hF, hM, Option.bind_eq_bind, Option.bind_some, Option.pure_def]
  rcases hfs with rfl | rfl | rfl <;> simp [marks]

/-- a case that meets the hypotheses: 90.5 seconds -/
example : ∃ N : ℕ, m2fm (fun _ => some ⟨['3', '0', '5'], -1⟩) (181 / 2) 2 0 = some (Nat.toDigits 10 1 ++ ['\''] ++ fixedText 2 N ++ ['"']) ∧ N < 6000 := by
  obtain ⟨N, -, h2, h3⟩ := c35_m2fm_partial (fun _ => some ⟨['3', '0', '5'], -1⟩) (181 / 2) 2 0
    (rnd_exact 181 (-1) (by norm_num) (by norm_num) (by norm_num)) (by rw [abs_of_nonneg] <;> norm_num) (by norm_num) (Or.inl rfl)
    ['3', '0', '5'] (-1) 1 (61 / 2) (by rw [abs_of_nonneg] <;> norm_num) (by norm_num) (by norm_num) rfl
    ⟨by simp, by decide, by decide, by simp⟩ (by decide +kernel) (by simp) (by
      rintro ⟨-, -, e, r, h, -⟩
      simp at h)
  refine ⟨N, ?_, by omega⟩
  rw [show ((2:ℕ):ℤ) = 2 from rfl] at h3
  rw [h3, if_neg (by norm_num)]
  rfl

end Verif.MinSec
