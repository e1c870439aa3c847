import Verif.CalendarFp
import Verif.DateText
import Verif.ClockSpec

/-! Helper lemmas: clock part of `setFromJD`, rounding to seconds, text fields. -/

namespace Verif.Cal
open Verif.Fp

theorem rnd_dy40 (k : ℤ) (hk : |k| ≤ 2^53) :
    rnd ((k:ℚ) / 1099511627776) = (k:ℚ) / 1099511627776 := by
  have := rnd_dyadic k 40 (by norm_num) hk
  norm_num at this ⊢
  exact this

theorem cast_emod (k n : ℤ) : (k:ℚ) = ((k % n : ℤ):ℚ) + (n:ℚ) * ((k / n : ℤ):ℚ) := by
  exact_mod_cast (Int.emod_add_mul_ediv k n).symm

theorem rnd_half_multiple (jd : ℚ) (h : 4096 ≤ jd) :
    ∃ k : ℤ, jd ⊞ (1/2) = (k:ℚ) / 1099511627776 ∧ 4096 * 1099511627776 ≤ k := by
  have hd : IsDouble (jd ⊞ (1/2)) := rnd_isDouble _
  have hge : (4096:ℚ) ≤ jd ⊞ (1/2) := by
    have := rnd_int_le (n := 4096) (q := jd + 1/2) (by norm_num) (by push_cast; linarith)
    simpa [fadd] using this
  obtain ⟨k, hk⟩ := hd.multiple (-40) (by rw [abs_of_nonneg (by linarith)]; norm_num; linarith)
  refine ⟨k, by rw [hk]; norm_num; ring, ?_⟩
  rw [hk] at hge
  norm_num at hge
  have : (4096 * 1099511627776 : ℚ) ≤ k := by norm_num; linarith
  exact_mod_cast this

theorem floor_div_pow (k : ℤ) : ⌊(k:ℚ) / 1099511627776⌋ = k / 1099511627776 := by
  have := Rat.floor_intCast_div_natCast k 1099511627776
  push_cast at this
  exact this

theorem frac_step (f a : ℤ) (hf0 : 0 ≤ f) (hf1 : f < 1099511627776) (ha : 0 < a) (ha2 : a ≤ 60) :
    int2 (((f:ℚ) / 1099511627776) ⊠ (a:ℚ)) = some (a * f / 1099511627776) ∧
    ((((f:ℚ) / 1099511627776) ⊠ (a:ℚ)) ⊟ ((a * f / 1099511627776 : ℤ) : ℚ)) = ((a * f % 1099511627776 : ℤ) : ℚ) / 1099511627776 ∧
    0 ≤ a * f / 1099511627776 ∧ a * f / 1099511627776 < a := by
  have hlt : a * f < a * 1099511627776 := by nlinarith
  have haf : 0 ≤ a * f := by positivity
  have hle : a * f ≤ 60 * 1099511627776 := by nlinarith
  have e1 : ((f:ℚ) / 1099511627776) ⊠ (a:ℚ) = ((a * f : ℤ) : ℚ) / 1099511627776 := by
    unfold fmul
    rw [show (f:ℚ) / 1099511627776 * a = ((a * f : ℤ) : ℚ) / 1099511627776 by push_cast; ring]
    exact rnd_dy40 _ (by rw [abs_of_nonneg haf]; omega)
  have h4 : a * f / 1099511627776 < a := Int.ediv_lt_of_lt_mul (by norm_num) hlt
  have h3 : 0 ≤ a * f / 1099511627776 := Int.ediv_nonneg haf (by norm_num)
  refine ⟨?_, ?_, h3, h4⟩
  · rw [e1]
    exact int2_eq (floor_div_pow _) (by omega) (by omega)
  · rw [e1]
    unfold fsub
    have e2 : ((a * f : ℤ) : ℚ) / 1099511627776 - ((a * f / 1099511627776 : ℤ):ℚ) = ((a * f % 1099511627776 : ℤ) : ℚ) / 1099511627776 := by
      have := cast_emod (a * f) 1099511627776
      rw [this]; push_cast; ring
    rw [e2]
    apply rnd_dy40 _
    rw [abs_of_nonneg (by omega)]; omega

/-- exact clock reading of a fraction `f/1099511627776` of a day -/
theorem clockOfFrac_eq (f : ℤ) (hf0 : 0 ≤ f) (hf1 : f < 1099511627776) :
    ∃ h m x : ℤ, clockOfFrac ((f:ℚ) / 1099511627776) = some (h, m, (x:ℚ) / 1099511627776) ∧
      0 ≤ h ∧ h < 24 ∧ 0 ≤ m ∧ m < 60 ∧ 0 ≤ x ∧ x < 60 * 1099511627776 ∧
      (h * 3600 + m * 60) * 1099511627776 + x = 86400 * f := by
  obtain ⟨a1, a2, a3, a4⟩ := frac_step f 24 hf0 hf1 (by norm_num) (by norm_num)
  have hf0' : 0 ≤ 24 * f % 1099511627776 := by omega
  have hf1' : 24 * f % 1099511627776 < 1099511627776 := by omega
  obtain ⟨b1, b2, b3, b4⟩ := frac_step (24 * f % 1099511627776) 60 hf0' hf1' (by norm_num) (by norm_num)
  have hf0'' : 0 ≤ 60 * (24 * f % 1099511627776) % 1099511627776 := by omega
  have hf1'' : 60 * (24 * f % 1099511627776) % 1099511627776 < 1099511627776 := by omega
  refine ⟨24 * f / 1099511627776, 60 * (24 * f % 1099511627776) / 1099511627776, 60 * (60 * (24 * f % 1099511627776) % 1099511627776), ?_, a3, a4, b3, b4, by omega, by omega, by omega⟩
  unfold clockOfFrac
  simp only
  push_cast at a1 a2 b1 b2 ⊢
  rw [a1]
  simp only [Option.bind_eq_bind, Option.bind_some]
  push_cast at a2 ⊢
  rw [a2]
  rw [b1]
  simp only [Option.bind_some]
  push_cast at b2 ⊢
  rw [b2]
  simp only [Option.pure_def, Option.some.injEq, Prod.mk.injEq, true_and]
  set g := 60 * (24 * f % 1099511627776) % 1099511627776
  unfold fmul
  rw [show (g:ℚ) / 1099511627776 * 60 = ((60 * g : ℤ) : ℚ) / 1099511627776 by push_cast; ring,
    rnd_dy40 _ (by rw [abs_of_nonneg (by omega)]; omega)]
  push_cast; ring

/-- complete integer description of `setFromJD` -/
theorem setFromJD_eq (jd : ℚ) (h1 : 4096 ≤ jd) (h2 : jd ≤ 1840000000) :
    ∃ N h m x : ℤ, setFromJD jd = some ⟨(ofDay N).1, (ofDay N).2.1, (ofDay N).2.2, h, m, (x:ℚ) / 1099511627776⟩ ∧
      4096 ≤ N ∧ N ≤ 1840000001 ∧
      0 ≤ h ∧ h < 24 ∧ 0 ≤ m ∧ m < 60 ∧ 0 ≤ x ∧ x < 60 * 1099511627776 ∧
      jd ⊞ (1/2) = N + ((h * 3600 + m * 60 : ℤ) + (x:ℚ) / 1099511627776) / 86400 := by
  obtain ⟨k, hk, hk0⟩ := rnd_half_multiple jd h1
  have hkub : k ≤ 1840000001 * 1099511627776 := by
    have : jd ⊞ (1/2) ≤ (1840000001 : ℤ) := rnd_le_int (by norm_num) (by push_cast; linarith)
    rw [hk, div_le_iff₀ (by norm_num)] at this
    exact_mod_cast this
  obtain ⟨h, m, x, hc, p1, p2, p3, p4, p5, p6, p7⟩ := clockOfFrac_eq (k % 1099511627776) (by omega) (by omega)
  have hD : int2 (jd ⊞ (1/2)) = some (k / 1099511627776) := by
    rw [hk]; exact int2_eq (floor_div_pow k) (by omega) (by omega)
  have hF : (jd ⊞ (1/2)) ⊟ ((k / 1099511627776 : ℤ) : ℚ) = ((k % 1099511627776 : ℤ):ℚ) / 1099511627776 := by
    rw [hk]
    unfold fsub
    have e2 : (k : ℚ) / 1099511627776 - ((k / 1099511627776 : ℤ):ℚ) = ((k % 1099511627776 : ℤ) : ℚ) / 1099511627776 := by
      have := cast_emod k 1099511627776
      push_cast at this
      field_simp
      linarith
    rw [e2]
    apply rnd_dy40 _
    rw [abs_of_nonneg (by omega)]; omega
  refine ⟨k / 1099511627776, h, m, x, ?_, by omega, by omega, p1, p2, p3, p4, p5, p6, ?_⟩
  · unfold setFromJD
    rw [hD]
    simp only [Option.bind_eq_bind, Option.bind_some]
    rw [hF, dateOfDay_eq _ (by omega) (by omega)]
    simp only [Option.bind_some]
    rw [hc]
    simp
  · rw [hk]
    have e : (((h * 3600 + m * 60) * 1099511627776 + x : ℤ):ℚ) = ((86400 * (k % 1099511627776) : ℤ) : ℚ) := by exact_mod_cast p7
    have e3 := cast_emod k 1099511627776
    push_cast at e ⊢
    rw [e3]
    field_simp
    push_cast at *
    linarith

theorem two_eq (n : ℤ) (h0 : 0 ≤ n) (h1 : n < 100) : two n = some (dd n) := by
  have key : ∀ k : Fin 100, two (k.val : ℤ) = some (dd (k.val : ℤ)) := by decide +kernel
  have := key ⟨n.toNat, by omega⟩
  simp only at this
  rwa [show ((n.toNat : ℕ) : ℤ) = n by omega] at this

theorem lastK_append (k : Nat) (p s : Str) (h1 : s.length ≤ k) (h2 : k ≤ p.length + s.length) :
    lastK k (p ++ s) = some (p.drop (p.length + s.length - k) ++ s) := by
  unfold lastK
  rw [if_pos (by simpa using h2), List.drop_append, List.length_append]
  congr 2
  rw [show p.length + s.length - k - p.length = 0 by omega, List.drop_zero]

theorem yearText_eq (y : ℤ) (h : (decimal y).length ≤ 5) :
    lastK 5 (' ' :: ' ' :: ' ' :: ' ' :: ' ' :: decimal y) =
      some (List.replicate (5 - (decimal y).length) ' ' ++ decimal y) := by
  have := lastK_append 5 [' ', ' ', ' ', ' ', ' '] (decimal y) h (by simp)
  simp only [List.cons_append, List.nil_append] at this
  rw [this]
  congr 2
  set n := (decimal y).length
  interval_cases n <;> rfl

theorem decimal_length_nat (n : ℕ) (k : ℕ) (hk : 0 < k) (h : n < 10^k) : (Nat.toDigits 10 n).length ≤ k := by
  exact Nat.length_toDigits_le_iff (by norm_num) hk |>.mpr h

theorem decimal_length5 (y : ℤ) (h1 : -9999 ≤ y) (h2 : y ≤ 99999) : (decimal y).length ≤ 5 := by
  unfold decimal
  split_ifs with h
  · have := decimal_length_nat y.natAbs 4 (by norm_num) (by omega)
    simp; omega
  · exact decimal_length_nat y.natAbs 5 (by norm_num) (by omega)

end Verif.Cal

namespace Verif.Cal
open Verif.Fp

theorem half_floor (x : ℤ) (hx0 : 0 ≤ x) (hx1 : x ≤ 86400 * 1099511627776) (hb : x ≤ 4096 * 1099511627776 ∨ ∃ z, x = 128 * z) :
    int2 (((x:ℚ) / 1099511627776) ⊞ (1/2)) = some ((x + 549755813888) / 1099511627776) := by
  have : ((x:ℚ) / 1099511627776) ⊞ (1/2) = ((x + 549755813888 : ℤ) : ℚ) / 1099511627776 := by
    unfold fadd
    rw [show (x:ℚ) / 1099511627776 + 1/2 = ((x + 549755813888 : ℤ) : ℚ) / 1099511627776 by push_cast; ring]
    rcases hb with hb | ⟨z, rfl⟩
    · exact rnd_dy40 _ (by rw [abs_of_nonneg (by omega)]; omega)
    · rw [show ((128 * z + 549755813888 : ℤ) : ℚ) / 1099511627776 = ((z + 4294967296 : ℤ) : ℚ) / 2^33 by push_cast; ring]
      exact rnd_dyadic _ 33 (by norm_num) (by rw [abs_of_nonneg (by omega)]; omega)
  rw [this]
  exact int2_eq (floor_div_pow _) (by omega) (by omega)

/-- `DD2str` prints the date and the time rounded to the nearest second -/
theorem dd2str_eq (Y M D h m x : ℤ) (hM : 0 ≤ M ∧ M < 100) (hD : 0 ≤ D ∧ D < 100)
    (hh : 0 ≤ h ∧ h < 24) (hm : 0 ≤ m ∧ m < 60) (hx : 0 ≤ x ∧ x < 60 * 1099511627776)
    (hY : (decimal Y).length ≤ 5) :
    dd2str ⟨Y, M, D, h, m, (x:ℚ) / 1099511627776⟩ = some (dateText Y M D ++ ' ' ::
      clockText (h * 3600 + m * 60 + (x + 549755813888) / 1099511627776)) := by
  unfold dd2str
  simp only
  rw [half_floor x hx.1 (by omega) (Or.inl (by omega))]
  simp only [Option.bind_eq_bind, Option.bind_some]
  rw [yearText_eq Y hY]
  simp only [Option.bind_some]
  set s := (x + 549755813888) / 1099511627776 with hs
  have hs0 : 0 ≤ s := by omega
  have hs1 : s ≤ 60 := by omega
  obtain ⟨h', m', s', hc, e, a1, a2, a3, a4, a5, a6⟩ : ∃ h' m' s' : ℤ, carry h m s = (h', m', s') ∧
     h' * 3600 + m' * 60 + s' = h * 3600 + m * 60 + s ∧ 0 ≤ h' ∧ h' ≤ 24 ∧ 0 ≤ m' ∧ m' < 60 ∧ 0 ≤ s' ∧ s' < 60 := by
    unfold carry
    by_cases c1 : s ≥ 60
    · by_cases c2 : m + 1 ≥ 60
      · exact ⟨h + 1, m + 1 - 60, s - 60, by simp [c1, c2], by omega, by omega, by omega, by omega, by omega, by omega, by omega⟩
      · exact ⟨h, m + 1, s - 60, by simp [c1, c2], by omega, by omega, by omega, by omega, by omega, by omega, by omega⟩
    · exact ⟨h, m, s, by simp [c1, show ¬ (60 ≤ m) by omega], by omega, by omega, by omega, by omega, by omega, by omega, by omega⟩
  rw [hc]
  simp only
  rw [two_eq M hM.1 hM.2, two_eq D hD.1 hD.2, two_eq h' a1 (by omega), two_eq m' a3 (by omega), two_eq s' a5 (by omega)]
  simp only [Option.bind_some, Option.pure_def, Option.some.injEq]
  unfold dateText clockText
  rw [← e]
  have q1 : (h' * 3600 + m' * 60 + s') / 3600 = h' := by omega
  have q2 : (h' * 3600 + m' * 60 + s') % 3600 / 60 = m' := by omega
  have q3 : (h' * 3600 + m' * 60 + s') % 60 = s' := by omega
  rw [q1, q2, q3]
  simp

theorem rnd_bound {q v B ε δ : ℚ} (h : |q - v| ≤ ε) (hB : |q| ≤ B) (hB1 : 1 ≤ B)
    (hδ : ε + B / 9007199254740992 ≤ δ) : |rnd q - v| ≤ δ := by
  have := rnd_err1 hB hB1
  rw [abs_le] at *
  constructor <;> linarith

/-- the time-of-day term is accurate to 2^-41 day -/
theorem timeTerm_err (h m : ℤ) (s : ℚ) (hh : 0 ≤ h ∧ h < 24) (hm : 0 ≤ m ∧ m < 60) (hs : 0 ≤ s ∧ s < 60) :
    |timeTerm h m s - ((h * 3600 + m * 60 + s) / 86400 - 3049/2)| ≤ 1 / 2199023255552 := by
  have hh1 : (0:ℚ) ≤ h := by exact_mod_cast hh.1
  have hh2 : (h:ℚ) ≤ 23 := by exact_mod_cast (by omega : h ≤ 23)
  have hm1 : (0:ℚ) ≤ m := by exact_mod_cast hm.1
  have hm2 : (m:ℚ) ≤ 59 := by exact_mod_cast (by omega : m ≤ 59)
  obtain ⟨hs1, hs2⟩ := hs
  unfold timeTerm
  have b1 : |s ⊘ 60 - s / 60| ≤ 1 / 9007199254740992 := by
    unfold fdiv
    apply rnd_bound (ε := 0) (B := 1)
    · simp
    · rw [abs_of_nonneg (by positivity)]; linarith
    · norm_num
    · norm_num
  set a1 := s ⊘ 60
  have b2 : |a1 ⊞ (m:ℚ) - (s / 60 + m)| ≤ 65 / 9007199254740992 := by
    unfold fadd
    apply rnd_bound (ε := 1 / 9007199254740992) (B := 64)
    · rw [abs_le] at *; constructor <;> linarith
    · rw [abs_le] at *; constructor <;> linarith
    · norm_num
    · norm_num
  set a2 := a1 ⊞ (m:ℚ)
  have b3 : |a2 ⊘ 60 - (s / 60 + m) / 60| ≤ 4 / 9007199254740992 := by
    unfold fdiv
    apply rnd_bound (ε := 2 / 9007199254740992) (B := 2)
    · rw [abs_le] at *; constructor <;> linarith
    · rw [abs_le] at *; constructor <;> linarith
    · norm_num
    · norm_num
  set a3 := a2 ⊘ 60
  have b4 : |a3 ⊞ (h:ℚ) - ((s / 60 + m) / 60 + h)| ≤ 36 / 9007199254740992 := by
    unfold fadd
    apply rnd_bound (ε := 4 / 9007199254740992) (B := 32)
    · rw [abs_le] at *; constructor <;> linarith
    · rw [abs_le] at *; constructor <;> linarith
    · norm_num
    · norm_num
  set a4 := a3 ⊞ (h:ℚ)
  have b5 : |a4 ⊘ 24 - ((s / 60 + m) / 60 + h) / 24| ≤ 4 / 9007199254740992 := by
    unfold fdiv
    apply rnd_bound (ε := 2 / 9007199254740992) (B := 2)
    · rw [abs_le] at *; constructor <;> linarith
    · rw [abs_le] at *; constructor <;> linarith
    · norm_num
    · norm_num
  set a5 := a4 ⊘ 24
  have b6 : |a5 ⊟ (3049/2) - ((h * 3600 + m * 60 + s) / 86400 - 3049/2)| ≤ 2052 / 9007199254740992 := by
    unfold fsub
    apply rnd_bound (ε := 4 / 9007199254740992) (B := 2048)
    · rw [abs_le] at *; constructor <;> linarith
    · rw [abs_le] at *; constructor <;> linarith
    · norm_num
    · norm_num
  refine b6.trans ?_
  norm_num

/-- `toJD` is within 2^-22 + 2^-41 day (0.021 s) of the exact instant -/
theorem toJD_err (c : CDate) (hv : c.Valid) (hr : c.InRange) (h m : ℤ) (s : ℚ)
    (hh : 0 ≤ h ∧ h < 24) (hm : 0 ≤ m ∧ m < 60) (hs : 0 ≤ s ∧ s < 60) :
    ∃ j, toJD ⟨c.y, c.m, c.d, h, m, s⟩ = some j ∧
      |j - (dayNum c.y c.m c.d - 1/2 + (h * 3600 + m * 60 + s) / 86400)| ≤ 1/4194000 := by
  obtain ⟨Y, M, D⟩ := c
  refine ⟨_, toJD_eq Y M D h m s hv hr, ?_⟩
  have hb := dayNum_bounds Y M D hv hr
  have ht := timeTerm_err h m s hh hm hs
  have hh1 : (0:ℚ) ≤ h := by exact_mod_cast hh.1
  have hh2 : (h:ℚ) ≤ 23 := by exact_mod_cast (by omega : h ≤ 23)
  have hm1 : (0:ℚ) ≤ m := by exact_mod_cast hm.1
  have hm2 : (m:ℚ) ≤ 59 := by exact_mod_cast (by omega : m ≤ 59)
  obtain ⟨hs1, hs2⟩ := hs
  set n := dayNum Y M D
  have hn1 : (-1401:ℚ) ≤ n := by exact_mod_cast hb.1
  have hn2 : (n:ℚ) ≤ 1800000000 := by exact_mod_cast hb.2
  unfold fadd
  apply rnd_bound (ε := 1 / 2199023255552) (B := 1800000100)
  · push_cast
    rw [abs_le] at *
    constructor <;> linarith
  · push_cast
    rw [abs_le] at *
    constructor <;> linarith
  · norm_num
  · norm_num

end Verif.Cal

namespace Verif.Cal
open Verif.Fp

theorem next_valid (c : CDate) (hv : c.Valid) : c.next.Valid := by
  obtain ⟨y, m, d⟩ := c
  simp only [CDate.Valid] at hv
  obtain ⟨h1, h2, h3, h4, h5⟩ := hv
  unfold CDate.next
  simp only [CDate.mk.injEq]
  split_ifs with a b c
  · decide
  · simp only [CDate.Valid]; omega
  · simp only [CDate.Valid]
    have : 1 ≤ lastDay y (m+1) := by unfold lastDay; split_ifs <;> omega
    omega
  · simp only [CDate.Valid]
    have : 1 ≤ lastDay (y+1) 1 := by unfold lastDay; split_ifs <;> omega
    omega

theorem dayNum_lower (Y M D : ℤ) (hv : (⟨Y, M, D⟩ : CDate).Valid) (hy : 4900000 < Y) :
    1790000001 < dayNum Y M D := by
  obtain ⟨⟨hm1, hm2⟩, ⟨hd1, hd2⟩, -, -, -⟩ := valid_bounds hv
  rw [dayNum_eq]
  simp only
  by_cases hM : M ≤ 2 <;> simp only [hM, if_true, if_false] <;> split_ifs <;> omega

theorem dayNum_lower' (Y M D : ℤ) (hv : (⟨Y, M, D⟩ : CDate).Valid) (hy : 99999 < Y) :
    30000001 < dayNum Y M D := by
  obtain ⟨⟨hm1, hm2⟩, ⟨hd1, hd2⟩, -, -, -⟩ := valid_bounds hv
  rw [dayNum_eq]
  simp only
  by_cases hM : M ≤ 2 <;> simp only [hM, if_true, if_false] <;> split_ifs <;> omega

theorem dayNum_first_le (y m d : ℤ) (hv : (⟨y, m, d⟩ : CDate).Valid) :
    dayNum y m 1 ≤ dayNum y m d := by
  obtain ⟨⟨hm1, hm2⟩, ⟨hd1, hd2⟩, h30, h29, hgap⟩ := valid_bounds hv
  simp only [dayNum_eq]
  split_ifs <;> omega

theorem dayNum_lt_nextMonth (y m d : ℤ) (hv : (⟨y, m, d⟩ : CDate).Valid) (hm : m < 12) :
    dayNum y m d < dayNum y (m + 1) 1 := by
  obtain ⟨⟨hm1, hm2⟩, ⟨hd1, hd2⟩, h30, h29, hgap⟩ := valid_bounds hv
  by_cases h2 : m = 2
  · subst h2
    have := dayNum_feb y _ rfl
    have hd : d ≤ if leap y = true then 29 else 28 := by
      have := hv.2.2.2.1
      simpa [lastDay] using this
    rw [show (2:ℤ) + 1 = 3 by norm_num, this]
    generalize (if leap y = true then (29:ℤ) else 28) = L at *
    simp only [dayNum_eq]
    split_ifs <;> omega
  · simp only [dayNum_eq]
    interval_cases m <;> simp at h30 h29 h2 ⊢ <;> split_ifs <;> omega

theorem dayNum_lt_nextYear (y d : ℤ) (hv : (⟨y, 12, d⟩ : CDate).Valid) :
    dayNum y 12 d < dayNum (y + 1) 1 1 := by
  obtain ⟨⟨hm1, hm2⟩, ⟨hd1, hd2⟩, h30, h29, hgap⟩ := valid_bounds hv
  simp only [dayNum_eq]
  norm_num
  split_ifs <;> omega

theorem first_valid (y m : ℤ) (h1 : 1 ≤ m) (h2 : m ≤ 12) : (⟨y, m, 1⟩ : CDate).Valid := by
  have : 1 ≤ lastDay y m := by unfold lastDay; split_ifs <;> omega
  simp only [CDate.Valid]; omega

theorem firsts_mono (y m : ℤ) (h1 : 1 ≤ m) (k : ℕ) (h2 : m + k ≤ 12) :
    dayNum y m 1 + k ≤ dayNum y (m + k) 1 := by
  induction k with
  | zero => simp
  | succ k ih =>
    push_cast at h2 ⊢
    have := dayNum_lt_nextMonth y (m + k) 1 (first_valid y _ (by omega) (by omega)) (by omega)
    have := ih (by omega)
    rw [show m + ((k:ℤ) + 1) = m + k + 1 by ring]
    omega

theorem year_mono (y : ℤ) (k : ℕ) : dayNum y 1 1 + k ≤ dayNum (y + k) 1 1 := by
  induction k with
  | zero => simp
  | succ k ih =>
    have a := firsts_mono (y + k) 1 (by norm_num) 11 (by norm_num)
    have b := dayNum_lt_nextYear (y + k) 1 (first_valid _ _ (by norm_num) (by norm_num))
    push_cast at *
    rw [show y + ((k:ℤ) + 1) = y + k + 1 by ring]
    omega

theorem month_lt (y m d m' : ℤ) (hv : (⟨y, m, d⟩ : CDate).Valid) (h : m < m') (h2 : m' ≤ 12) :
    dayNum y m d < dayNum y m' 1 := by
  have a := dayNum_lt_nextMonth y m d hv (by omega)
  have b := firsts_mono y (m+1) (by have := hv.1; simp only at this; omega) (m' - (m + 1)).toNat (by omega)
  rw [show m + 1 + (((m' - (m + 1)).toNat : ℕ) : ℤ) = m' by omega] at b
  omega

/-- lexicographic order of valid dates is the order of day numbers -/
theorem dayNum_before (a b : CDate) (va : a.Valid) (vb : b.Valid) (h : a.before b) :
    dayNum a.y a.m a.d < dayNum b.y b.m b.d := by
  obtain ⟨y, m, d⟩ := a
  obtain ⟨y', m', d'⟩ := b
  have fb := dayNum_first_le y' m' d' vb
  have hm := va.2.1
  have hm' := vb.1
  have hm'' := vb.2.1
  simp only [CDate.before] at *
  rcases h with h | ⟨rfl, h | ⟨rfl, h⟩⟩
  · have e1 : dayNum y m d ≤ dayNum y 12 31 := by
      by_cases hh : m = 12
      · subst hh
        have : d ≤ 31 := (valid_bounds va).2.1.2
        simp only [dayNum_eq]; split_ifs <;> omega
      · have := month_lt y m d 12 va (by omega) (by omega)
        have := dayNum_first_le y 12 31 (by simp [CDate.Valid, lastDay])
        omega
    have e2 := dayNum_lt_nextYear y 31 (by simp [CDate.Valid, lastDay])
    have e3 := year_mono (y + 1) (y' - (y + 1)).toNat
    rw [show y + 1 + (((y' - (y + 1)).toNat : ℕ) : ℤ) = y' by omega] at e3
    by_cases hh : m' = 1
    · subst hh; omega
    · have := month_lt y' 1 1 m' (first_valid _ _ (by omega) (by omega)) (by omega) hm''
      omega
  · have := month_lt y m d m' va h hm''
    omega
  · obtain ⟨⟨hm1, hm2⟩, ⟨hd1, hd2⟩, h30, h29, hgap⟩ := valid_bounds va
    obtain ⟨⟨hm1', hm2'⟩, ⟨hd1', hd2'⟩, h30', h29', hgap'⟩ := valid_bounds vb
    clear fb
    simp only [dayNum_eq]; split_ifs <;> omega

theorem setFromJD_noon (c : CDate) (hv : c.Valid) (h1 : -1401 ≤ dayNum c.y c.m c.d)
    (h2 : dayNum c.y c.m c.d ≤ 1850000000) :
    setFromJD ((dayNum c.y c.m c.d : ℤ) : ℚ) = some ⟨c.y, c.m, c.d, 12, 0, 0⟩ := by
  set N := dayNum c.y c.m c.d with hN
  have e1 : (N:ℚ) ⊞ (1/2) = N + 1/2 := by
    unfold fadd
    rw [show (N:ℚ) + 1/2 = ((2 * N + 1 : ℤ):ℚ) / 2^1 by push_cast; ring]
    exact rnd_dyadic _ 1 (by norm_num) (by rw [abs_le]; constructor <;> omega)
  have e2 : int2 ((N:ℚ) + 1/2) = some N := by
    apply int2_eq _ (by omega) (by omega)
    rw [Int.floor_eq_iff]; constructor <;> linarith
  have e3 : ((N:ℚ) + 1/2) ⊟ (N:ℚ) = 1/2 := by
    unfold fsub
    rw [show (N:ℚ) + 1/2 - N = 1/2 by ring]
    decide +kernel
  have e4 : clockOfFrac (1/2) = some (12, 0, 0) := by decide +kernel
  have hof : ofDay N = (c.y, c.m, c.d) := by rw [hN]; exact ofDay_dayNum c hv
  unfold setFromJD
  rw [e1, e2]
  simp only [Option.bind_eq_bind, Option.bind_some]
  rw [e3, dateOfDay_eq N h1 h2, e4, hof]
  rfl

theorem roundtrip (c : CDate) (hv : c.Valid) (hy : -4700 ≤ c.y ∧ c.y ≤ 4900000)
    (h m s : ℤ) (hh : 0 ≤ h ∧ h < 24) (hm : 0 ≤ m ∧ m < 60) (hs : 0 ≤ s ∧ s < 60) :
    ∃ j r, toJD ⟨c.y, c.m, c.d, h, m, s⟩ = some j ∧ setFromJD j = some r ∧ (r.Y, r.M, r.D) = (c.y, c.m, c.d) ∧
      ∃ h' m' x : ℤ, r = ⟨c.y, c.m, c.d, h', m', (x:ℚ) / 1099511627776⟩ ∧
        (0 ≤ h' ∧ h' < 24) ∧ (0 ≤ m' ∧ m' < 60) ∧ (0 ≤ x ∧ x < 60 * 1099511627776) ∧
        h' * 3600 + m' * 60 + (x + 549755813888) / 1099511627776 = h * 3600 + m * 60 + s := by
  have hr : c.InRange := ⟨Or.inl (by omega), hy.2⟩
  obtain ⟨j, e1, b1⟩ := toJD_err c hv hr h m s hh hm ⟨by exact_mod_cast hs.1, by exact_mod_cast hs.2⟩
  have hb := dayNum_bounds c.y c.m c.d hv hr
  have hlow : 4200 ≤ dayNum c.y c.m c.d := by
    obtain ⟨⟨hm1, hm2⟩, ⟨hd1, hd2⟩, -, -, -⟩ := valid_bounds hv
    rw [dayNum_eq]
    simp only
    split_ifs <;> omega
  have hof := ofDay_dayNum c hv
  -- exactness at midnight
  have hmid : h * 3600 + m * 60 + s = 0 → j = dayNum c.y c.m c.d - 1/2 := by
    intro h0
    obtain ⟨rfl, rfl, rfl⟩ : h = 0 ∧ m = 0 ∧ s = 0 := by omega
    rw [toJD_eq _ _ _ _ _ _ hv hr] at e1
    rw [← Option.some.inj e1]
    push_cast
    rw [timeTerm_midnight]
    unfold fadd
    rw [show ((dayNum c.y c.m c.d : ℚ) + 1524 + -3049/2) = ((2 * dayNum c.y c.m c.d - 1 : ℤ) : ℚ) / 2^1 by push_cast; ring,
     rnd_dyadic _ 1 (by norm_num) (by rw [abs_le]; constructor <;> omega)]
    push_cast; ring
  set N := dayNum c.y c.m c.d with hN
  clear_value N
  set T : ℤ := h * 3600 + m * 60 + s with hT
  have hT0 : 0 ≤ T := by omega
  have hT1 : T ≤ 86399 := by omega
  have b1' : |j - (N - 1/2 + (T:ℚ) / 86400)| ≤ 1/4194000 := by rw [hT]; push_cast; exact b1
  clear_value T
  have hNq1 : (4200:ℚ) ≤ N := by exact_mod_cast hlow
  have hNq2 : (N:ℚ) ≤ 1800000000 := by exact_mod_cast hb.2
  have hTq0 : (0:ℚ) ≤ T := by exact_mod_cast hT0
  have hTq1 : (T:ℚ) ≤ 86399 := by exact_mod_cast hT1
  have b1a := abs_le.mp b1'
  have hj1 : 4096 ≤ j := by linarith [b1a.1]
  have hj2 : j ≤ 1840000000 := by linarith [b1a.2]
  obtain ⟨N', h', m', x, e, p1, p2, p3, p4, p5, p6, p7, p8, p9⟩ := setFromJD_eq j hj1 hj2
  have herr : |rnd (j + 1/2) - (N + (T:ℚ) / 86400)| ≤ 1/2000000 := by
    apply rnd_bound (ε := 1/4194000) (B := 1800000100)
    · rw [abs_le]; constructor <;> linarith [b1a.1, b1a.2]
    · rw [abs_le]; constructor <;> linarith [b1a.1, b1a.2]
    · norm_num
    · norm_num
  unfold fadd at p9
  have hex : T = 0 → rnd (j + 1/2) = N := by
    intro h0
    rw [hmid h0]
    rw [show ((N:ℚ) - 1/2 + 1/2) = N by ring]
    exact rnd_intCast _ (by rw [abs_le]; constructor <;> omega)
  have hx0 : (0:ℚ) ≤ x := by exact_mod_cast p7
  have hx1 : (x:ℚ) < 60 * 1099511627776 := by exact_mod_cast p8
  have hw0 : (0:ℚ) ≤ ((h' * 3600 + m' * 60 : ℤ):ℚ) := by exact_mod_cast (by omega)
  have hw1 : ((h' * 3600 + m' * 60 : ℤ):ℚ) ≤ 86340 := by exact_mod_cast (by omega)
  set w : ℤ := h' * 3600 + m' * 60 with hwdef
  have hfrac0 : (0:ℚ) ≤ ((w:ℚ) + x / 1099511627776) / 86400 := by positivity
  have hfrac1 : ((w:ℚ) + x / 1099511627776) / 86400 < 1 := by
    have h4 : (x:ℚ) / 1099511627776 < 60 := by rw [div_lt_iff₀ (by norm_num)]; linarith
    rw [div_lt_one (by norm_num)]; linarith
  rw [p9] at herr hex
  have hea := abs_le.mp herr
  have hNN : N' = N := by
    have u2 : (N':ℚ) < N + 1 := by linarith [hea.2]
    have u2 : N' < N + 1 := by exact_mod_cast u2
    have u1 : (N:ℚ) - 1 < N' := by
      by_cases h0 : T = 0
      · have := hex h0; linarith
      · have hT2 : (1:ℚ) ≤ T := by exact_mod_cast (by omega)
        linarith [hea.1]
    have u1 : N - 1 < N' := by exact_mod_cast u1
    omega
  subst hNN
  rw [hof] at e
  refine ⟨j, _, e1, e, rfl, h', m', x, rfl, ⟨p3, p4⟩, ⟨p5, p6⟩, ⟨p7, p8⟩, ?_⟩
  rw [← hwdef]
  have : (x + 549755813888) / 1099511627776 = ⌊((x + 549755813888 : ℤ):ℚ) / 1099511627776⌋ := (floor_div_pow _).symm
  rw [this, ← Int.floor_intCast_add, Int.floor_eq_iff]
  push_cast
  have e5 : ((w:ℚ) + (x + 549755813888) / 1099511627776) = 86400 * (((w:ℚ) + x / 1099511627776) / 86400) + 1/2 := by ring
  rw [e5]
  constructor
  · linarith [hea.1]
  · linarith [hea.2]

theorem timeStr_eq (jd : ℚ) (h1 : 4096 ≤ jd) (h2 : jd ≤ 1790000000) :
    ∃ n sec : ℤ, (n : ℚ) ≤ rnd (jd + 1/2) ∧ rnd (jd + 1/2) < n + 1 ∧
      0 ≤ sec ∧ sec ≤ 86400 ∧ sec = ⌊(rnd (jd + 1/2) - n) * 86400 + 1/2⌋ ∧
      timeStr jd = some (clockText sec) := by
  obtain ⟨k, hk, hk0⟩ := rnd_half_multiple jd h1
  have hkub : k ≤ 1840000001 * 1099511627776 := by
    have : jd ⊞ (1/2) ≤ (1840000001 : ℤ) := rnd_le_int (by norm_num) (by push_cast; linarith)
    rw [hk, div_le_iff₀ (by norm_num)] at this
    exact_mod_cast this
  have hD : int2 (jd ⊞ (1/2)) = some (k / 1099511627776) := by
    rw [hk]; exact int2_eq (floor_div_pow k) (by omega) (by omega)
  have e2 : (k : ℚ) / 1099511627776 - ((k / 1099511627776 : ℤ):ℚ) = ((k % 1099511627776 : ℤ) : ℚ) / 1099511627776 := by
    have := cast_emod k 1099511627776
    push_cast at this
    field_simp
    linarith
  have hF : (jd ⊞ (1/2)) ⊟ ((k / 1099511627776 : ℤ) : ℚ) = ((k % 1099511627776 : ℤ):ℚ) / 1099511627776 := by
    rw [hk]
    unfold fsub
    rw [e2]
    apply rnd_dy40 _
    rw [abs_of_nonneg (by omega)]; omega
  set f := k % 1099511627776 with hf
  have hf0 : 0 ≤ f := by omega
  have hf1 : f < 1099511627776 := by omega
  have hM : ((f:ℚ) / 1099511627776) ⊠ 86400 = ((86400 * f : ℤ):ℚ) / 1099511627776 := by
    unfold fmul
    rw [show (f:ℚ) / 1099511627776 * 86400 = ((675 * f : ℤ):ℚ) / 2^33 by push_cast; ring,
      rnd_dyadic _ 33 (by norm_num) (by rw [abs_of_nonneg (by omega)]; omega)]
    push_cast; ring
  set sec := (86400 * f + 549755813888) / 1099511627776 with hsec
  have hs0 : 0 ≤ sec := by omega
  have hs1 : sec ≤ 86400 := by omega
  have hS : int2 ((((f:ℚ) / 1099511627776) ⊠ 86400) ⊞ (1/2)) = some sec := by
    rw [hM]
    exact half_floor (86400 * f) (by omega) (by omega) (Or.inr ⟨675 * f, by ring⟩)
  have hkrat : rnd (jd + 1/2) = (k:ℚ) / 1099511627776 := hk
  refine ⟨k / 1099511627776, sec, ?_, ?_, hs0, hs1, ?_, ?_⟩
  · have : (0:ℚ) ≤ f := by exact_mod_cast hf0
    have : (0:ℚ) ≤ (f:ℚ) / 1099511627776 := by positivity
    rw [hkrat]; linarith
  · have : (f:ℚ) < 1099511627776 := by exact_mod_cast hf1
    have : (f:ℚ) / 1099511627776 < 1 := by rw [div_lt_one (by norm_num)]; exact this
    rw [hkrat]; linarith
  · rw [hkrat, e2, hsec, ← floor_div_pow]
    congr 1
    push_cast; ring
  · unfold timeStr
    simp only
    rw [hD]
    simp only [Option.bind_eq_bind, Option.bind_some]
    rw [hF, hS]
    simp only [Option.bind_some]
    have q1 : int2 ((sec:ℚ) ⊘ 3600) = some (sec / 3600) := by
      apply int2_eq
      · have := floor_rnd_div sec 3600 (by rw [abs_of_nonneg hs0]; omega) (by norm_num) (by norm_num)
        push_cast at this; exact this
      · omega
      · omega
    rw [q1]
    simp only [Option.bind_some]
    rw [i32_some (by omega) (by omega)]
    simp only [Option.bind_some]
    have q2 : int2 (((sec - sec / 3600 * 3600 : ℤ):ℚ) ⊘ 60) = some (sec % 3600 / 60) := by
      apply int2_eq
      · have := floor_rnd_div (sec - sec / 3600 * 3600) 60 (by rw [abs_of_nonneg (by omega)]; omega) (by norm_num) (by norm_num)
        push_cast at this ⊢
        unfold fdiv
        rw [this]; omega
      · omega
      · omega
    rw [q2]
    simp only [Option.bind_some]
    rw [i32_some (by omega) (by omega)]
    simp only [Option.bind_some]
    rw [two_eq _ (by omega) (by omega), two_eq _ (by omega) (by omega), two_eq _ (by omega) (by omega)]
    simp only [Option.bind_some, Option.pure_def, Option.some.injEq]
    unfold clockText
    rw [show sec - sec / 3600 * 3600 - sec % 3600 / 60 * 60 = sec % 60 by omega]
end Verif.Cal
