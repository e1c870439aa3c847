import Verif.FloorLemmas
import Verif.CalendarInt
import Verif.Calendar

/-! Floating-point bridge: the double computations of `toJD`/`setFromJD` equal the integer ones. -/

namespace Verif.Cal
open Verif.Fp

theorem month_floor (k : ℤ) (h1 : 4 ≤ k) (h2 : k ≤ 15) :
    toInt (rnd (306/10) ⊠ (k:ℚ)) = some (306 * k / 10) := by
  interval_cases k <;> decide +kernel

theorem month_floor2 (k : ℤ) (h1 : 4 ≤ k) (h2 : k ≤ 15) :
    int2 (rnd (30601/1000) ⊠ (k:ℚ)) = some (30601 * k / 1000) := by
  interval_cases k <;> decide +kernel

theorem fadd_int (a b : ℤ) (h : |a + b| ≤ 2^53) : (a:ℚ) ⊞ (b:ℚ) = ((a + b : ℤ) : ℚ) := by
  unfold fadd
  rw [← Int.cast_add, rnd_intCast _ h]

theorem fsub_int (a b : ℤ) (h : |a - b| ≤ 2^53) : (a:ℚ) ⊟ (b:ℚ) = ((a - b : ℤ) : ℚ) := by
  unfold fsub
  rw [← Int.cast_sub, rnd_intCast _ h]

theorem year_floor (z : ℤ) (h1 : 0 ≤ z) (h2 : z ≤ 5800000) :
    toInt (((1461/4) ⊠ (z:ℚ)) ⊞ rnd (1/100)) = some (1461 * z / 4) := by
  have e1 : (1461/4 : ℚ) ⊠ (z:ℚ) = ((1461 * z : ℤ) : ℚ) / 2^2 := by
    unfold fmul
    rw [show (1461/4 : ℚ) * z = ((1461 * z : ℤ) : ℚ) / 2^2 by push_cast; ring]
    exact rnd_dyadic _ 2 (by norm_num) (by rw [abs_of_nonneg (by omega)]; omega)
  rw [e1]
  set q : ℚ := ((1461 * z : ℤ) : ℚ) / 2^2 with hq
  have hq0 : 0 ≤ q := by rw [hq]; have : (0:ℚ) ≤ ((1461 * z : ℤ):ℚ) := by exact_mod_cast (by omega : 0 ≤ 1461*z)
                         positivity
  have hqub : q ≤ 2200000000 := by
    rw [hq, div_le_iff₀ (by norm_num)]
    have : ((1461 * z : ℤ):ℚ) ≤ ((8473800000 : ℤ) : ℚ) := by exact_mod_cast (by omega)
    push_cast at this ⊢
    linarith
  have c1 : (99/10000:ℚ) ≤ rnd (1/100) := by decide +kernel
  have c2 : rnd (1/100) ≤ (101/10000:ℚ) := by decide +kernel
  have herr := rnd_err1 (q := q + rnd (1/100)) (B := 2200000001)
    (by rw [abs_of_nonneg (by linarith)]; linarith) (by norm_num)
  obtain ⟨e2, e3⟩ := abs_le.mp herr
  set r := rnd (q + rnd (1/100)) with hr
  have l1 : q ≤ r := by norm_num at e2; linarith
  have l2 : r ≤ q + 1/50 := by norm_num at e3; linarith
  have hmod := Int.emod_add_mul_ediv (1461 * z) 4
  have hm0 := Int.emod_nonneg (1461 * z) (by norm_num : (4:ℤ) ≠ 0)
  have hm1 := Int.emod_lt_of_pos (1461 * z) (by norm_num : (0:ℤ) < 4)
  have hfl : ⌊r⌋ = 1461 * z / 4 := by
    rw [Int.floor_eq_iff]
    have hqe : q = (1461 * z / 4 : ℤ) + ((1461 * z % 4 : ℤ):ℚ) / 4 := by
      rw [hq]
      have : ((1461 * z : ℤ):ℚ) = ((1461 * z % 4 : ℤ):ℚ) + 4 * ((1461 * z / 4 : ℤ):ℚ) := by exact_mod_cast hmod.symm
      rw [this]; ring
    have a0 : (0:ℚ) ≤ ((1461 * z % 4 : ℤ):ℚ) := by exact_mod_cast hm0
    have a1 : ((1461 * z % 4 : ℤ):ℚ) ≤ 3 := by exact_mod_cast (by omega : 1461 * z % 4 ≤ 3)
    constructor
    · linarith
    · linarith
  show toInt r = _
  exact toInt_eq (by linarith) hfl (by omega)

theorem century_floor (z : ℤ) (h1 : 0 ≤ z) (h2 : z ≤ 5800000) :
    centuryTerm (z:ℚ) = some ((2 - z / 100 + (z / 100) / 4 : ℤ) : ℚ) := by
  have hq : 0 ≤ (z:ℚ) := by exact_mod_cast h1
  have e1 : toInt ((z:ℚ) ⊘ 100) = some (z / 100) := by
    apply toInt_eq
    · exact rnd_nonneg (by positivity)
    · have := floor_rnd_div z 100 (by rw [abs_of_nonneg h1]; omega) (by norm_num) (by norm_num)
      simpa [fdiv] using this
    · omega
  have e2 : toInt (((z / 100 : ℤ) : ℚ) ⊘ 4) = some (z / 100 / 4) := by
    have h0 : 0 ≤ z / 100 := by omega
    have hq0 : (0:ℚ) ≤ ((z / 100 : ℤ) : ℚ) := by exact_mod_cast h0
    apply toInt_eq
    · exact rnd_nonneg (by positivity)
    · have := floor_rnd_div (z/100) 4 (by rw [abs_of_nonneg h0]; omega) (by norm_num) (by norm_num)
      simpa [fdiv] using this
    · omega
  unfold centuryTerm
  rw [e1]
  simp only [Option.bind_eq_bind, Option.bind_some]
  rw [e2]
  simp only [Option.bind_some, Option.pure_def, Option.some.injEq]
  have e3 : (2:ℚ) ⊟ ((z / 100 : ℤ):ℚ) = ((2 - z / 100 : ℤ) : ℚ) := by
    have := fsub_int 2 (z/100) (by rw [abs_le]; constructor <;> omega)
    simpa using this
  rw [e3, fadd_int _ _ (by rw [abs_le]; constructor <;> omega)]

/-- `toJD` in integer form: everything before the time-of-day term is exact -/
theorem toJD_eq (Y M D h m : ℤ) (s : ℚ) (hv : (⟨Y, M, D⟩ : CDate).Valid) (hr : (⟨Y, M, D⟩ : CDate).InRange) :
    toJD ⟨Y, M, D, h, m, s⟩ = some (((dayNum Y M D + 1524 : ℤ) : ℚ) ⊞ timeTerm h m s) := by
  obtain ⟨⟨hm1, hm2⟩, ⟨hd1, hd2⟩, -, -, -⟩ := valid_bounds hv
  simp only [CDate.InRange] at hr
  obtain ⟨hr1, hr2⟩ := hr
  unfold toJD
  simp only
  rw [i32_some (by omega) (by omega)]
  simp only [Option.bind_eq_bind, Option.bind_some]
  rw [i32_some (by omega) (by omega)]
  simp only [Option.bind_some]
  rw [i32_some (by omega) (by omega)]
  simp only [Option.bind_some]
  rw [i32_some (by omega) (by omega)]
  simp only [Option.bind_some]
  have hcond : ((M:ℚ) ≤ 2) ↔ M ≤ 2 := by exact_mod_cast Iff.rfl
  -- adjusted year and month
  obtain ⟨z, mm, hz, hmm, hy, hmo⟩ : ∃ z mm : ℤ, z = (if M ≤ 2 then Y - 1 else Y) ∧ mm = (if M ≤ 2 then M + 12 else M) ∧
      (if (M:ℚ) ≤ 2 then (Y:ℚ) ⊟ 1 else (Y:ℚ)) = (z:ℚ) ∧ (if (M:ℚ) ≤ 2 then (M:ℚ) ⊞ 12 else (M:ℚ)) = (mm:ℚ) := by
    refine ⟨_, _, rfl, rfl, ?_, ?_⟩
    · by_cases hM : M ≤ 2
      · rw [if_pos (hcond.mpr hM), if_pos hM]
        have := fsub_int Y 1 (by rw [abs_le]; constructor <;> omega)
        simpa using this
      · rw [if_neg (fun h => hM (hcond.mp h)), if_neg hM]
    · by_cases hM : M ≤ 2
      · rw [if_pos (hcond.mpr hM), if_pos hM]
        have := fadd_int M 12 (by rw [abs_le]; constructor <;> omega)
        simpa using this
      · rw [if_neg (fun h => hM (hcond.mp h)), if_neg hM]
  rw [hy, hmo]
  have hz1 : -4716 ≤ z := by split_ifs at hz <;> omega
  have hz2 : z ≤ 4900000 := by split_ifs at hz <;> omega
  have hmm1 : 3 ≤ mm := by split_ifs at hmm <;> omega
  have hmm2 : mm ≤ 14 := by split_ifs at hmm <;> omega
  have hyr : toInt (((1461/4) ⊠ ((z:ℚ) ⊞ 4716)) ⊞ rnd (1/100)) = some (1461 * (z + 4716) / 4) := by
    have : (z:ℚ) ⊞ 4716 = ((z + 4716 : ℤ) : ℚ) := by
      have := fadd_int z 4716 (by rw [abs_le]; constructor <;> omega)
      simpa using this
    rw [this]
    exact year_floor _ (by omega) (by omega)
  have hmon : toInt (rnd (306/10) ⊠ ((mm:ℚ) ⊞ 1)) = some (306 * (mm + 1) / 10) := by
    have : (mm:ℚ) ⊞ 1 = ((mm + 1 : ℤ) : ℚ) := by
      have := fadd_int mm 1 (by rw [abs_le]; constructor <;> omega)
      simpa using this
    rw [this]
    exact month_floor _ (by omega) (by omega)
  have hn : reformTerm (Y * 372 + M * 31 + D) (z:ℚ) =
      some (((if Y * 372 + M * 31 + D ≥ 588829 then 2 - z / 100 + (z / 100) / 4 else 0 : ℤ)) : ℚ) := by
    unfold reformTerm
    split_ifs with hg
    · exact century_floor z (by split_ifs at hz <;> omega) (by omega)
    · simp
  rw [hn]
  simp only [Option.bind_some]
  rw [hyr]
  simp only [Option.bind_some]
  rw [hmon]
  simp only [Option.bind_some]
  rw [i32_some (by omega) (by omega)]
  simp only [Option.bind_some, Option.pure_def, Option.some.injEq]
  set C : ℤ := (if Y * 372 + M * 31 + D ≥ 588829 then 2 - z / 100 + (z / 100) / 4 else 0) with hC
  have hC1 : -50000 ≤ C ∧ C ≤ 2 := by
    rw [hC]; split_ifs
    · have : 0 ≤ z := by split_ifs at hz <;> omega
      omega
    · omega
  rw [fadd_int _ _ (by rw [abs_le]; constructor <;> omega), fadd_int _ _ (by rw [abs_le]; constructor <;> omega)]
  congr 2
  unfold dayNum
  simp only [← hz, ← hmm]
  rw [← hC]
  ring

theorem timeTerm_noon : timeTerm 12 0 0 = -1524 := by decide +kernel
theorem timeTerm_midnight : timeTerm 0 0 0 = -3049/2 := by decide +kernel

theorem dayNum_bounds (Y M D : ℤ) (hv : (⟨Y, M, D⟩ : CDate).Valid) (hr : (⟨Y, M, D⟩ : CDate).InRange) :
    -1401 ≤ dayNum Y M D ∧ dayNum Y M D ≤ 1800000000 := by
  obtain ⟨⟨hm1, hm2⟩, ⟨hd1, hd2⟩, -, -, -⟩ := valid_bounds hv
  simp only [CDate.InRange] at hr
  obtain ⟨hr1, hr2⟩ := hr
  rw [dayNum_eq]
  simp only
  by_cases hM : M ≤ 2 <;> simp only [hM, if_true, if_false] <;> split_ifs <;> omega

theorem toJD_noon (c : CDate) (hv : c.Valid) (hr : c.InRange) :
    toJD ⟨c.y, c.m, c.d, 12, 0, 0⟩ = some (dayNum c.y c.m c.d : ℚ) := by
  obtain ⟨Y, M, D⟩ := c
  rw [toJD_eq Y M D 12 0 0 hv hr, timeTerm_noon]
  have hb := dayNum_bounds Y M D hv hr
  have := fadd_int (dayNum Y M D + 1524) (-1524) (by rw [abs_le]; constructor <;> omega)
  push_cast at this ⊢
  rw [this]; simp

/-! ### setFromJD -/

theorem shift_floor (D : ℤ) (h1 : 2299161 ≤ D) (h2 : D ≤ 2000000000) :
    int2 (((D : ℚ) ⊟ (7468865/4)) ⊘ (146097/4)) = some ((4 * D - 7468865) / 146097) := by
  have e1 : (D:ℚ) ⊟ (7468865/4) = ((4 * D - 7468865 : ℤ) : ℚ) / 2^2 := by
    unfold fsub
    rw [show (D:ℚ) - 7468865/4 = ((4 * D - 7468865 : ℤ) : ℚ) / 2^2 by push_cast; ring]
    exact rnd_dyadic _ 2 (by norm_num) (by rw [abs_le]; constructor <;> omega)
  rw [e1]
  unfold fdiv
  rw [show ((4 * D - 7468865 : ℤ) : ℚ) / 2^2 / (146097/4) = ((4 * D - 7468865 : ℤ) : ℚ) / ((146097 : ℤ) : ℚ) by
    push_cast; ring]
  apply int2_eq (floor_rnd_div _ _ (by rw [abs_lt]; constructor <;> omega) (by norm_num) (by norm_num)) <;> omega

theorem year_of_day (D : ℤ) (h1 : 123 ≤ D) (h2 : D ≤ 2000010000) :
    int2 (((D : ℚ) ⊟ rnd (1221/10)) ⊘ (1461/4)) = some ((20 * D - 2442) / 7305) := by
  have hD1 : (123:ℚ) ≤ D := by exact_mod_cast h1
  have hD2 : (D:ℚ) ≤ 2000010000 := by exact_mod_cast h2
  have c1 : (1221/10 - 1/1000000 : ℚ) ≤ rnd (1221/10) := by decide +kernel
  have c2 : rnd (1221/10) ≤ (1221/10 + 1/1000000 : ℚ) := by decide +kernel
  set k := rnd (1221/10)
  have herr := rnd_err1 (q := (D:ℚ) - k) (B := 2000010000) (by rw [abs_of_nonneg (by linarith)]; linarith) (by norm_num)
  obtain ⟨e1, e2⟩ := abs_le.mp herr
  norm_num at e1 e2
  set a := rnd ((D:ℚ) - k)
  have ha1 : (D:ℚ) - 1221/10 - 1/100000 ≤ a := by linarith
  have ha2 : a ≤ (D:ℚ) - 1221/10 + 1/100000 := by linarith
  have hq0 : 0 ≤ a / (1461/4) := by apply div_nonneg <;> linarith
  have hqu : a / (1461/4) ≤ 10000000 := by rw [div_le_iff₀ (by norm_num)]; linarith
  have herr2 := rnd_err1 (q := a / (1461/4)) (B := 10000000) (by rw [abs_of_nonneg hq0]; exact hqu) (by norm_num)
  obtain ⟨e3, e4⟩ := abs_le.mp herr2
  norm_num at e3 e4
  have hfl : ⌊rnd (a / (1461/4))⌋ = (20 * D - 2442) / 7305 := by
    apply floor_near _ _ (by norm_num) _ (by omega)
    have : ((20 * D - 2442 : ℤ) : ℚ) / ((7305 : ℤ):ℚ) = ((D:ℚ) - 1221/10) / (1461/4) := by push_cast; ring
    rw [this]
    have t1 : a / (1461/4) - ((D:ℚ) - 1221/10) / (1461/4) ≤ 1/100000 := by
      rw [← sub_div, div_le_iff₀ (by norm_num)]; linarith
    have t2 : -(1/100000) ≤ a / (1461/4) - ((D:ℚ) - 1221/10) / (1461/4) := by
      rw [← sub_div, le_div_iff₀ (by norm_num)]; linarith
    rw [abs_lt]
    norm_num at t1 t2 e3 e4 ⊢
    constructor <;> linarith
  exact int2_eq hfl (by omega) (by omega)

theorem leap_days (Y : ℤ) (h1 : 0 ≤ Y) (h2 : Y ≤ 5800000) :
    int2 ((1461/4) ⊠ (Y:ℚ)) = some (1461 * Y / 4) := by
  have e1 : (1461/4 : ℚ) ⊠ (Y:ℚ) = ((1461 * Y : ℤ) : ℚ) / ((4 : ℤ) : ℚ) := by
    unfold fmul
    rw [show (1461/4 : ℚ) * Y = ((1461 * Y : ℤ) : ℚ) / 2^2 by push_cast; ring,
      rnd_dyadic _ 2 (by norm_num) (by rw [abs_le]; constructor <;> omega)]
    norm_num
  rw [e1]
  exact int2_eq (Rat.floor_intCast_div_natCast (1461 * Y) 4) (by omega) (by omega)

theorem month_of_day (D : ℤ) (h1 : 123 ≤ D) (h2 : D ≤ 488) :
    int2 ((D:ℚ) ⊘ rnd (30601/1000)) = some (1000 * D / 30601) := by
  have key : ∀ n : Fin 366, int2 (((123 + (n.val : ℤ) : ℤ) : ℚ) ⊘ rnd (30601/1000)) = some (1000 * (123 + (n.val:ℤ)) / 30601) := by
    decide +kernel
  have := key ⟨(D - 123).toNat, by omega⟩
  simp only at this
  rwa [show (123 + ((D - 123).toNat : ℤ)) = D by omega] at this

theorem dateOfDay_eq (N : ℤ) (h1 : -1401 ≤ N) (h2 : N ≤ 1850000000) :
    dateOfDay N = some (ofDay N) := by
  have hs : gregShift N = some (if N ≥ 2299161 then
      N + (1 + (4 * N - 7468865) / 146097 - ((4 * N - 7468865) / 146097) / 4) else N) := by
    unfold gregShift
    split_ifs with hg
    · rw [shift_floor N hg (by omega)]
      simp only [Option.bind_eq_bind, Option.bind_some]
      set c := (4 * N - 7468865) / 146097 with hc
      have hc0 : 0 ≤ c := by omega
      have hc1 : c ≤ 100000 := by omega
      have : int2 ((c:ℚ) ⊘ 4) = some (c / 4) := by
        have := floor_rnd_div c 4 (by rw [abs_of_nonneg hc0]; omega) (by norm_num) (by norm_num)
        exact int2_eq (by simpa [fdiv] using this) (by omega) (by omega)
      rw [this]
      simp only [Option.bind_some]
      rw [i32_some (by omega) (by omega)]
      simp only [Option.bind_some]
      rw [i32_some (by omega) (by omega)]
      simp only [Option.bind_some]
      rw [i32_some (by omega) (by omega)]
    · rfl
  obtain ⟨c, hv, hr, hc⟩ := ofDay_spec N h1
  unfold dateOfDay
  rw [hs]
  simp only [Option.bind_eq_bind, Option.bind_some]
  set D0 := (if N ≥ 2299161 then
      N + (1 + (4 * N - 7468865) / 146097 - ((4 * N - 7468865) / 146097) / 4) else N) with hD0
  have hD1 : -1401 ≤ D0 ∧ D0 ≤ 2000000000 := by rw [hD0]; split_ifs <;> omega
  rw [i32_some (by omega) (by omega)]
  simp only [Option.bind_some]
  rw [year_of_day (D0 + 1524) (by omega) (by omega)]
  simp only [Option.bind_some]
  set Y := (20 * (D0 + 1524) - 2442) / 7305 with hY
  have hY0 : 0 ≤ Y := by omega
  rw [leap_days Y hY0 (by omega)]
  simp only [Option.bind_some]
  have hres1 : 123 ≤ D0 + 1524 - 1461 * Y / 4 := by omega
  have hres2 : D0 + 1524 - 1461 * Y / 4 ≤ 488 := by omega
  rw [i32_some (by omega) (by omega)]
  simp only [Option.bind_some]
  rw [month_of_day _ hres1 hres2]
  simp only [Option.bind_some]
  set M := 1000 * (D0 + 1524 - 1461 * Y / 4) / 30601 with hM
  rw [month_floor2 M (by omega) (by omega)]
  simp only [Option.bind_some]
  rw [i32_some (by omega) (by omega)]
  simp only [Option.bind_some]
  unfold ofDay
  simp only [← hD0, ← hY, ← hM]
  split_ifs <;> rfl

end Verif.Cal
