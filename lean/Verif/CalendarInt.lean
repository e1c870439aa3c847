import Verif.CalendarSpec
import Mathlib.Tactic.IntervalCases

/-! Integer core of the calendar conversions (helper definitions and lemmas). -/

namespace Verif.Cal

/-- integer form of `toJD` at noon -/
def dayNum (Y M D : ℤ) : ℤ :=
  let m := if M ≤ 2 then M + 12 else M
  let y := if M ≤ 2 then Y - 1 else Y
  (if Y * 372 + M * 31 + D ≥ 588829 then 2 - y / 100 + (y / 100) / 4 else 0)
   + (1461 * (y + 4716)) / 4 + (306 * (m + 1)) / 10 + D - 1524

/-- integer form of the date part of `setFromJD` -/
def ofDay (N : ℤ) : ℤ × ℤ × ℤ :=
  let D := if N ≥ 2299161 then
      N + (1 + (4 * N - 7468865) / 146097 - ((4 * N - 7468865) / 146097) / 4) else N
  let D := D + 1524
  let Y := (20 * D - 2442) / 7305
  let D := D - (1461 * Y) / 4
  let M := (1000 * D) / 30601
  let D := D - (30601 * M) / 1000
  if M > 13 then (Y - 4715, M - 13, D) else (Y - 4716, M - 1, D)

theorem dayNum_eq (Y M D : ℤ) : dayNum Y M D =
    let m := if M ≤ 2 then M + 12 else M
    let y := if M ≤ 2 then Y - 1 else Y
    (if Y * 372 + M * 31 + D ≥ 588829 then 2 - y / 100 + y / 400 else 0)
     + (365 * (y + 4716) + y / 4 + 1179) + (306 * (m + 1)) / 10 + D - 1524 := by
  unfold dayNum
  simp only
  have h1 : ∀ z : ℤ, (1461 * (z + 4716)) / 4 = 365 * (z + 4716) + z / 4 + 1179 := by intro z; omega
  have h2 : ∀ z : ℤ, z / 100 / 4 = z / 400 := by intro z; omega
  rw [h1, h2]

theorem dayNum_feb (y : ℤ) (L : ℤ) (hL : L = if leap y then 29 else 28) :
    dayNum y 3 1 = dayNum y 2 L + 1 := by
  simp only [dayNum_eq]
  unfold leap at hL
  have k1 : (y - 1) / 4 = if y % 4 = 0 then y / 4 - 1 else y / 4 := by split_ifs <;> omega
  have k3 : (y - 1) / 100 = if y % 100 = 0 then y / 100 - 1 else y / 100 := by split_ifs <;> omega
  have k5 : (y - 1) / 400 = if y % 400 = 0 then y / 400 - 1 else y / 400 := by split_ifs <;> omega
  have k7 : y % 400 = 0 → y % 100 = 0 := by omega
  have k8 : y % 100 = 0 → y % 4 = 0 := by omega
  simp
  rw [k1, k3, k5]
  clear k1 k3 k5
  by_cases hy : y ≤ 1582
  · simp [hy] at hL
    split_ifs at * <;> omega
  · simp [hy] at hL
    by_cases a : y % 4 = 0 <;> by_cases b : y % 100 = 0 <;> by_cases c : y % 400 = 0 <;>
      simp [a, b, c] at * <;> split_ifs <;> omega

theorem dayNum_next (c : CDate) (hv : c.Valid) :
    dayNum c.next.y c.next.m c.next.d = dayNum c.y c.m c.d + 1 := by
  obtain ⟨y, m, d⟩ := c
  simp only [CDate.Valid] at hv
  obtain ⟨hm1, hm2, hd1, hd2, hgap⟩ := hv
  unfold CDate.next
  simp only [CDate.mk.injEq]
  split_ifs with h1 h2 h3
  · obtain ⟨rfl, rfl, rfl⟩ := h1; decide
  · have : ¬ (y * 372 + m * 31 + d < 588829 ∧ y * 372 + m * 31 + (d + 1) ≥ 588829) := by
      unfold lastDay at h2
      intro h
      split_ifs at h2 <;> omega
    simp only [dayNum_eq]
    split_ifs <;> omega
  · have hd : d = lastDay y m := by omega
    by_cases hm : m = 2
    · subst hm; simp only at *
      exact dayNum_feb y d (by rw [hd]; simp [lastDay])
    · subst hd
      clear hd1 hd2 h2
      simp only [dayNum_eq, lastDay] at *
      interval_cases m <;> simp at * <;> split_ifs <;> omega
  · have hm : m = 12 := by omega
    subst hm
    simp [lastDay] at *
    have hd : d = 31 := by omega
    subst hd
    simp only [dayNum_eq]
    simp
    split_ifs <;> omega

/-- month arithmetic of `ofDay`, by cases on the month -/
theorem ofDay_shift (Y M d : ℤ) (D N : ℤ) (hM : 4 ≤ M) (hM2 : M ≤ 15)
   (hD : (if N ≥ 2299161 then
      N + (1 + (4 * N - 7468865) / 146097 - ((4 * N - 7468865) / 146097) / 4) else N) + 1524 = D)
   (hY : D = (1461 * Y) / 4 + (306 * M) / 10 + d)
   (h1 : 1 ≤ d) (h2 : d ≤ 31) (h3 : M = 6 ∨ M = 9 ∨ M = 11 ∨ M = 4 ∨ M = 13 ∨ M = 8 ∨ M = 5 ∨ M = 7 ∨ M = 10 ∨ M = 12 ∨ M = 14 ∨ M = 15)
   (h30 : M = 5 ∨ M = 7 ∨ M = 10 ∨ M = 12 → d ≤ 30)
   (h29 : M = 15 → d ≤ 29 ∧ ((Y + 1) % 4 ≠ 0 → d ≤ 28)) :
   ofDay N = if M > 13 then (Y - 4715, M - 13, d) else (Y - 4716, M - 1, d) := by
  have hYd : (20 * D - 2442) / 7305 = Y := by
    subst hY
    interval_cases M <;> simp at * <;> omega
  unfold ofDay
  simp only
  rw [hD, hYd]
  have e1 : D - 1461 * Y / 4 = 306 * M / 10 + d := by omega
  rw [e1]
  have e2 : 1000 * (306 * M / 10 + d) / 30601 = M := by
    interval_cases M <;> simp at * <;> omega
  rw [e2]
  have e3 : 306 * M / 10 + d - 30601 * M / 1000 = d := by
    interval_cases M <;> simp at * <;> omega
  rw [e3]

theorem century_div (z e : ℤ) (h1 : 122 < e) (h2 : e ≤ 488)
     (h3 : e = 488 → (z + 1) % 4 = 0 ∧ ((z+1) % 100 ≠ 0 ∨ (z+1) % 400 = 0)) :
     (4 * (2 - z / 100 + z / 400 + (365 * (z + 4716) + z / 4 + 1179) + e - 1524) - 7468865) / 146097
      = z / 100 - 4 := by
  obtain ⟨q, r, hz, hr0, hr1⟩ : ∃ q r : ℤ, z = 100 * q + r ∧ 0 ≤ r ∧ r < 100 :=
    ⟨z / 100, z % 100, by omega, by omega, by omega⟩
  obtain ⟨a, b, hq, hb0, hb1⟩ : ∃ a b : ℤ, q = 4 * a + b ∧ 0 ≤ b ∧ b < 4 :=
    ⟨q / 4, q % 4, by omega, by omega, by omega⟩
  obtain ⟨s, t, hs, ht0, ht1⟩ : ∃ s t : ℤ, r = 4 * s + t ∧ 0 ≤ t ∧ t < 4 :=
    ⟨r / 4, r % 4, by omega, by omega, by omega⟩
  subst hq hs hz
  have e1 : (100 * (4 * a + b) + (4 * s + t)) / 100 = 4 * a + b := by omega
  have e2 : (100 * (4 * a + b) + (4 * s + t)) / 400 = a := by omega
  have e3 : (100 * (4 * a + b) + (4 * s + t)) / 4 = 100 * a + 25 * b + s := by omega
  rw [e1, e2, e3]
  have h4 : e = 488 → t = 3 := by omega
  have h5 : e = 488 → s = 24 → b = 3 := by omega
  have key : ∀ x k : ℤ, 0 ≤ x - 146097 * k → x - 146097 * k < 146097 → x / 146097 = k := by
    intro x k; omega
  apply key <;> omega

theorem ofDay_greg (z M d N : ℤ) (hM : 3 ≤ M) (hM2 : M ≤ 14) (h1 : 1 ≤ d) (h2 : d ≤ 31)
    (h30 : M = 4 ∨ M = 6 ∨ M = 9 ∨ M = 11 → d ≤ 30)
    (h29 : M = 14 → d ≤ 29 ∧ ((z + 1) % 4 ≠ 0 → d ≤ 28) ∧ ((z+1) % 100 = 0 → (z+1) % 400 ≠ 0 → d ≤ 28))
    (hlo : z > 1582 ∨ (z = 1582 ∧ M * 31 + d ≥ 325))
    (hNdef : N = 2 - z / 100 + z / 400 + (365 * (z + 4716) + z / 4 + 1179) + 306 * (M + 1) / 10 + d - 1524) :
    N ≥ 2299161 ∧ ofDay N = if M + 1 > 13 then (z + 4716 - 4715, M + 1 - 13, d) else (z + 4716 - 4716, M + 1 - 1, d) := by
  have hc : (4 * N - 7468865) / 146097 = z / 100 - 4 := by
    have := century_div z (306 * (M + 1) / 10 + d) (by omega) (by omega) (by omega)
    rw [← this]
    congr 2
    omega
  have hN : N ≥ 2299161 := by
    rcases hlo with hz | ⟨rfl, hlo⟩
    · clear hc h29 h30
      omega
    · norm_num at hNdef
      clear hc h29
      omega
  refine ⟨hN, ?_⟩
  apply ofDay_shift (z + 4716) (M + 1) d
        (365 * (z + 4716) + z / 4 + 1179 + 306 * (M + 1) / 10 + d) _ (by omega) (by omega) ?_ (by omega) h1 h2 (by omega) (by omega) (by omega)
  rw [if_pos hN, hc]
  have : (z / 100 - 4) / 4 = z / 400 - 1 := by omega
  rw [this]
  omega

theorem ofDay_jul (z M d N : ℤ) (hM : 3 ≤ M) (hM2 : M ≤ 14) (h1 : 1 ≤ d) (h2 : d ≤ 31)
    (h30 : M = 4 ∨ M = 6 ∨ M = 9 ∨ M = 11 → d ≤ 30)
    (h29 : M = 14 → d ≤ 29 ∧ ((z + 1) % 4 ≠ 0 → d ≤ 28))
    (hlo : z < 1582 ∨ (z = 1582 ∧ (M < 10 ∨ (M = 10 ∧ d ≤ 4))))
    (hNdef : N = (365 * (z + 4716) + z / 4 + 1179) + 306 * (M + 1) / 10 + d - 1524) :
    N < 2299161 ∧ ofDay N = if M + 1 > 13 then (z + 4716 - 4715, M + 1 - 13, d) else (z + 4716 - 4716, M + 1 - 1, d) := by
  have hN : N < 2299161 := by
    rcases hlo with hz | ⟨rfl, hlo⟩
    · clear h29 h30
      omega
    · norm_num at hNdef
      clear h29
      omega
  refine ⟨hN, ?_⟩
  apply ofDay_shift (z + 4716) (M + 1) d
        (365 * (z + 4716) + z / 4 + 1179 + 306 * (M + 1) / 10 + d) _ (by omega) (by omega) ?_ (by omega) h1 h2 (by omega) (by omega) (by omega)
  rw [if_neg (by omega)]
  omega

theorem valid_bounds {y m d : ℤ} (hv : (⟨y, m, d⟩ : CDate).Valid) :
    (1 ≤ m ∧ m ≤ 12) ∧ (1 ≤ d ∧ d ≤ 31) ∧ (m = 4 ∨ m = 6 ∨ m = 9 ∨ m = 11 → d ≤ 30) ∧
    (m = 2 → d ≤ 29 ∧ (y % 4 ≠ 0 → d ≤ 28) ∧ (y > 1582 → y % 100 = 0 → y % 400 ≠ 0 → d ≤ 28)) ∧
    ¬ (y = 1582 ∧ m = 10 ∧ 5 ≤ d ∧ d ≤ 14) := by
  simp only [CDate.Valid] at hv
  obtain ⟨hm1, hm2, hd1, hd2, hgap⟩ := hv
  refine ⟨⟨hm1, hm2⟩, ⟨hd1, ?_⟩, ?_, ?_, hgap⟩
  · unfold lastDay at hd2; split_ifs at hd2 <;> omega
  · intro h; unfold lastDay at hd2; split_ifs at hd2 <;> omega
  · intro h
    subst h
    simp only [lastDay, leap, if_true] at hd2
    by_cases a : y ≤ 1582
    · simp [a] at hd2; split_ifs at hd2 <;> omega
    · by_cases h4 : y % 4 = 0 <;> by_cases h5 : y % 100 = 0 <;> by_cases h6 : y % 400 = 0 <;>
        simp [a, h4, h5, h6] at hd2 ⊢ <;> omega

theorem ofDay_dayNum (c : CDate) (hv : c.Valid) :
    ofDay (dayNum c.y c.m c.d) = (c.y, c.m, c.d) := by
  obtain ⟨y, m, d⟩ := c
  obtain ⟨⟨hm1, hm2⟩, ⟨hd1, hd2⟩, h30, h29, hgap⟩ := valid_bounds hv
  simp only [dayNum_eq]
  by_cases hm : m ≤ 2
  · simp only [if_pos hm]
    by_cases hg : y * 372 + m * 31 + d ≥ 588829
    · rw [if_pos hg, (ofDay_greg (y-1) (m+12) d _ (by omega) (by omega) hd1 hd2 (by omega)
        (by rw [sub_add_cancel]; intro h; have := h29 (by omega); refine ⟨this.1, this.2.1, this.2.2 (by omega)⟩) (by omega) rfl).2]
      rw [if_pos (by omega)]; simp; omega
    · rw [if_neg hg, zero_add, (ofDay_jul (y-1) (m+12) d _ (by omega) (by omega) hd1 hd2 (by omega)
        (by rw [sub_add_cancel]; intro h; have := h29 (by omega); exact ⟨this.1, this.2.1⟩) (by omega) rfl).2]
      rw [if_pos (by omega)]; simp; omega
  · simp only [if_neg hm]
    by_cases hg : y * 372 + m * 31 + d ≥ 588829
    · rw [if_pos hg, (ofDay_greg y m d _ (by omega) (by omega) hd1 hd2 h30 (by omega) (by omega) rfl).2]
      rw [if_neg (by omega)]; simp
    · rw [if_neg hg, zero_add, (ofDay_jul y m d _ (by omega) (by omega) hd1 hd2 h30 (by omega) (by omega) rfl).2]
      rw [if_neg (by omega)]; simp

/-- first day handled: -4716-03-01 -/
theorem dayNum_first : dayNum (-4716) 3 1 = -1401 := by decide

/-- every day number from -1401 on is the number of a valid date, namely `ofDay` of it -/
theorem ofDay_spec (N : ℤ) (hN : -1401 ≤ N) :
    ∃ c : CDate, c.Valid ∧ (-4716 < c.y ∨ c.y = -4716 ∧ 3 ≤ c.m) ∧ dayNum c.y c.m c.d = N := by
  obtain ⟨k, hk⟩ := Int.eq_ofNat_of_zero_le (by omega : 0 ≤ N + 1401)
  induction k generalizing N with
  | zero => exact ⟨⟨-4716, 3, 1⟩, by decide, by decide, by rw [dayNum_first]; omega⟩
  | succ k ih =>
    obtain ⟨c, hv, hr, hc⟩ := ih (N - 1) (by omega) (by omega)
    refine ⟨c.next, ?_, ?_, ?_⟩
    · obtain ⟨y, m, d⟩ := c
      simp only [CDate.Valid] at hv
      obtain ⟨h1, h2, h3, h4, h5⟩ := hv
      unfold CDate.next
      simp only [CDate.mk.injEq]
      split_ifs with a b c
      · decide
      · simp only [CDate.Valid]; omega
      · simp only [CDate.Valid]
        have : 1 ≤ lastDay y (m+1) := by unfold lastDay; split_ifs <;> omega
        omega
      · simp only [CDate.Valid]
        have : 1 ≤ lastDay (y+1) 1 := by unfold lastDay; split_ifs <;> omega
        omega
    · obtain ⟨y, m, d⟩ := c
      unfold CDate.next
      simp only [CDate.mk.injEq] at *
      split_ifs <;> simp only <;> omega
    · rw [dayNum_next c hv]; omega

end Verif.Cal
