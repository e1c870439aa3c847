import Verif.Hijri
import Verif.HijriSpec
import Verif.CalendarFp

/-! Helper lemmas for C10. -/

namespace Verif.Hijri
open Verif.Fp

/-- integer form on one 30-year cycle, `r` days after its start -/
def cyc (r : ℤ) : ℤ × ℤ × ℤ :=
  let y := (1000 * r + 500) / 354366
  let d := r - (354366 * y + 500) / 1000
  let m := (100 * d + 11) / 2951
  (y, m, d - (59 * m + 1) / 2)

theorem year_step (r : ℤ) (h0 : 0 ≤ r) (h1 : r ≤ 10630) :
    int2 (((r:ℚ) ⊞ (1/2)) ⊘ rnd (354366/1000)) = some ((1000 * r + 500) / 354366) := by
  have e1 : (r:ℚ) ⊞ (1/2) = r + 1/2 := by
    unfold fadd
    rw [show (r:ℚ) + 1/2 = ((2 * r + 1 : ℤ):ℚ) / 2^1 by push_cast; ring]
    exact rnd_dyadic _ 1 (by norm_num) (by rw [abs_le]; constructor <;> omega)
  rw [e1]
  apply int2_eq _ (by omega) (by omega)
  have hr0 : (0:ℚ) ≤ r := by exact_mod_cast h0
  have hr1 : (r:ℚ) ≤ 10630 := by exact_mod_cast h1
  apply floor_near (1000 * r + 500) 354366 (by norm_num)
  · omega
  · have c1 : (354366/1000 - 1/1000000000000 : ℚ) ≤ rnd (354366/1000) := by decide +kernel
    have c2 : rnd (354366/1000) ≤ (354366/1000 + 1/1000000000000 : ℚ) := by decide +kernel
    set c := rnd (354366/1000)
    have hc : (0:ℚ) < c := by linarith
    have hq0 : 0 ≤ ((r:ℚ) + 1/2) / c := by positivity
    have hq1 : ((r:ℚ) + 1/2) / c ≤ 100 := by rw [div_le_iff₀ hc]; linarith
    have herr := rnd_err1 (q := ((r:ℚ) + 1/2) / c) (B := 100) (by rw [abs_of_nonneg hq0]; exact hq1) (by norm_num)
    have hd : |((r:ℚ) + 1/2) / c - ((1000 * r + 500 : ℤ):ℚ) / ((354366:ℤ):ℚ)| ≤ 1/1000000000 := by
      have : ((r:ℚ) + 1/2) / c - ((1000 * r + 500 : ℤ):ℚ) / ((354366:ℤ):ℚ)
          = (((r:ℚ) + 1/2) / c) * ((354366/1000 - c) / (354366/1000)) := by
        push_cast; field_simp; ring
      rw [this, abs_mul, abs_of_nonneg hq0]
      have : |(354366/1000 - c) / (354366/1000)| ≤ 1/100000000000 := by
        rw [abs_div, div_le_iff₀ (by norm_num), abs_le, abs_of_nonneg (by norm_num : (0:ℚ) ≤ 354366/1000)]
        constructor <;> linarith
      exact (mul_le_mul hq1 this (abs_nonneg _) (by norm_num)).trans (by norm_num)
    unfold fdiv
    rw [abs_le] at herr hd
    rw [abs_lt]
    push_cast at *
    constructor <;> linarith [herr.1, herr.2, hd.1, hd.2]

theorem year_days (y : ℤ) (h0 : 0 ≤ y) (h1 : y ≤ 29) :
    int2 (((y:ℚ) ⊠ rnd (354366/1000)) ⊞ (1/2)) = some ((354366 * y + 500) / 1000) := by
  interval_cases y <;> decide +kernel

theorem month_step (d : ℤ) (h0 : 0 ≤ d) (h1 : d ≤ 354) :
    int2 (((d:ℚ) ⊞ rnd (11/100)) ⊘ rnd (2951/100)) = some ((100 * d + 11) / 2951) := by
  have hd0 : (0:ℚ) ≤ d := by exact_mod_cast h0
  have hd1 : (d:ℚ) ≤ 354 := by exact_mod_cast h1
  have a1 : (11/100 - 1/1000000000000 : ℚ) ≤ rnd (11/100) := by decide +kernel
  have a2 : rnd (11/100) ≤ (11/100 + 1/1000000000000 : ℚ) := by decide +kernel
  have c1 : (2951/100 - 1/1000000000000 : ℚ) ≤ rnd (2951/100) := by decide +kernel
  have c2 : rnd (2951/100) ≤ (2951/100 + 1/1000000000000 : ℚ) := by decide +kernel
  set c := rnd (2951/100)
  set a := rnd (11/100)
  have e1 := rnd_err1 (q := (d:ℚ) + a) (B := 400) (by rw [abs_of_nonneg (by linarith)]; linarith) (by norm_num)
  unfold fadd fdiv
  set s := rnd ((d:ℚ) + a)
  rw [abs_le] at e1
  have hs0 : 0 ≤ s := by linarith [e1.1]
  have hc : (0:ℚ) < c := by linarith
  have hq0 : 0 ≤ s / c := by positivity
  have hq1 : s / c ≤ 100 := by rw [div_le_iff₀ hc]; linarith [e1.2]
  have herr := rnd_err1 (q := s / c) (B := 100) (by rw [abs_of_nonneg hq0]; exact hq1) (by norm_num)
  rw [abs_le] at herr
  apply int2_eq _ (by omega) (by omega)
  apply floor_near (100 * d + 11) 2951 (by norm_num)
  · omega
  · have hd : |s / c - ((100 * d + 11 : ℤ):ℚ) / ((2951:ℤ):ℚ)| ≤ 1/1000000 := by
      have : s / c - ((100 * d + 11 : ℤ):ℚ) / ((2951:ℤ):ℚ)
          = (s / c) * ((2951/100 - c) / (2951/100)) + (s - (d + 11/100)) / (2951/100) := by
        push_cast; field_simp; ring
      rw [this]
      have b1 : |(2951/100 - c) / (2951/100)| ≤ 1/100000000000 := by
        rw [abs_div, div_le_iff₀ (by norm_num), abs_le, abs_of_nonneg (by norm_num : (0:ℚ) ≤ 2951/100)]
        constructor <;> linarith
      have b2 : |(s / c) * ((2951/100 - c) / (2951/100))| ≤ 100 * (1/100000000000) := by
        rw [abs_mul, abs_of_nonneg hq0]
        exact mul_le_mul hq1 b1 (abs_nonneg _) (by norm_num)
      have b3 : |(s - (d + 11/100)) / (2951/100)| ≤ 1/100000000 := by
        rw [abs_div, div_le_iff₀ (by norm_num), abs_le, abs_of_nonneg (by norm_num : (0:ℚ) ≤ 2951/100)]
        constructor <;> linarith
      rw [abs_le] at b2 b3 ⊢
      constructor <;> linarith [b2.1, b2.2, b3.1, b3.2]
    rw [abs_le] at hd
    rw [abs_lt]
    push_cast at *
    constructor <;> linarith [herr.1, herr.2, hd.1, hd.2]

theorem month_days (m : ℤ) (h0 : 0 ≤ m) (h1 : m ≤ 11) :
    int2 (((m:ℚ) ⊠ (59/2)) ⊞ (1/2)) = some ((59 * m + 1) / 2) := by
  interval_cases m <;> decide +kernel

/-- the day number inside the year -/
theorem cyc_bounds (r : ℤ) (h0 : 0 ≤ r) (h1 : r ≤ 10630) :
    let y := (1000 * r + 500) / 354366
    let d := r - (354366 * y + 500) / 1000
    0 ≤ y ∧ y ≤ 29 ∧ 0 ≤ d ∧ d ≤ 354 ∧ 0 ≤ (100 * d + 11) / 2951 ∧ (100 * d + 11) / 2951 ≤ 11 := by
  intro y d
  refine ⟨by omega, by omega, by omega, by omega, by omega, by omega⟩

theorem getHuiLi_eq (n : ℤ) (h1 : -2000000000 ≤ n) (h2 : n ≤ 2000000000) :
    let z := (n + 503105) / 10631
    let c := cyc ((n + 503105) % 10631)
    getHuiLi (n:ℚ) = some (30 * z + c.1 + 1, c.2.1 + 1, c.2.2 + 1) := by
  intro z c
  have e0 : (n:ℚ) ⊞ 503105 = ((n + 503105 : ℤ):ℚ) := by
    have := Verif.Cal.fadd_int n 503105 (by rw [abs_le]; constructor <;> omega)
    push_cast at this ⊢; exact this
  set N := n + 503105 with hN
  have ez : int2 ((N:ℚ) ⊘ 10631) = some z := by
    apply int2_eq _ (by omega) (by omega)
    have := floor_rnd_div N 10631 (by rw [abs_lt]; constructor <;> omega) (by norm_num) (by norm_num)
    push_cast at this; exact this
  have er : (N:ℚ) ⊟ ((z * 10631 : ℤ):ℚ) = ((N % 10631 : ℤ) : ℚ) := by
    rw [Verif.Cal.fsub_int _ _ (by rw [abs_le]; constructor <;> omega)]
    congr 1; omega
  have hr0 : 0 ≤ N % 10631 := by omega
  have hr1 : N % 10631 ≤ 10630 := by omega
  have hc : c = cyc (N % 10631) := rfl
  clear_value c
  set r := N % 10631 with hr
  obtain ⟨b1, b2, b3, b4, b5, b6⟩ := cyc_bounds r hr0 hr1
  set y := (1000 * r + 500) / 354366 with hy
  set d := r - (354366 * y + 500) / 1000 with hd
  set m := (100 * d + 11) / 2951 with hm
  have hc' : c = (y, m, d - (59 * m + 1) / 2) := by rw [hc]; rfl
  unfold getHuiLi
  simp only
  rw [e0, ez]
  simp only [Option.bind_eq_bind, Option.bind_some]
  rw [i32_some (by omega) (by omega)]
  simp only [Option.bind_some]
  rw [er, year_step r hr0 hr1]
  simp only [Option.bind_some]
  rw [← hy, year_days y b1 b2]
  simp only [Option.bind_some]
  rw [Verif.Cal.fsub_int _ _ (by rw [abs_le]; constructor <;> omega), ← hd, month_step d b3 b4]
  simp only [Option.bind_some]
  rw [← hm, month_days m b5 b6]
  simp only [Option.bind_some]
  rw [Verif.Cal.fsub_int _ _ (by rw [abs_le]; constructor <;> omega)]
  rw [i32_some (by omega) (by omega)]
  simp only [Option.bind_some]
  rw [i32_some (by omega) (by omega)]
  simp only [Option.bind_some]
  rw [i32_some (by omega) (by omega)]
  simp only [Option.bind_some]
  have ef : ((d - (59 * m + 1) / 2 : ℤ):ℚ) ⊞ 1 = ((d - (59 * m + 1) / 2 + 1 : ℤ):ℚ) := by
    have := Verif.Cal.fadd_int (d - (59 * m + 1) / 2) 1 (by rw [abs_le]; constructor <;> omega)
    push_cast at this ⊢; exact this
  rw [ef]
  have hpos : 0 ≤ d - (59 * m + 1) / 2 + 1 := by omega
  rw [toInt_eq (k := d - (59 * m + 1) / 2 + 1) (by exact_mod_cast hpos) (Int.floor_intCast _) (by omega)]
  rw [hc']
  simp only [Option.bind_some, Option.pure_def, Option.some.injEq, Prod.mk.injEq, and_true]
  ring

/-- API triple of a cycle position in cycle `z` -/
def outOf (z : ℤ) (c : ℤ × ℤ × ℤ) : ℤ × ℤ × ℤ := (30 * z + c.1 + 1, c.2.1 + 1, c.2.2 + 1)

def stepOk (r : ℤ) : Bool :=
  let h := outOf 0 (cyc r)
  let h' := if r < 10630 then outOf 0 (cyc (r + 1)) else outOf 1 (cyc 0)
  hnext h = h' && decide (1 ≤ h.2.1 ∧ h.2.1 ≤ 12 ∧ 1 ≤ h.2.2 ∧ h.2.2 ≤ hdays h.1 h.2.1)

/-- check `p` on `lo .. lo + 2^k - 1`, by halving -/
def checkRange (p : ℤ → Bool) : ℕ → ℤ → Bool
  | 0, lo => p lo
  | k + 1, lo => checkRange p k lo && checkRange p k (lo + 2 ^ k)

theorem checkRange_spec (p : ℤ → Bool) (k : ℕ) (lo : ℤ) (h : checkRange p k lo = true) (r : ℤ)
    (h1 : lo ≤ r) (h2 : r < lo + 2 ^ k) : p r = true := by
  induction k generalizing lo with
  | zero => simp [checkRange] at h h2; have : r = lo := by omega
            rw [this]; exact h
  | succ k ih =>
    simp only [checkRange, Bool.and_eq_true] at h
    rw [pow_succ] at h2
    by_cases hc : r < lo + 2 ^ k
    · exact ih lo h.1 h1 hc
    · exact ih _ h.2 (by omega) (by omega)

/-- the check of block `i` of 512 cycle days (blocks are separate theorems only to bound the memory of the kernel) -/
def blk (i : ℤ) : Prop := checkRange (fun r => decide (10630 < r) || stepOk r) 9 (512 * i) = true

theorem blk0 : blk 0 := by unfold blk; decide +kernel
theorem blk1 : blk 1 := by unfold blk; decide +kernel
theorem blk2 : blk 2 := by unfold blk; decide +kernel
theorem blk3 : blk 3 := by unfold blk; decide +kernel
theorem blk4 : blk 4 := by unfold blk; decide +kernel
theorem blk5 : blk 5 := by unfold blk; decide +kernel
theorem blk6 : blk 6 := by unfold blk; decide +kernel
theorem blk7 : blk 7 := by unfold blk; decide +kernel
theorem blk8 : blk 8 := by unfold blk; decide +kernel
theorem blk9 : blk 9 := by unfold blk; decide +kernel
theorem blk10 : blk 10 := by unfold blk; decide +kernel
theorem blk11 : blk 11 := by unfold blk; decide +kernel
theorem blk12 : blk 12 := by unfold blk; decide +kernel
theorem blk13 : blk 13 := by unfold blk; decide +kernel
theorem blk14 : blk 14 := by unfold blk; decide +kernel
theorem blk15 : blk 15 := by unfold blk; decide +kernel
theorem blk16 : blk 16 := by unfold blk; decide +kernel
theorem blk17 : blk 17 := by unfold blk; decide +kernel
theorem blk18 : blk 18 := by unfold blk; decide +kernel
theorem blk19 : blk 19 := by unfold blk; decide +kernel
theorem blk20 : blk 20 := by unfold blk; decide +kernel

theorem blks (i : ℤ) (h0 : 0 ≤ i) (h1 : i ≤ 20) : blk i := by
  interval_cases i
  · exact blk0
  · exact blk1
  · exact blk2
  · exact blk3
  · exact blk4
  · exact blk5
  · exact blk6
  · exact blk7
  · exact blk8
  · exact blk9
  · exact blk10
  · exact blk11
  · exact blk12
  · exact blk13
  · exact blk14
  · exact blk15
  · exact blk16
  · exact blk17
  · exact blk18
  · exact blk19
  · exact blk20

theorem step_ok (r : ℤ) (h0 : 0 ≤ r) (h1 : r ≤ 10630) : stepOk r = true := by
  have := checkRange_spec _ 9 _ (blks (r / 512) (by omega) (by omega)) r (by omega) (by norm_num; omega)
  simp only [Bool.or_eq_true, decide_eq_true_eq] at this
  rcases this with h | h
  · omega
  · exact h

end Verif.Hijri
