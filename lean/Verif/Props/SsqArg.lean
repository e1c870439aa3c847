import Verif.Props.SsqMean
import Mathlib.Analysis.Real.Pi.Bounds

/-!
# Property C23: the argument of the astronomical series

Outside the mean-motion era the calculator evaluates a series at the angle that belongs to the wanted term or new moon.
-/

namespace Verif.Ssq
open Verif.Fp Verif.StrOps

/-- `W` is the solar longitude (in radians, up to rounding), a multiple of 15°, of the `n`-th term after the spring equinox of 1999, and the date `jd` lies in the
term's own interval, from 7 days before the mean place of the term on; for new moons (`qs = false`) `W` is `n` full turns, counted from the new moon of January 2000, and the
date lies from 14 days before the mean place on -/
def ArgOf (qs : Bool) (jd W : ℚ) (n : ℤ) : Prop :=
  if qs then (3652422/10000/24 * (n : ℚ) ≤ jd + 7 - 2451259 + 1/1000 ∧ jd + 7 - 2451259 ≤ 3652422/10000/24 * ((n : ℚ) + 1) + 1/1000 ∧ |(W : ℝ) - n * (Real.pi / 12)| ≤ 1/1000000)
  else (295306/10000 * (n : ℚ) ≤ jd + 14 - 2451551 + 1/1000 ∧ jd + 14 - 2451551 ≤ 295306/10000 * ((n : ℚ) + 1) + 1/1000 ∧ |(W : ℝ) - n * (2 * Real.pi)| ≤ 1/1000000)

theorem mPi_tight : |(mPi : ℝ) - Real.pi| ≤ 1/1000000000000000 := by
  have h1 := Real.pi_gt_d20
  have h2 := Real.pi_lt_d20
  unfold mPi
  rw [abs_le]
  push_cast
  constructor <;> linarith

theorem mPi_bound : 3 ≤ mPi ∧ mPi ≤ 4 := by unfold mPi; norm_num

/-- the shift of the origin -/
theorem shift_near (jd a b : ℚ) (hj : |jd| ≤ 10000000) (ha : |a| ≤ 14) (hb : |b| ≤ 3000000) : |(jd ⊞ a ⊟ b) - (jd + a - b)| ≤ 1/100000000 := by
  have hj' := abs_le.mp hj
  have ha' := abs_le.mp ha
  have hb' := abs_le.mp hb
  have e1 := abs_le.mp (rnd_err1 (show |jd + a| ≤ 10000014 by rw [abs_le]; constructor <;> linarith) (by norm_num))
  have e2 := abs_le.mp (rnd_err1 (show |(jd ⊞ a) - b| ≤ 14000000 by unfold fadd; rw [abs_le]; constructor <;> linarith) (by norm_num))
  unfold fsub fadd at *
  rw [abs_le]
  constructor <;> linarith

theorem year_tight' : |cYear - 3652422/10000| ≤ 1/1000000000000 := by decide +kernel
theorem month_tight' : |cMonth - 295306/10000| ≤ 1/1000000000000 := by decide +kernel

theorem qiArg_form (jd : ℚ) (hj : |jd| ≤ 10000000) : ∃ n : ℤ, ArgOf true jd (qiArg jd) n ∧ qiArg jd = ((n : ℚ) ⊠ mPi) ⊘ 12 := by
  have hs := abs_le.mp (shift_near jd 7 2451259 hj (by norm_num) (by norm_num))
  have hj' := abs_le.mp hj
  have hc := abs_le.mp year_tight'
  have c0 : 0 < cYear := by linarith [hc.1]
  obtain ⟨x, hx⟩ : ∃ x, x = jd ⊞ 7 ⊟ 2451259 := ⟨_, rfl⟩
  rw [← hx] at hs
  obtain ⟨y, hy⟩ : ∃ y, y = x / cYear := ⟨_, rfl⟩
  have hyx : y * cYear = x := by rw [hy, div_mul_cancel₀ _ c0.ne']
  have yb : |y| ≤ 40000 := by
    rw [hy, abs_div, abs_of_pos c0, div_le_iff₀ c0, abs_le]
    constructor <;> linarith
  have yb' := abs_le.mp yb
  have e1 := abs_le.mp (rnd_err1 yb (by norm_num))
  have e2 := abs_le.mp (rnd_err1 (show |(rnd y) * 24| ≤ 1000000 by rw [abs_le]; constructor <;> linarith) (by norm_num))
  obtain ⟨n, hn⟩ : ∃ n, n = ⌊x ⊘ cYear ⊠ 24⌋ := ⟨_, rfl⟩
  have f1 := Int.floor_le (x ⊘ cYear ⊠ 24)
  have f2 := Int.lt_floor_add_one (x ⊘ cYear ⊠ 24)
  rw [← hn] at f1 f2
  have hq : qiArg jd = ((n : ℚ) ⊠ mPi) ⊘ 12 := by unfold qiArg; rw [← hx, ← hn]
  unfold fmul fdiv at f1 f2
  rw [← hy] at f1 f2
  -- x against the exact unit
  have hxu : |x - 3652422/10000 * y| ≤ 1/100000 := by
    have p1 : |y * (cYear - 3652422/10000)| ≤ 40000 * (1/1000000000000) := by
      rw [abs_mul]
      exact mul_le_mul yb (abs_le.mpr hc) (abs_nonneg _) (by norm_num)
    have : x - 3652422/10000 * y = y * (cYear - 3652422/10000) := by rw [← hyx]; ring
    rw [this]; exact p1.trans (by norm_num)
  have hxu' := abs_le.mp hxu
  have nb1 : (-1000001 : ℚ) ≤ n := by linarith
  have nb2 : (n : ℚ) ≤ 1000001 := by linarith
  refine ⟨n, ?_, hq⟩
  unfold ArgOf
  rw [if_pos rfl]
  refine ⟨by linarith, by linarith, ?_⟩
  have pb := mPi_bound
  have nmb : |(n : ℚ) * mPi| ≤ 4000004 := by
    rw [abs_mul]
    have : |(n : ℚ)| ≤ 1000001 := abs_le.mpr ⟨nb1, nb2⟩
    have := mul_le_mul this (show |mPi| ≤ 4 by rw [abs_of_nonneg (by linarith)]; exact pb.2) (abs_nonneg _) (by norm_num)
    linarith
  have nmb' := abs_le.mp nmb
  have e3 := abs_le.mp (rnd_err1 nmb (by norm_num))
  have e4 := abs_le.mp (rnd_err1 (show |rnd (n * mPi) / 12| ≤ 4000004 by rw [abs_div, abs_of_pos (by norm_num : (0 : ℚ) < 12), div_le_iff₀ (by norm_num), abs_le]; constructor <;> linarith) (by norm_num))
  have hW : |qiArg jd - n * mPi / 12| ≤ 1/10000000 := by
    rw [hq]; unfold fdiv fmul
    rw [abs_le]; constructor <;> linarith
  have hWr : |((qiArg jd : ℚ) : ℝ) - n * mPi / 12| ≤ 1/10000000 := by
    have := (Rat.cast_le (K := ℝ)).mpr hW
    push_cast at this
    exact this
  have hn' : |(n : ℝ)| ≤ 1000001 := by
    rw [abs_le]
    constructor
    · exact_mod_cast nb1
    · exact_mod_cast nb2
  have hm : |(n : ℝ) * (mPi - Real.pi)| ≤ 1000001 * (1/1000000000000000) := by
    rw [abs_mul]
    exact mul_le_mul hn' mPi_tight (abs_nonneg _) (by norm_num)
  have hWr' := abs_le.mp hWr
  have hm' := abs_le.mp hm
  rw [abs_le]
  constructor <;> linarith

theorem soArg_form (jd : ℚ) (hj : |jd| ≤ 10000000) : ∃ n : ℤ, ArgOf false jd (soArg jd) n ∧ soArg jd = ((n : ℚ) ⊠ mPi) ⊠ 2 := by
  have hs := abs_le.mp (shift_near jd 14 2451551 hj (by norm_num) (by norm_num))
  have hj' := abs_le.mp hj
  have hc := abs_le.mp month_tight'
  have c0 : 0 < cMonth := by linarith [hc.1]
  obtain ⟨x, hx⟩ : ∃ x, x = jd ⊞ 14 ⊟ 2451551 := ⟨_, rfl⟩
  rw [← hx] at hs
  obtain ⟨y, hy⟩ : ∃ y, y = x / cMonth := ⟨_, rfl⟩
  have hyx : y * cMonth = x := by rw [hy, div_mul_cancel₀ _ c0.ne']
  have yb : |y| ≤ 500000 := by
    rw [hy, abs_div, abs_of_pos c0, div_le_iff₀ c0, abs_le]
    constructor <;> linarith
  have yb' := abs_le.mp yb
  have e1 := abs_le.mp (rnd_err1 yb (by norm_num))
  obtain ⟨n, hn⟩ : ∃ n, n = ⌊x ⊘ cMonth⌋ := ⟨_, rfl⟩
  have f1 := Int.floor_le (x ⊘ cMonth)
  have f2 := Int.lt_floor_add_one (x ⊘ cMonth)
  rw [← hn] at f1 f2
  have hq : soArg jd = ((n : ℚ) ⊠ mPi) ⊠ 2 := by unfold soArg; rw [← hx, ← hn]
  unfold fdiv at f1 f2
  rw [← hy] at f1 f2
  have hxu : |x - 295306/10000 * y| ≤ 1/100000 := by
    have p1 : |y * (cMonth - 295306/10000)| ≤ 500000 * (1/1000000000000) := by
      rw [abs_mul]
      exact mul_le_mul yb (abs_le.mpr hc) (abs_nonneg _) (by norm_num)
    have : x - 295306/10000 * y = y * (cMonth - 295306/10000) := by rw [← hyx]; ring
    rw [this]; exact p1.trans (by norm_num)
  have hxu' := abs_le.mp hxu
  have nb1 : (-1000001 : ℚ) ≤ n := by linarith
  have nb2 : (n : ℚ) ≤ 1000001 := by linarith
  refine ⟨n, ?_, hq⟩
  unfold ArgOf
  rw [if_neg (by decide)]
  refine ⟨by linarith, by linarith, ?_⟩
  have pb := mPi_bound
  have nmb : |(n : ℚ) * mPi| ≤ 4000004 := by
    rw [abs_mul]
    have : |(n : ℚ)| ≤ 1000001 := abs_le.mpr ⟨nb1, nb2⟩
    have := mul_le_mul this (show |mPi| ≤ 4 by rw [abs_of_nonneg (by linarith)]; exact pb.2) (abs_nonneg _) (by norm_num)
    linarith
  have nmb' := abs_le.mp nmb
  have e3 := abs_le.mp (rnd_err1 nmb (by norm_num))
  have e4 := abs_le.mp (rnd_err1 (show |rnd (n * mPi) * 2| ≤ 9000000 by rw [abs_le]; constructor <;> linarith) (by norm_num))
  have hW : |soArg jd - n * mPi * 2| ≤ 1/10000000 := by
    rw [hq]; unfold fmul
    rw [abs_le]; constructor <;> linarith
  have hWr : |((soArg jd : ℚ) : ℝ) - n * mPi * 2| ≤ 1/10000000 := by
    have := (Rat.cast_le (K := ℝ)).mpr hW
    push_cast at this
    exact this
  have hn' : |(n : ℝ)| ≤ 1000001 := by
    rw [abs_le]
    constructor
    · exact_mod_cast nb1
    · exact_mod_cast nb2
  have hm : |(n : ℝ) * (mPi - Real.pi)| ≤ 1000001 * (1/1000000000000000) := by
    rw [abs_mul]
    exact mul_le_mul hn' mPi_tight (abs_nonneg _) (by norm_num)
  have hWr' := abs_le.mp hWr
  have hm' := abs_le.mp hm
  rw [abs_le]
  constructor <;> linarith

theorem qiArg_spec (jd : ℚ) (hj : |jd| ≤ 10000000) : ∃ n : ℤ, ArgOf true jd (qiArg jd) n := (qiArg_form jd hj).imp fun _ h => h.1
theorem soArg_spec (jd : ℚ) (hj : |jd| ≤ 10000000) : ∃ n : ℤ, ArgOf false jd (soArg jd) n := (soArg_form jd hj).imp fun _ h => h.1

/-- **C23 (the corrected era, 1645–1960 for the terms, 619–1960 for the new moons).**  The day is the rounded value of the coarse series at the angle of the wanted
term or new moon, moved by the day the correction table says. -/
theorem c23_coarse (E : Series) (hE : ∀ W, |E.qiLow W| ≤ 2000000000 ∧ |E.soLow W| ≤ 2000000000)
    (so qi : List Char) (hso : jieya (chars suoS) = some so) (hqi : jieya (chars qiS) = some qi) (jd0 : ℚ) (qs : Bool)
    (h1 : (if qs then 232214776/100 - 7 else 1947168 - 14) + 1/1000 ≤ jd0 ⊞ 2451545) (h2 : jd0 ⊞ 2451545 < 2436935) :
    ∃ (W : ℚ) (n : ℤ) (i : ℕ) (c : Char), ArgOf qs (jd0 ⊞ 2451545) W n ∧ (if qs then qi else so)[i]? = some c ∧
      (if qs then 3652422/10000/24 * (i : ℚ) ≤ (jd0 ⊞ 2451545) + 7 - 232214776/100 + 1/1000 ∧ (jd0 ⊞ 2451545) + 7 - 232214776/100 ≤ 3652422/10000/24 * ((i : ℚ) + 1) + 1/1000
       else 295306/10000 * (i : ℚ) ≤ (jd0 ⊞ 2451545) + 14 - 1947168 + 1/1000 ∧ (jd0 ⊞ 2451545) + 14 - 1947168 ≤ 295306/10000 * ((i : ℚ) + 1) + 1/1000) ∧
      ssqCalc E so qi jd0 qs = some (⌊(if qs then E.qiLow W else E.soLow W) ⊞ rnd (1/2)⌋ + (if c = '1' then 1 else if c = '2' then -1 else 0)) := by
  obtain ⟨i, c, a1, a2, a3⟩ := c23_corrected E hE so qi hso hqi jd0 qs h1 h2
  have hj : |jd0 ⊞ 2451545| ≤ 10000000 := by
    have : (1940000 : ℚ) ≤ if qs then 232214776/100 - 7 else 1947168 - 14 := by cases qs <;> norm_num
    rw [abs_le]; constructor <;> linarith
  cases qs with
  | true =>
    obtain ⟨n, hn⟩ := qiArg_spec _ hj
    exact ⟨_, n, i, c, hn, a1, a2, a3⟩
  | false =>
    obtain ⟨n, hn⟩ := soArg_spec _ hj
    exact ⟨_, n, i, c, hn, a1, a2, a3⟩

theorem rnd_half : rnd (1/2) = 1/2 := by decide +kernel

/-- from 1960 on the fine series is used -/
theorem calc_modern (E : Series) (so qi : List Char) (jd0 : ℚ) (qs : Bool) (h1 : 2436935 ≤ jd0 ⊞ 2451545) :
    ssqCalc E so qi jd0 qs = if qs then int2 (E.qiHigh (qiArg (jd0 ⊞ 2451545)) ⊞ rnd (1/2)) else int2 (E.soHigh (soArg (jd0 ⊞ 2451545)) ⊞ rnd (1/2)) := by
  obtain ⟨m, t0, tl, hm, g0, gl, -⟩ := first_last qs
  have hB : (if qs then qiKB else suoKB) = (tableOf qs).map rnd := by cases qs <;> rfl
  have gg0 : ((tableOf qs).map rnd)[0]? = some (rnd t0) := by rw [List.getElem?_map, g0]; rfl
  have ggl : ((tableOf qs).map rnd)[2 * m]? = some (rnd tl) := by rw [List.getElem?_map, gl]; rfl
  unfold ssqCalc
  simp only []
  rw [hB, List.length_map, hm, show 2 * m + 1 - 1 = 2 * m by omega, gg0, Option.bind_eq_bind, Option.bind_some, ggl, Option.bind_some, if_pos (Or.inr h1)]

/-- **C23 (from 1960 on).**  The day is the rounded value of the fine series at the angle of the wanted term or new moon. -/
theorem c23_modern (E : Series) (hE : ∀ W, |E.qiHigh W| ≤ 2000000000 ∧ |E.soHigh W| ≤ 2000000000) (so qi : List Char) (jd0 : ℚ) (qs : Bool)
    (h1 : 2436935 ≤ jd0 ⊞ 2451545) (h2 : jd0 ⊞ 2451545 ≤ 10000000) :
    ∃ (W : ℚ) (n : ℤ), ArgOf qs (jd0 ⊞ 2451545) W n ∧
      ssqCalc E so qi jd0 qs = some ⌊(if qs then E.qiHigh W else E.soHigh W) ⊞ rnd (1/2)⌋ := by
  obtain ⟨m, t0, tl, hm, g0, gl, hrows, ex0, exl, b1, b2, b3, b4, gtl⟩ := first_last qs
  obtain ⟨jd, hjd⟩ : ∃ jd, jd = jd0 ⊞ 2451545 := ⟨_, rfl⟩
  rw [← hjd] at h1 h2 ⊢
  have hB : (if qs then qiKB else suoKB) = (tableOf qs).map rnd := by cases qs <;> rfl
  have hP : (if qs then (7 : ℚ) else 14) = marginOf qs := by cases qs <;> rfl
  have gg0 : ((tableOf qs).map rnd)[0]? = some (rnd t0) := by rw [List.getElem?_map, g0]; rfl
  have ggl : ((tableOf qs).map rnd)[2 * m]? = some (rnd tl) := by rw [List.getElem?_map, gl]; rfl
  have hj : |jd| ≤ 10000000 := by rw [abs_le]; constructor <;> linarith
  have int_ok : ∀ z : ℚ, |z| ≤ 2000000000 → int2 (z ⊞ rnd (1/2)) = some ⌊z ⊞ rnd (1/2)⌋ := by
    intro z hz
    have hz' := abs_le.mp hz
    have e := abs_le.mp (rnd_err1 (show |z + rnd (1/2)| ≤ 2000000001 by rw [rnd_half, abs_le]; constructor <;> linarith) (by norm_num))
    have r := rnd_half
    have u1 : z ⊞ rnd (1/2) < ((2000000003 : ℤ) : ℚ) := by unfold fadd; rw [r] at e ⊢; push_cast; linarith
    have u2 : ((-2000000003 : ℤ) : ℚ) ≤ z ⊞ rnd (1/2) := by unfold fadd; rw [r] at e ⊢; push_cast; linarith
    have v1 := Int.floor_lt.mpr u1
    have v2 := Int.le_floor.mpr u2
    unfold int2 i32
    rw [if_pos (by constructor <;> omega)]
  unfold ssqCalc
  rw [← hjd]
  simp only []
  rw [hB, hP, List.length_map, hm, show 2 * m + 1 - 1 = 2 * m by omega, gg0, Option.bind_eq_bind, Option.bind_some, ggl, Option.bind_some, if_pos (Or.inr h1)]
  cases qs with
  | true =>
    obtain ⟨n, hn⟩ := qiArg_spec _ hj
    exact ⟨_, n, hn, int_ok _ (hE _).1⟩
  | false =>
    obtain ⟨n, hn⟩ := soArg_spec _ hj
    exact ⟨_, n, hn, int_ok _ (hE _).2⟩

/-- hypotheses met: noon of 1 January 2024; the same day of 1800 -/
example (E : Series) (hE : ∀ W, |E.qiHigh W| ≤ 2000000000 ∧ |E.soHigh W| ≤ 2000000000) (so qi : List Char) :=
  c23_modern E hE so qi 8766 true (by decide +kernel) (by decide +kernel)

example (E : Series) (hE : ∀ W, |E.qiLow W| ≤ 2000000000 ∧ |E.soLow W| ≤ 2000000000) (so qi : List Char)
    (hso : jieya (chars suoS) = some so) (hqi : jieya (chars qiS) = some qi) :=
  c23_coarse E hE so qi hso hqi (-73000) false (by decide +kernel) (by decide +kernel)

end Verif.Ssq
