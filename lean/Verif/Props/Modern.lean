import Verif.ModernSpec
import Verif.Props.HighMonth
import Verif.Props.SsqArg
import Verif.Props.LunarSheet

/-!
# C79: the modern calendar, from the longitudes of sun and moon to the month sheet
-/

namespace Verif.Modern
open Verif.Fp Verif.Ssq Verif.Longitude Verif.Lunar Real

/-- the angles at which the program evaluates the series -/
def qiAngle (m : ℤ) : ℚ := (((m + 42 : ℤ) : ℚ) ⊠ mPi) ⊘ 12
def soAngle (j : ℤ) : ℚ := ((j : ℚ) ⊠ mPi) ⊠ 2
/-- the days it finds -/
def qiDay (E : Series) (m : ℤ) : ℤ := ⌊E.qiHigh (qiAngle m) ⊞ rnd (1/2)⌋
def soDay (E : Series) (j : ℤ) : ℤ := ⌊E.soHigh (soAngle j) ⊞ rnd (1/2)⌋

theorem int2_floor {v : ℚ} {k : ℤ} (h : int2 v = some k) : ⌊v⌋ = k := by
  unfold int2 i32 at h
  split_ifs at h
  exact Option.some.inj h

theorem dayOf_bds (t : ℝ) : t - 1 / 2 < dayOf t ∧ (dayOf t : ℝ) ≤ t + 1 / 2 := by
  unfold dayOf
  have f1 := Int.floor_le (t + 1 / 2)
  have f2 := Int.lt_floor_add_one (t + 1 / 2)
  constructor <;> linarith

variable {E : Series} {b : Tab} {dtT : ℝ → ℝ}

theorem ModernDt.toSlow (h : ModernDt dtT) : SlowDt dtT 150 := ⟨h.low, h.size, h.slow⟩

theorem soAngle_near (j : ℤ) (h1 : -500 ≤ j) (h2 : j ≤ 5000) : |((soAngle j : ℚ) : ℝ) - j * (2 * π)| ≤ 1/1000000 := by
  have c1 : (-500 : ℚ) ≤ j := by exact_mod_cast h1
  have c2 : (j : ℚ) ≤ 5000 := by exact_mod_cast h2
  have pb := mPi_bound
  have a1 : |(j : ℚ)| ≤ 5000 := abs_le.2 ⟨by linarith, c2⟩
  have nmb : |(j : ℚ) * mPi| ≤ 20000 := by
    rw [abs_mul]
    have := mul_le_mul a1 (show |mPi| ≤ 4 by rw [abs_of_nonneg (by linarith)]; exact pb.2) (abs_nonneg _) (by norm_num)
    linarith
  have nmb' := abs_le.mp nmb
  have e3 := abs_le.mp (rnd_err1 nmb (by norm_num))
  have e4 := abs_le.mp (rnd_err1 (show |rnd (j * mPi) * 2| ≤ 90000 by rw [abs_le]; constructor <;> linarith) (by norm_num))
  have hW : |soAngle j - j * mPi * 2| ≤ 1/10000000 := by
    unfold soAngle fmul
    rw [abs_le]; constructor <;> linarith
  have hWr : |((soAngle j : ℚ) : ℝ) - j * mPi * 2| ≤ 1/10000000 := by
    have := (Rat.cast_le (K := ℝ)).mpr hW
    push_cast at this
    exact this
  have hn' : |(j : ℝ)| ≤ 5000 := by
    have := (Rat.cast_le (K := ℝ)).mpr a1
    push_cast at this
    exact this
  have hm : |(j : ℝ) * (mPi - π)| ≤ 5000 * (1/1000000000000000) := by
    rw [abs_mul]
    exact mul_le_mul hn' mPi_tight (abs_nonneg _) (by norm_num)
  have hWr' := abs_le.mp hWr
  have hm' := abs_le.mp hm
  rw [abs_le]
  constructor <;> linarith

theorem qiAngle_near (m : ℤ) (h1 : -1000 ≤ m) (h2 : m ≤ 10000) : |((qiAngle m : ℚ) : ℝ) - (m + 42) * (π / 12)| ≤ 1/1000000 := by
  obtain ⟨n, hn⟩ : ∃ n : ℤ, n = m + 42 := ⟨_, rfl⟩
  have c1 : (-1000 : ℚ) ≤ n := by exact_mod_cast (by omega : -1000 ≤ n)
  have c2 : (n : ℚ) ≤ 20000 := by exact_mod_cast (by omega : n ≤ 20000)
  have pb := mPi_bound
  have a1 : |(n : ℚ)| ≤ 20000 := abs_le.2 ⟨by linarith, c2⟩
  have nmb : |(n : ℚ) * mPi| ≤ 80000 := by
    rw [abs_mul]
    have := mul_le_mul a1 (show |mPi| ≤ 4 by rw [abs_of_nonneg (by linarith)]; exact pb.2) (abs_nonneg _) (by norm_num)
    linarith
  have nmb' := abs_le.mp nmb
  have e3 := abs_le.mp (rnd_err1 nmb (by norm_num))
  have e4 := abs_le.mp (rnd_err1 (show |rnd (n * mPi) / 12| ≤ 80001 by rw [abs_div, abs_of_pos (by norm_num : (0 : ℚ) < 12), div_le_iff₀ (by norm_num), abs_le]; constructor <;> linarith) (by norm_num))
  have hW : |qiAngle m - n * mPi / 12| ≤ 1/10000000 := by
    unfold qiAngle fmul fdiv
    rw [← hn, abs_le]; constructor <;> linarith
  have hWr : |((qiAngle m : ℚ) : ℝ) - n * mPi / 12| ≤ 1/10000000 := by
    have := (Rat.cast_le (K := ℝ)).mpr hW
    push_cast at this
    exact this
  have hn' : |(n : ℝ)| ≤ 20000 := by
    have := (Rat.cast_le (K := ℝ)).mpr a1
    push_cast at this
    exact this
  have hm : |(n : ℝ) * (mPi - π)| ≤ 20000 * (1/1000000000000000) := by
    rw [abs_mul]
    exact mul_le_mul hn' mPi_tight (abs_nonneg _) (by norm_num)
  have hWr' := abs_le.mp hWr
  have hm' := abs_le.mp hm
  have hc : ((m : ℝ) + 42) = n := by rw [hn]; push_cast; ring
  rw [hc, abs_le]
  constructor <;> linarith

/-! ## New moons -/

/-- size of `j` turns -/
theorem turns (j : ℤ) (h1 : -500 ≤ j) (h2 : j ≤ 5000) : -500 * 6.2832 ≤ (j : ℝ) * (2 * π) ∧ (j : ℝ) * (2 * π) ≤ (j : ℝ) * 6.283186 + 0.002 ∧ (j : ℝ) * 6.283185 - 0.002 ≤ (j : ℝ) * (2 * π) := by
  have p1 := pi_gt_d20
  have p2 := pi_lt_d20
  have c1 : (-500 : ℝ) ≤ j := by exact_mod_cast h1
  have c2 : (j : ℝ) ≤ 5000 := by exact_mod_cast h2
  have d1 : |2 * π - 6.2831853| ≤ 0.0000001 := by rw [abs_le]; norm_num at *; constructor <;> linarith
  have k : |(j : ℝ) * (2 * π - 6.2831853)| ≤ 5000 * 0.0000001 := by
    rw [abs_mul]
    exact mul_le_mul (abs_le.2 ⟨by linarith, c2⟩) d1 (abs_nonneg _) (by norm_num)
  rw [abs_le] at k
  norm_num at *
  refine ⟨?_, ?_, ?_⟩ <;> linarith

theorem so_inst (hb : Builtin b) (hdt : ModernDt dtT) (hF : FineSeries E b dtT) (j : ℤ) (h1 : -494 ≤ j) (h2 : j ≤ 4945) :
    ∃ W' r z p lag x : ℝ, |W' - j * (2 * π)| ≤ 0.000002 ∧ soHigh b dtT W' = some r ∧ int2 (E.soHigh (soAngle j) ⊞ rnd (1/2)) = some (soDay E j) ∧ soDay E j = dayOf r
      ∧ |z| ≤ 4.5 ∧ fS (-1) (-1) z = W' ∧ |p - z| ≤ 0.0000000135 ∧ lag = dtT x ∧ |x - p * 36525| ≤ 1 ∧ -15000 ≤ x ∧ x ≤ 150000 ∧ soDay E j = dayOf (beijing p lag) := by
  have c1 : (-494 : ℝ) ≤ j := by exact_mod_cast h1
  have c2 : (j : ℝ) ≤ 4945 := by exact_mod_cast h2
  obtain ⟨t1, t2, t3⟩ := turns j (by omega) (by omega)
  have hn := abs_le.1 (soAngle_near j (by omega) (by omega))
  have w1 : (-3200 : ℚ) ≤ soAngle j := by
    have : ((-3200 : ℚ) : ℝ) ≤ (soAngle j : ℝ) := by push_cast; norm_num at *; linarith
    exact_mod_cast this
  have w2 : soAngle j ≤ (31075 : ℚ) := by
    have : (soAngle j : ℝ) ≤ ((31075 : ℚ) : ℝ) := by push_cast; norm_num at *; linarith
    exact_mod_cast this
  obtain ⟨W', r, hW, hr, hi⟩ := hF.so _ w1 w2
  have hW' := abs_le.1 hW
  have w3 : -233100 ≤ W' := by norm_num at *; linarith
  have w4 : W' ≤ 31080 := by norm_num at *; linarith
  obtain ⟨z, hz, hz10, hzW⟩ := fS_ivt (W := W') w3 (by linarith)
  have m := fS_mean30 z (hz.trans (by norm_num))
  simp only at m
  rw [hzW, abs_le] at m
  have z4 : |z| ≤ 4 := by rw [abs_le]; norm_num at *; constructor <;> linarith
  obtain ⟨P, hP, he⟩ := msALonT_near5 b hb (z4.trans (by norm_num))
  obtain ⟨Q, hQ, hq⟩ := msALonT2_near4 b hb z4
  obtain ⟨q, p, r', lag, k1, k2, k3, k4, k5⟩ := c77_day b hb dtT hdt.low W' w3 w4
  rw [hzW] at hP hQ
  have eP := Option.some.inj (hP.symm.trans k2)
  have eQ := Option.some.inj (hQ.symm.trans k1)
  have er := Option.some.inj (hr.symm.trans k3)
  subst eP eQ er
  have hd : soDay E j = dayOf r := int2_floor hi
  have zl : -0.42 ≤ z := by norm_num at *; linarith
  have zu : z ≤ 4.01 := by norm_num at *; linarith
  have he' := abs_le.1 he
  have hq' := abs_le.1 hq
  have L : ∃ x, -15000 ≤ x ∧ x ≤ 150000 ∧ lag = dtT x ∧ |x - P * 36525| ≤ 1 := by
    have mo := abs_le.1 (hdt.modern (Q * 36525) (by norm_num at *; linarith) (by norm_num at *; linarith))
    rcases k4 with h | h
    · refine ⟨_, ?_, ?_, h, ?_⟩
      · norm_num at *; linarith
      · norm_num at *; linarith
      · rw [abs_le]; norm_num at *; constructor <;> linarith
    · refine ⟨_, ?_, ?_, h, ?_⟩ <;> unfold beijing
      · norm_num at *; linarith
      · norm_num at *; linarith
      · rw [abs_le]; norm_num at *; constructor <;> linarith
  obtain ⟨x, x1, x2, x3, x4⟩ := L
  refine ⟨W', r, z, P, lag, x, ?_, hr, by rw [hi, hd], hd, z4.trans (by norm_num), hzW, he, x3, x4, x1, x2, by rw [hd, k5]⟩
  rw [abs_le]; norm_num at *; constructor <;> linarith

theorem so_newMoon (hb : Builtin b) (hdt : ModernDt dtT) (hF : FineSeries E b dtT) (j : ℤ) (h1 : -494 ≤ j) (h2 : j ≤ 4945) : NewMoonDay b dtT j (soDay E j) := by
  obtain ⟨W', r, z, p, lag, x, a1, a2, a3, a4, a5, a6, a7, a8, a9, a10, a11, a12⟩ := so_inst hb hdt hF j h1 h2
  have p5 : |p| ≤ 5 := by
    have := abs_sub_abs_le_abs_sub p z
    norm_num at *; linarith
  refine ⟨p, fS (-1) (-1) p, lag, x, msALon_fS b hb (by have := (abs_le.1 p5).2; linarith) (-1) (-1) (by norm_num) (by norm_num) (by norm_num), ?_, a8, a9, a12⟩
  have k := fS_lip (R := 30) (by norm_num) le_rfl z p (a5.trans (by norm_num)) (p5.trans (by norm_num))
  have k' := mul_le_mul_of_nonneg_left a7 (show (0 : ℝ) ≤ 1478.8 by norm_num)
  have k2 := abs_le.1 (k.trans k')
  simp only at k2
  rw [a6] at k2
  rw [abs_le] at a1 a7 ⊢
  norm_num at *
  constructor <;> linarith

theorem so_next (hb : Builtin b) (hdt : ModernDt dtT) (hF : FineSeries E b dtT) (j : ℤ) (h1 : -494 ≤ j) (h2 : j < 4945) :
    soDay E (j + 1) = soDay E j + 29 ∨ soDay E (j + 1) = soDay E j + 30 := by
  obtain ⟨W, r, -, -, -, -, a1, a2, -, a4, -⟩ := so_inst hb hdt hF j h1 (by omega)
  obtain ⟨W', r', -, -, -, -, b1, b2, -, b4, -⟩ := so_inst hb hdt hF (j + 1) (by omega) (by omega)
  obtain ⟨t1, t2, t3⟩ := turns j (by omega) (by omega)
  have c2 : (j : ℝ) ≤ 4944 := by exact_mod_cast (by omega : j ≤ 4944)
  have p2 := pi_lt_d6
  push_cast at b1
  obtain ⟨s, s', e1, e2, e3⟩ := so_step b hb dtT hdt.toSlow W W' (by rw [abs_le] at a1; norm_num at *; linarith)
    (by rw [abs_le] at b1; norm_num at *; linarith) (by rw [abs_le] at a1 b1 ⊢; norm_num at *; constructor <;> linarith)
  have := Option.some.inj (a2.symm.trans e1)
  have := Option.some.inj (b2.symm.trans e2)
  subst s s'
  rw [a4, b4]
  exact e3

theorem so_months (hb : Builtin b) (hdt : ModernDt dtT) (hF : FineSeries E b dtT) (i : ℤ) (h1 : -494 ≤ i) (k : ℕ) : i + k ≤ 4945 →
    29 * (k : ℤ) ≤ soDay E (i + k) - soDay E i ∧ soDay E (i + k) - soDay E i ≤ 30 * k := by
  induction k with
  | zero => intro _; simp
  | succ k ih =>
    intro h
    push_cast at h ⊢
    have := ih (by omega)
    have s := so_next hb hdt hF (i + k) (by omega) (by omega)
    rw [add_assoc] at s
    omega

/-- the lag changes little in three steps of 200 days -/
theorem lag_slow (hdt : ModernDt dtT) {x y : ℝ} (x1 : -15000 ≤ x) (x2 : x ≤ 150000) (y1 : -15000 ≤ y) (y2 : y ≤ 150000) (h : |y - x| ≤ 600) : |dtT y - dtT x| ≤ 0.0053 := by
  have h' := abs_le.1 h
  have s1 := hdt.slow x (x + (y - x) / 3) (by linarith) (by linarith) (by linarith) (by linarith) (by rw [abs_le]; constructor <;> linarith)
  have s2 := hdt.slow (x + (y - x) / 3) (x + 2 * (y - x) / 3) (by linarith) (by linarith) (by linarith) (by linarith) (by rw [abs_le]; constructor <;> linarith)
  have s3 := hdt.slow (x + 2 * (y - x) / 3) y (by linarith) (by linarith) (by linarith) (by linarith) (by rw [abs_le]; constructor <;> linarith)
  have t1 := abs_sub_le (dtT y) (dtT (x + 2 * (y - x) / 3)) (dtT x)
  have t2 := abs_sub_le (dtT (x + 2 * (y - x) / 3)) (dtT (x + (y - x) / 3)) (dtT x)
  norm_num at *
  linarith

theorem so_near (hb : Builtin b) (hdt : ModernDt dtT) (hF : FineSeries E b dtT) (i j : ℤ) (h1 : -494 ≤ i) (h2 : i ≤ j) (h3 : j ≤ 4945) (h4 : j ≤ i + 15) :
    |((soDay E j - soDay E i : ℤ) : ℝ) - 295306/10000 * ((j - i : ℤ) : ℝ)| ≤ 3 := by
  obtain ⟨W, r, z, p, lag, x, a1, -, -, -, a5, a6, a7, a8, a9, a10, a11, a12⟩ := so_inst hb hdt hF i h1 (by omega)
  obtain ⟨W', r', z', p', lag', x', b1, -, -, -, b5, b6, b7, b8, b9, b10, b11, b12⟩ := so_inst hb hdt hF j (by omega) h3
  have m := fS_mean5 z (a5.trans (by norm_num))
  have m' := fS_mean5 z' (b5.trans (by norm_num))
  simp only at m m'
  rw [a6, abs_le] at m
  rw [b6, abs_le] at m'
  obtain ⟨n, hn⟩ : ∃ n : ℝ, (j : ℝ) = i + n := ⟨j - i, by ring⟩
  have c1 : 0 ≤ n := by
    have : (i : ℝ) ≤ j := by exact_mod_cast h2
    linarith
  have c2 : n ≤ 15 := by
    have : (j : ℝ) ≤ i + 15 := by exact_mod_cast h4
    linarith
  rw [hn] at b1
  have p1 := pi_gt_d20
  have p2 := pi_lt_d20
  have d1 : |2 * π - 6.2831853| ≤ 0.0000001 := by rw [abs_le]; norm_num at *; constructor <;> linarith
  have k : |n * (2 * π - 6.2831853)| ≤ 15 * 0.0000001 := by
    rw [abs_mul]
    exact mul_le_mul (by rw [abs_le]; constructor <;> linarith) d1 (abs_nonneg _) (by norm_num)
  rw [abs_le] at k a1 b1 a7 b7 a9 b9
  have dz : |(z' - z) * 36525 - 29.5306 * n| ≤ 1.9592 := by
    rw [abs_le]; norm_num at *; constructor <;> linarith
  rw [abs_le] at dz
  have ls := lag_slow hdt a10 a11 b10 b11 (by rw [abs_le]; norm_num at *; constructor <;> linarith)
  rw [← a8, ← b8, abs_le] at ls
  have f := dayOf_bds (beijing p lag)
  have f' := dayOf_bds (beijing p' lag')
  rw [← a12] at f
  rw [← b12] at f'
  unfold beijing at f f'
  push_cast
  rw [hn, abs_le]
  norm_num at *
  constructor <;> linarith

theorem so_place (hb : Builtin b) (hdt : ModernDt dtT) (hF : FineSeries E b dtT) (j : ℤ) (h1 : -494 ≤ j) (h2 : j ≤ 4945) :
    |((soDay E j : ℤ) : ℝ) - (5.43 + 29.5306 * (j : ℝ))| ≤ 1.75 := by
  obtain ⟨W, r, z, p, lag, x, a1, -, -, -, a5, a6, a7, a8, a9, a10, a11, a12⟩ := so_inst hb hdt hF j h1 h2
  have m := fS_mean5 z (a5.trans (by norm_num))
  simp only at m
  rw [a6, abs_le] at m
  have mo := abs_le.1 (hdt.modern x a10 a11)
  rw [← a8] at mo
  have c1 : (-494 : ℝ) ≤ j := by exact_mod_cast h1
  have c2 : (j : ℝ) ≤ 4945 := by exact_mod_cast h2
  have p1 := pi_gt_d20
  have p2 := pi_lt_d20
  have d1 : |2 * π - 6.2831853| ≤ 0.0000001 := by rw [abs_le]; norm_num at *; constructor <;> linarith
  have k : |(j : ℝ) * (2 * π - 6.2831853)| ≤ 4945 * 0.0000001 := by
    rw [abs_mul]
    exact mul_le_mul (by rw [abs_le]; constructor <;> linarith) d1 (abs_nonneg _) (by norm_num)
  rw [abs_le] at k a1 a7
  have f := dayOf_bds (beijing p lag)
  rw [← a12] at f
  unfold beijing at f
  rw [abs_le]
  norm_num at *
  constructor <;> linarith

theorem so_placeQ (hb : Builtin b) (hdt : ModernDt dtT) (hF : FineSeries E b dtT) (j : ℤ) (h1 : -494 ≤ j) (h2 : j ≤ 4945) :
    |((soDay E j : ℤ) : ℚ) - (543/100 + 295306/10000 * (j : ℚ))| ≤ 175/100 := by
  have h := so_place hb hdt hF j h1 h2
  have : (((|((soDay E j : ℤ) : ℚ) - (543/100 + 295306/10000 * (j : ℚ))| : ℚ)) : ℝ) ≤ ((175/100 : ℚ) : ℝ) := by
    push_cast
    norm_num at h ⊢
    exact h
  exact_mod_cast this

/-- the calculator at a date near a new moon -/
theorem so_calc (hb : Builtin b) (hdt : ModernDt dtT) (hF : FineSeries E b dtT) (so qi : List Char) (x : ℚ) (hx1 : -14609 ≤ x) (hx2 : x ≤ 147000) :
    ∃ n : ℤ, 295306/10000 * (n : ℚ) ≤ x + 8 + 2/1000 ∧ x + 8 ≤ 295306/10000 * ((n : ℚ) + 1) + 2/1000 ∧ (-494 ≤ n → n ≤ 4945 → ssqCalc E so qi x false = some (soDay E n)) := by
  have e := abs_le.1 (rnd_err1 (show |x + 2451545| ≤ 2700000 by rw [abs_le]; constructor <;> linarith) (by norm_num))
  have s : (2700000 : ℚ) / 9007199254740992 ≤ 1/1000 := by norm_num
  have j1 : (2436935 : ℚ) ≤ x ⊞ 2451545 := by unfold fadd; linarith
  have j2 : |x ⊞ 2451545| ≤ 10000000 := by unfold fadd; rw [abs_le]; constructor <;> linarith
  obtain ⟨n, hn, hf⟩ := soArg_form _ j2
  unfold ArgOf at hn
  rw [if_neg (by decide)] at hn
  obtain ⟨n1, n2, -⟩ := hn
  refine ⟨n, by unfold fadd at n1; linarith, by unfold fadd at n2; linarith, fun h1 h2 => ?_⟩
  obtain ⟨-, -, -, -, -, -, -, -, a3, -⟩ := so_inst hb hdt hF n h1 h2
  rw [calc_modern E so qi x false j1, if_neg (by decide), hf]
  exact a3

theorem moons_ok (hb : Builtin b) (hdt : ModernDt dtT) (hF : FineSeries E b dtT) (so qi : List Char) : MoonsOK (ssqCalc E so qi) (-494) 4945 (soDay E) := by
  refine ⟨?_, ?_, ?_, ?_⟩
  · intro i j h1 h2 h3 _
    obtain ⟨k, rfl⟩ : ∃ k : ℕ, j = i + k := ⟨(j - i).toNat, by omega⟩
    have := so_months hb hdt hF i h1 k h3
    constructor <;> omega
  · intro i j h1 h2 h3 h4
    have h := so_near hb hdt hF i j h1 h2 h3 h4
    have : (((|((soDay E j - soDay E i : ℤ) : ℚ) - 295306/10000 * ((j - i : ℤ) : ℚ)| : ℚ)) : ℝ) ≤ ((3 : ℚ) : ℝ) := by
      push_cast
      push_cast at h
      exact h
    exact_mod_cast this
  · intro j h1 h2 x hx
    have hp := abs_le.1 (so_placeQ hb hdt hF j h1 h2)
    have hx' := abs_le.1 hx
    have c1 : (-494 : ℚ) ≤ j := by exact_mod_cast h1
    have c2 : (j : ℚ) ≤ 4945 := by exact_mod_cast h2
    obtain ⟨n, n1, n2, n3⟩ := so_calc hb hdt hF so qi x (by linarith) (by linarith)
    have e : n = j := by
      have u1 : (n : ℚ) < j + 1 := by linarith
      have u2 : (j : ℚ) - 1 < n := by linarith
      have u1' : n < j + 1 := by exact_mod_cast u1
      have u2' : j - 1 < n := by exact_mod_cast u2
      omega
    rw [e] at n3
    exact n3 h1 h2
  · intro x h1 h2
    have hp1 := abs_le.1 (so_placeQ hb hdt hF (-494) (by norm_num) (by norm_num))
    have hp2 := abs_le.1 (so_placeQ hb hdt hF 4945 (by norm_num) (by norm_num))
    push_cast at hp1 hp2
    obtain ⟨n, n1, n2, n3⟩ := so_calc hb hdt hF so qi x (by linarith) (by linarith)
    have u1 : (n : ℚ) < 4946 := by linarith
    have u2 : (-495 : ℚ) < n := by linarith
    have u1' : n < 4946 := by exact_mod_cast u1
    have u2' : -495 < n := by exact_mod_cast u2
    have hp := abs_le.1 (so_placeQ hb hdt hF n (by omega) (by omega))
    refine ⟨n, by omega, by omega, n3 (by omega) (by omega), ?_⟩
    rw [abs_le]
    constructor <;> linarith

/-! ## Solar terms -/

theorem qi_inst (hb : Builtin b) (hdt : ModernDt dtT) (hF : FineSeries E b dtT) (m : ℤ) (h1 : -983 ≤ m) (h2 : m ≤ 9660) :
    ∃ W' z p lag x : ℝ, |W' - (m + 42) * (π / 12)| ≤ 0.000002 ∧ int2 (E.qiHigh (qiAngle m) ⊞ rnd (1/2)) = some (qiDay E m)
      ∧ |z| ≤ 4.5 ∧ sR (-1) z = W' ∧ |p - z| ≤ 0.00000000069 ∧ lag = dtT x ∧ |x - p * 36525| ≤ 1 ∧ -15000 ≤ x ∧ x ≤ 150000 ∧ qiDay E m = dayOf (beijing p lag)
      ∧ |(p * 36525 + 8 / 24) - (355 + 15.218425 * m)| ≤ 2.77 := by
  have c1 : (-983 : ℝ) ≤ m := by exact_mod_cast h1
  have c2 : (m : ℝ) ≤ 9660 := by exact_mod_cast h2
  have p1 := pi_gt_d20
  have p2 := pi_lt_d20
  have d1 : |π / 12 - 0.26179938779915| ≤ 0.000000000001 := by rw [abs_le]; norm_num at *; constructor <;> linarith
  have k : |(m + 42 : ℝ) * (π / 12 - 0.26179938779915)| ≤ 10000 * 0.000000000001 := by
    rw [abs_mul]
    exact mul_le_mul (by rw [abs_le]; constructor <;> linarith) d1 (abs_nonneg _) (by norm_num)
  have hn := abs_le.1 (qiAngle_near m (by omega) (by omega))
  obtain ⟨u, hu⟩ : ∃ u : ℝ, u = (m + 42) * (π / 12) := ⟨_, rfl⟩
  have hu' : |u - (m + 42) * 0.26179938779915| ≤ 0.00000001 := by rw [hu]; refine (le_of_eq ?_).trans (k.trans (by norm_num)); congr 1; ring
  rw [← hu] at hn ⊢
  rw [abs_le] at hu'
  clear k
  have w1 : (-250 : ℚ) ≤ qiAngle m := by
    have : ((-250 : ℚ) : ℝ) ≤ (qiAngle m : ℝ) := by push_cast; norm_num at hu' hn; linarith
    exact_mod_cast this
  have w2 : qiAngle m ≤ (2600 : ℚ) := by
    have : (qiAngle m : ℝ) ≤ ((2600 : ℚ) : ℝ) := by push_cast; norm_num at hu' hn; linarith
    exact_mod_cast this
  obtain ⟨W', r, hW, hr, hi⟩ := hF.qi _ w1 w2
  have hW' := abs_le.1 hW
  have w3 : -18800 ≤ W' := by norm_num at hu' hn hW'; linarith
  have w4 : W' ≤ 5640 := by norm_num at hu' hn hW'; linarith
  obtain ⟨z, hz, hzW⟩ := sR_ivt (W := W') (abs_le.2 ⟨w3, by linarith⟩)
  have mm := sR_mean_all z (hz.trans (by norm_num))
  simp only at mm
  rw [hzW, abs_le] at mm
  have zb : -0.42 ≤ z ∧ z ≤ 4.05 := by norm_num at hu' hn hW' mm p1 p2 ⊢; constructor <;> linarith
  obtain ⟨P, hP, he⟩ := sALonT_near b hb hz hzW
  obtain ⟨Q, hQ, hq⟩ := sALonT2_near30 b hb hz
  obtain ⟨q, p, r', lag, k1, k2, k3, k4, k5⟩ := c76_day b hb dtT hdt.low W' w3 w4
  rw [hzW] at hQ
  have eP := Option.some.inj (hP.symm.trans k2)
  have eQ := Option.some.inj (hQ.symm.trans k1)
  have er := Option.some.inj (hr.symm.trans k3)
  subst eP eQ er
  have hd : qiDay E m = dayOf r := int2_floor hi
  have he' := abs_le.1 he
  have hq' := abs_le.1 hq
  norm_num at he' hq' zb
  have L : ∃ x, -15000 ≤ x ∧ x ≤ 150000 ∧ lag = dtT x ∧ |x - P * 36525| ≤ 1 := by
    have mo := abs_le.1 (hdt.modern (Q * 36525) (by linarith) (by linarith))
    norm_num at mo
    rcases k4 with h | h
    · refine ⟨_, ?_, ?_, h, ?_⟩
      · linarith
      · linarith
      · rw [abs_le]; constructor <;> linarith
    · refine ⟨_, ?_, ?_, h, ?_⟩ <;> unfold beijing
      · linarith
      · linarith
      · rw [abs_le]; constructor <;> linarith
  obtain ⟨x, x1, x2, x3, x4⟩ := L
  refine ⟨W', z, P, lag, x, ?_, by rw [hi, hd], ?_, hzW, he, x3, x4, x1, x2, by rw [hd, k5], ?_⟩
  · rw [abs_le]; norm_num at hn hW' ⊢; constructor <;> linarith
  · rw [abs_le]; norm_num; constructor <;> linarith
  · rw [abs_le]; norm_num at hu' hn hW' mm p1 p2 ⊢; constructor <;> linarith

theorem qi_term (hb : Builtin b) (hdt : ModernDt dtT) (hF : FineSeries E b dtT) (m : ℤ) (h1 : -983 ≤ m) (h2 : m ≤ 9660) : TermDay b dtT m (qiDay E m) := by
  obtain ⟨W', z, p, lag, x, a1, -, a3, a4, a5, a6, a7, -, -, a10, -⟩ := qi_inst hb hdt hF m h1 h2
  refine ⟨p, sR (-1) p, lag, x, sALon_sR b hb p (-1) (by norm_num), ?_, a6, a7, a10⟩
  have k : |sR (-1) p - sR (-1) z| ≤ 0.000001 := by
    have p5 : |p| ≤ 5 := by
      have := abs_sub_abs_le_abs_sub p z
      norm_num at a3 a5; linarith
    have n := sR_const (R := 30) (by norm_num) le_rfl z p (a3.trans (by norm_num)) (p5.trans (by norm_num))
    have sq : (p - z) ^ 2 ≤ 0.00000000069 * 0.00000000069 := by
      rw [← sq_abs, pow_two]; exact mul_le_mul a5 a5 (abs_nonneg _) (by norm_num)
    have a5' := abs_le.1 a5
    rw [abs_le] at n ⊢
    norm_num at n sq a5 a5' ⊢
    constructor <;> linarith
  rw [a4] at k
  rw [abs_le] at k a1 ⊢
  norm_num at k a1 ⊢
  constructor <;> linarith

theorem qi_place (hb : Builtin b) (hdt : ModernDt dtT) (hF : FineSeries E b dtT) (m : ℤ) (h1 : -983 ≤ m) (h2 : m ≤ 9660) :
    |((qiDay E m : ℤ) : ℚ) - (355 + 15218425/1000000 * (m : ℚ))| ≤ 338/100 := by
  obtain ⟨W', z, p, lag, x, -, -, -, -, -, a6, a7, a8, a9, a10, a11⟩ := qi_inst hb hdt hF m h1 h2
  have mo := abs_le.1 (hdt.modern x a8 a9)
  rw [← a6] at mo
  have f := dayOf_bds (beijing p lag)
  rw [← a10] at f
  unfold beijing at f
  rw [abs_le] at a11
  have h : |((qiDay E m : ℤ) : ℝ) - (355 + 15.218425 * (m : ℝ))| ≤ 3.38 := by
    norm_num at mo a11
    rw [abs_le]; norm_num; constructor <;> linarith
  have : (((|((qiDay E m : ℤ) : ℚ) - (355 + 15218425/1000000 * (m : ℚ))| : ℚ)) : ℝ) ≤ ((338/100 : ℚ) : ℝ) := by
    push_cast
    norm_num at h ⊢
    exact h
  exact_mod_cast this

theorem terms_ok (hb : Builtin b) (hdt : ModernDt dtT) (hF : FineSeries E b dtT) (so qi : List Char) : TermsOK (ssqCalc E so qi) (-983) 9660 (qiDay E) := by
  intro m h1 h2
  have hp := abs_le.1 (qi_place hb hdt hF m h1 h2)
  have c1 : (-983 : ℚ) ≤ m := by exact_mod_cast h1
  have c2 : (m : ℚ) ≤ 9660 := by exact_mod_cast h2
  unfold meanTerm
  refine ⟨by rw [abs_le]; constructor <;> linarith, fun x hx => ?_⟩
  have hx' := abs_le.1 hx
  have e := abs_le.1 (rnd_err1 (show |x + 2451545| ≤ 2700000 by rw [abs_le]; constructor <;> linarith) (by norm_num))
  have s : (2700000 : ℚ) / 9007199254740992 ≤ 1/1000 := by norm_num
  have j1 : (2436935 : ℚ) ≤ x ⊞ 2451545 := by unfold fadd; linarith
  have j2 : |x ⊞ 2451545| ≤ 10000000 := by unfold fadd; rw [abs_le]; constructor <;> linarith
  obtain ⟨n, hn, hf⟩ := qiArg_form _ j2
  unfold ArgOf at hn
  rw [if_pos rfl] at hn
  obtain ⟨n1, n2, -⟩ := hn
  unfold fadd at n1 n2
  have e : n = m + 42 := by
    have u1 : (n : ℚ) < m + 43 := by linarith
    have u2 : (m : ℚ) + 41 < n := by linarith
    have u1' : n < m + 43 := by exact_mod_cast u1
    have u2' : m + 41 < n := by exact_mod_cast u2
    omega
  obtain ⟨-, -, -, -, -, -, a2, -⟩ := qi_inst hb hdt hF m h1 h2
  rw [calc_modern E so qi x true j1, if_pos rfl, hf, e]
  exact a2

theorem terms_near (hb : Builtin b) (hdt : ModernDt dtT) (hF : FineSeries E b dtT) : TermsNear (qiDay E) (-983) 9660 := by
  constructor
  · intro m h1 h2
    have a := abs_le.1 (qi_place hb hdt hF m h1 (by omega))
    have c := abs_le.1 (qi_place hb hdt hF (m + 1) (by omega) (by omega))
    push_cast at c
    have : (qiDay E m : ℚ) < qiDay E (m + 1) := by linarith
    exact_mod_cast this
  · intro m m' h1 h2 h3 h4
    have a := abs_le.1 (qi_place hb hdt hF m h1 (by omega))
    have c := abs_le.1 (qi_place hb hdt hF m' (by omega) h3)
    have c1 : (m : ℚ) ≤ m' := by exact_mod_cast h2
    have c2 : (m' : ℚ) ≤ m + 24 := by exact_mod_cast h4
    rw [abs_le]
    push_cast
    constructor <;> linarith

/-! ## The month sheet -/

theorem modern_range (hb : Builtin b) (hdt : ModernDt dtT) (hF : FineSeries E b dtT) : Range (qiDay E) (soDay E) (-983) 9660 (-494) 4945 (-12600) 145100 := by
  have hp1 := abs_le.1 (so_placeQ hb hdt hF (-494) (by norm_num) (by norm_num))
  have hp2 := abs_le.1 (so_placeQ hb hdt hF 4945 (by norm_num) (by norm_num))
  push_cast at hp1 hp2
  refine ⟨by norm_num, by unfold meanTerm; norm_num, ?_, ?_⟩
  · have : (soDay E (-494) : ℚ) + 800 ≤ (-12600 : ℤ) := by push_cast; linarith
    exact_mod_cast this
  · have : ((145100 : ℤ) : ℚ) + 900 ≤ soDay E 4945 := by push_cast; linarith
    exact_mod_cast this

/-- **C79.**  Take the program with its built-in tables of the longitudes of sun and moon, and suppose only that the double-precision evaluation of the two series amounts to a
disturbance of the angle by at most 10⁻⁶ rad.  Then there are days of all solar terms (the Beijing days on which the computed longitude of the sun reaches the multiples of 15°) and of all new moons (the
Beijing days on which the computed moon catches up with the computed sun) such that, after any history of month sheets and year texts, every month sheet between July 1965 and April 2397 is defined and every
day of it carries the record that the traditional rules prescribe for these terms and new moons. -/
theorem c79_modern (hb : Builtin b) (hdt : ModernDt dtT) (hF : FineSeries E b dtT) (so qi : List Char) :
    ∃ Q Mn : ℤ → ℤ, (∀ m, -983 ≤ m → m ≤ 9660 → TermDay b dtT m (Q m)) ∧ (∀ j, -494 ≤ j → j ≤ 4945 → NewMoonDay b dtT j (Mn j))
      ∧ (∀ j, -494 ≤ j → j < 4945 → Mn (j + 1) = Mn j + 29 ∨ Mn (j + 1) = Mn j + 30) ∧
      ∀ t, Reachable (ssqCalc E so qi) (-12600) 145100 t → ∀ Bd0 : ℤ, -12600 ≤ Bd0 → Bd0 ≤ 145100 → ∀ n ≤ 31,
        ∃ days t', lunarSheet (ssqCalc E so qi) t Bd0 n = some (days, t') ∧ days.length = n ∧
          ∀ i : ℕ, i < n → ∃ o, days[i]? = some o ∧ RecordOK Q Mn (OrdinaryRule Q Mn) (Bd0 + i) o := by
  refine ⟨qiDay E, soDay E, fun m h1 h2 => qi_term hb hdt hF m h1 h2, fun j h1 h2 => so_newMoon hb hdt hF j h1 h2, fun j h1 h2 => so_next hb hdt hF j h1 h2, ?_⟩
  intro t ht Bd0 hB1 hB2 n hn
  exact c21_sheet (modern_range hb hdt hF) (terms_ok hb hdt hF so qi) (terms_near hb hdt hF) (moons_ok hb hdt hF so qi) t ht Bd0 ⟨hB1, hB2⟩ n hn
    (fun i _ => Or.inr (by omega))

/-- the built-in slow-down is modern -/
theorem dtDays_modernDt : ModernDt DeltaT.dtDays :=
  ⟨DeltaT.dtDays_low, fun _ h1 h2 => (DeltaT.dtDays_size h1 h2).trans (by norm_num), fun _ _ a1 a2 a3 a4 a5 => (DeltaT.dtDays_slow a1 a2 a3 a4 a5).trans (by norm_num),
    fun _ h1 h2 => DeltaT.dtDays_modern h1 h2⟩

/-- an evaluation that rounds the exact series to the day -/
noncomputable def exactSeries : Series :=
  ⟨fun _ => 0, fun _ => 0, fun W => dayOf ((qiHigh builtinTab DeltaT.dtDays W).getD 0), fun W => dayOf ((soHigh builtinTab DeltaT.dtDays W).getD 0)⟩

theorem int_half {d : ℤ} (h : |d| ≤ 1000000000) : int2 ((d : ℚ) ⊞ rnd (1/2)) = some d := by
  have e : (d : ℚ) ⊞ rnd (1/2) = d + 1/2 := by
    unfold fadd
    rw [Ssq.rnd_half]
    refine rnd_exact (2 * d + 1) (-1) (by norm_num) ?_ ?_
    · rw [abs_le] at h ⊢; constructor <;> [linarith [h.1]; linarith [h.2]]
    · push_cast; rw [zpow_neg_one]; ring
  rw [abs_le] at h
  refine int2_eq ?_ (by omega) (by omega)
  rw [e, Int.floor_eq_iff]
  constructor <;> linarith

theorem day_small {p lag : ℝ} (hp : |p| ≤ 31) (hl : |lag| ≤ 4) : |dayOf (beijing p lag)| ≤ 1000000000 := by
  have f := dayOf_bds (beijing p lag)
  unfold beijing at f
  rw [abs_le] at hp hl
  have g1 : ((-1000000000 : ℤ) : ℝ) ≤ (dayOf (p * 36525 - lag + 8 / 24) : ℝ) := by push_cast; linarith
  have g2 : (dayOf (p * 36525 - lag + 8 / 24) : ℝ) ≤ ((1000000000 : ℤ) : ℝ) := by push_cast; linarith
  unfold beijing
  rw [abs_le]
  constructor
  · exact_mod_cast g1
  · exact_mod_cast g2

/-- the assumption is met by the exact series with the built-in tables and slow-down -/
theorem exactSeries_fine : FineSeries exactSeries builtinTab DeltaT.dtDays := by
  have p1 := pi_gt_d6
  have p2 := pi_lt_d6
  have hsz : ∀ q : ℝ, |q| ≤ 9 → |DeltaT.dtDays (q * 36525)| ≤ 4 := fun q hq => by
    rw [abs_le] at hq
    exact (DeltaT.dtDays_size (by linarith) (by linarith)).trans (by norm_num)
  have hsz2 : ∀ q lag : ℝ, |q| ≤ 9 → (lag = DeltaT.dtDays (q * 36525) ∨ lag = DeltaT.dtDays (beijing q (DeltaT.dtDays (q * 36525)))) → |lag| ≤ 4 := fun q lag hq h => by
    rcases h with h | h
    · rw [h]; exact hsz q hq
    · rw [h]
      have k := hsz q hq
      rw [abs_le] at k hq
      unfold beijing
      exact (DeltaT.dtDays_size (by linarith) (by linarith)).trans (by norm_num)
  constructor
  · intro W h1 h2
    have h1' : (-250 : ℝ) ≤ W := by exact_mod_cast h1
    have h2' : (W : ℝ) ≤ 2600 := by exact_mod_cast h2
    obtain ⟨z, hz, hzW⟩ := sR_ivt (W := (W : ℝ)) (abs_le.2 ⟨by linarith, by linarith⟩)
    obtain ⟨Q, hQ, hq⟩ := sALonT2_near30 builtinTab builtinTab_ok hz
    obtain ⟨P, hP, he⟩ := sALonT_near builtinTab builtinTab_ok hz hzW
    have mm := sR_mean_all z (hz.trans (by norm_num))
    simp only at mm
    rw [hzW, abs_le] at mm
    rw [hzW] at hQ
    obtain ⟨q, p, r, lag, k1, k2, k3, k4, k5⟩ := c76_day builtinTab builtinTab_ok DeltaT.dtDays DeltaT.dtDays_low W (by linarith) (by linarith)
    have eP := Option.some.inj (hP.symm.trans k2)
    have eQ := Option.some.inj (hQ.symm.trans k1)
    subst eP eQ
    have zb : |z| ≤ 8 := by rw [abs_le]; norm_num at mm p1 p2; constructor <;> linarith
    rw [abs_le] at hq he zb
    norm_num at hq he
    refine ⟨W, r, by norm_num, k3, ?_⟩
    have e : exactSeries.qiHigh W = ((dayOf r : ℤ) : ℚ) := by unfold exactSeries; simp only; rw [k3]; rfl
    rw [e]
    refine int_half ?_
    rw [k5]
    exact day_small (by rw [abs_le]; constructor <;> linarith) (hsz2 Q lag (by rw [abs_le]; constructor <;> linarith) k4)
  · intro W h1 h2
    have h1' : (-3200 : ℝ) ≤ W := by exact_mod_cast h1
    have h2' : (W : ℝ) ≤ 31075 := by exact_mod_cast h2
    obtain ⟨z, hz, hz10, hzW⟩ := fS_ivt (W := (W : ℝ)) (by linarith) (by linarith)
    obtain ⟨Q, hQ, hq⟩ := msALonT2_near30 builtinTab builtinTab_ok hz hz10
    obtain ⟨P, hP, he⟩ := msALonT_near30 builtinTab builtinTab_ok hz hz10
    have mm := fS_mean30 z (hz.trans (by norm_num))
    simp only at mm
    rw [hzW, abs_le] at mm
    rw [hzW] at hQ hP
    obtain ⟨q, p, r, lag, k1, k2, k3, k4, k5⟩ := c77_day builtinTab builtinTab_ok DeltaT.dtDays DeltaT.dtDays_low W (by linarith) (by linarith)
    have eP := Option.some.inj (hP.symm.trans k2)
    have eQ := Option.some.inj (hQ.symm.trans k1)
    subst eP eQ
    have zb : |z| ≤ 8 := by rw [abs_le]; norm_num at mm; constructor <;> linarith
    rw [abs_le] at hq he zb
    norm_num at hq he
    refine ⟨W, r, by norm_num, k3, ?_⟩
    have e : exactSeries.soHigh W = ((dayOf r : ℤ) : ℚ) := by unfold exactSeries; simp only; rw [k3]; rfl
    rw [e]
    refine int_half ?_
    rw [k5]
    exact day_small (by rw [abs_le]; constructor <;> linarith) (hsz2 Q lag (by rw [abs_le]; constructor <;> linarith) k4)

/-- the sheet of November 2026 (30 days from day 9801), as the first call -/
example (so qi : List Char) : ∃ Q Mn : ℤ → ℤ, ∃ days t', lunarSheet (ssqCalc exactSeries so qi) Tables.init 9801 30 = some (days, t') ∧ days.length = 30 ∧
    ∀ i : ℕ, i < 30 → ∃ o, days[i]? = some o ∧ RecordOK Q Mn (OrdinaryRule Q Mn) (9801 + i) o := by
  obtain ⟨Q, Mn, -, -, -, h⟩ := c79_modern builtinTab_ok dtDays_modernDt exactSeries_fine so qi
  exact ⟨Q, Mn, h Tables.init .init 9801 (by norm_num) (by norm_num) 30 (by norm_num)⟩

end Verif.Modern
