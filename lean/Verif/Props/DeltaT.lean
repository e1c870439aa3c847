import Verif.DeltaT
import Verif.FloorLemmas

/-!
# Property C25: `dt_calc`
-/

namespace Verif.DeltaT
open Verif.Fp

/-- a row of the table: start year, four coefficients, start of the next row -/
def IsRow (a c0 c1 c2 c3 b : ℚ) : Prop :=
  ∃ j, dtAt[5 * j]? = some a ∧ dtAt[5 * j + 1]? = some c0 ∧ dtAt[5 * j + 2]? = some c1 ∧ dtAt[5 * j + 3]? = some c2 ∧
    dtAt[5 * j + 4]? = some c3 ∧ dtAt[5 * j + 5]? = some b

theorem findRow_spec (t : List ℚ) (y w : ℚ) (m : ℕ) (hm : t.length = 5 * m + 2) (hw : t[5 * m]? = some w) (hy : y < w) :
    ∀ (f j : ℕ), j < m → m < f + j → (∀ v, t[5 * j]? = some v → j = 0 ∨ v ≤ y) →
      ∃ j' a b, findRow t y f (5 * j) = some (5 * j') ∧ j' < m ∧ t[5 * j']? = some a ∧ (j' = 0 ∨ a ≤ y) ∧ t[5 * j' + 5]? = some b ∧ y < b := by
  intro f
  induction f with
  | zero => intro j h1 h2; omega
  | succ f ih =>
    intro j h1 h2 h3
    have hlt : 5 * j + 5 < t.length := by omega
    obtain ⟨u, hu⟩ : ∃ u, t[5 * j + 5]? = some u := ⟨_, List.getElem?_eq_getElem hlt⟩
    obtain ⟨v, hv⟩ : ∃ v, t[5 * j]? = some v := ⟨_, List.getElem?_eq_getElem (by omega)⟩
    unfold findRow
    rw [if_pos (by omega), hu, Option.bind_eq_bind, Option.bind_some]
    by_cases hyu : y < u
    · rw [if_pos hyu]
      exact ⟨j, v, u, rfl, h1, hv, h3 v hv, hu, hyu⟩
    · rw [if_neg hyu, show 5 * j + 5 = 5 * (j + 1) by ring]
      rw [show 5 * j + 5 = 5 * (j + 1) by ring] at hu
      have hj : j + 1 < m := by
        rcases Nat.lt_or_ge (j + 1) m with h | h
        · exact h
        · have : j + 1 = m := by omega
          rw [this, hw] at hu
          have : w = u := Option.some.inj hu
          exact absurd (this ▸ hy) hyu
      refine ih (j + 1) hj (by omega) ?_
      intro v' hv'
      rw [hu] at hv'
      right
      rw [← Option.some.inj hv']
      exact not_lt.mp hyu

/-- C25: before 2028, in any arithmetic, the value is the cubic of the row the year is in (years before -4000: the first row); no
read is outside the table. -/
theorem c25_row (r : ℚ → ℚ) (y : ℚ) (hy : y < 2028) :
    ∃ a c0 c1 c2 c3 b, IsRow a c0 c1 c2 c3 b ∧ (a = -4000 ∨ a ≤ y) ∧ y < b ∧ dtCalc r y = some (cubic r a c0 c1 c2 c3 b y) := by
  have hm : dtAt.length = 5 * 22 + 2 := rfl
  obtain ⟨j, a, b, h1, h2, h3, h4, h5, h6⟩ := findRow_spec dtAt y 2028 22 hm rfl hy (dtAt.length + 1) 0 (by omega) (by rw [hm]; omega) (by intro v _; left; rfl)
  obtain ⟨c0, e0⟩ : ∃ c, dtAt[5 * j + 1]? = some c := ⟨_, List.getElem?_eq_getElem (by omega)⟩
  obtain ⟨c1, e1⟩ : ∃ c, dtAt[5 * j + 2]? = some c := ⟨_, List.getElem?_eq_getElem (by omega)⟩
  obtain ⟨c2, e2⟩ : ∃ c, dtAt[5 * j + 3]? = some c := ⟨_, List.getElem?_eq_getElem (by omega)⟩
  obtain ⟨c3, e3⟩ : ∃ c, dtAt[5 * j + 4]? = some c := ⟨_, List.getElem?_eq_getElem (by omega)⟩
  refine ⟨a, c0, c1, c2, c3, b, ⟨j, h3, e0, e1, e2, e3, h5⟩, ?_, h6, ?_⟩
  · rcases h4 with h | h
    · left; subst h
      have : dtAt[5 * (0:ℕ)]? = some (-4000 : ℚ) := rfl
      rw [h3] at this; exact Option.some.inj this
    · right; exact h
  · have g0 : dtAt[dtAt.length - 2]? = some 2028 := rfl
    have g1 : dtAt[dtAt.length - 1]? = some (726/10) := rfl
    unfold dtCalc
    rw [g0, Option.bind_eq_bind, Option.bind_some, g1, Option.bind_eq_bind, Option.bind_some, if_neg (not_le.mpr hy)]
    rw [show (0 : ℕ) = 5 * 0 from rfl, h1, Option.bind_some, h3, Option.bind_some, e0, Option.bind_some, e1,
      Option.bind_some, e2, Option.bind_some, e3, Option.bind_some, h5, Option.bind_some]
    rfl

/-- the long-term parabola -/
def parabola (y : ℚ) : ℚ := -20 + 31 * ((y - 1820) / 100) ^ 2

/-- C25: from 2028 on the exact value blends into the parabola, which is used alone after 2128 -/
theorem c25_ext (y : ℚ) (hy : 2028 ≤ y) :
    dtCalc id y = some (if 2128 < y then parabola y else parabola y - (parabola 2028 - 726/10) * (2128 - y) / 100) := by
  have g0 : dtAt[dtAt.length - 2]? = some 2028 := rfl
  have g1 : dtAt[dtAt.length - 1]? = some (726/10) := rfl
  unfold dtCalc
  rw [g0, Option.bind_eq_bind, Option.bind_some, g1, Option.bind_eq_bind, Option.bind_some, if_pos hy]
  have e : ∀ y, dtExt id y 31 = parabola y := by intro y; unfold dtExt parabola; simp only [id]; ring
  rw [e, e]
  simp only [id]
  rw [show (2028 + 100 : ℚ) = 2128 by norm_num]
  split_ifs <;> rfl

/-! ## joins -/

/-- rows as tuples -/
def rows : List (ℚ × ℚ × ℚ × ℚ × ℚ × ℚ × ℚ) :=
  (List.range 22).filterMap (fun j => do
    pure (← dtAt[5 * j]?, ← dtAt[5 * j + 1]?, ← dtAt[5 * j + 2]?, ← dtAt[5 * j + 3]?, ← dtAt[5 * j + 4]?, ← dtAt[5 * j + 5]?, ← dtAt[5 * j + 6]?))

theorem rows_mem {a c0 c1 c2 c3 b : ℚ} (h : IsRow a c0 c1 c2 c3 b) : ∃ n, (a, c0, c1, c2, c3, b, n) ∈ rows ∧ ∃ j, dtAt[5 * j + 5]? = some b ∧ dtAt[5 * j + 6]? = some n := by
  obtain ⟨j, h0, h1, h2, h3, h4, h5⟩ := h
  have hl : 5 * j + 5 < dtAt.length := (List.getElem?_eq_some_iff.mp h5).1
  have hm : dtAt.length = 112 := rfl
  obtain ⟨n, hn⟩ : ∃ n, dtAt[5 * j + 6]? = some n := ⟨_, List.getElem?_eq_getElem (by omega)⟩
  refine ⟨n, ?_, j, h5, hn⟩
  unfold rows
  rw [List.mem_filterMap]
  refine ⟨j, List.mem_range.mpr (by omega), ?_⟩
  rw [h0, h1, h2, h3, h4, h5, hn]
  rfl

theorem rows_ok : ∀ x ∈ rows, |x.2.1| ≤ 108372 ∧ |x.2.2.1| ≤ 13037 ∧ |x.2.2.2.1| ≤ 392 ∧ |x.2.2.2.2.1| ≤ 1 ∧ 1 ≤ x.2.2.2.2.2.1 - x.1 ∧
    x.2.2.2.2.2.1 - x.1 ≤ 3500 ∧ rnd (x.2.2.2.2.2.1 - x.1) = x.2.2.2.2.2.1 - x.1 ∧
    |x.2.1 + x.2.2.1 * 10 + x.2.2.2.1 * 100 + x.2.2.2.2.1 * 1000 - x.2.2.2.2.2.2| ≤ 9 / 2 := by decide +kernel

/-- C25: at the end of a row the exact value meets the start of the next one up to 4.5 seconds -/
theorem c25_row_joins (a c0 c1 c2 c3 b : ℚ) (h : IsRow a c0 c1 c2 c3 b) :
    ∃ n, (∃ j, dtAt[5 * j + 5]? = some b ∧ dtAt[5 * j + 6]? = some n) ∧ |cubic id a c0 c1 c2 c3 b b - n| ≤ 9 / 2 := by
  obtain ⟨n, hm, hj⟩ := rows_mem h
  obtain ⟨-, -, -, -, h5, -, -, h8⟩ := rows_ok _ hm
  refine ⟨n, hj, ?_⟩
  simp only [] at h5 h8
  have hne : b - a ≠ 0 := by linarith
  have e : cubic id a c0 c1 c2 c3 b b = c0 + c1 * 10 + c2 * 100 + c3 * 1000 := by
    unfold cubic; simp only [id]; rw [div_self hne]; ring
  rw [e]; exact h8

/-- the exact value from 2018 on -/
theorem late_value (y : ℚ) (hy : 2018 ≤ y) :
    dtCalc id y = some (if y < 2028 then 69 + 36/100 * (y - 2018) else
      if 2128 < y then parabola y else parabola y - (parabola 2028 - 726/10) * (2128 - y) / 100) := by
  by_cases h : y < 2028
  · obtain ⟨a, c0, c1, c2, c3, b, hr, h1, h2, h3⟩ := c25_row id y h
    obtain ⟨j, e0, e1, e2, e3, e4, e5⟩ := hr
    have hl : 5 * j + 5 < dtAt.length := (List.getElem?_eq_some_iff.mp e5).1
    have hm : dtAt.length = 112 := rfl
    have key : ∀ i : Fin 22, (∀ u, dtAt[5 * i.val + 5]? = some u → u ≤ 2018) ∨ i.val = 21 := by
      intro i
      by_cases hi : i.val = 21
      · right; exact hi
      · left
        have : ∀ i : Fin 22, i.val ≠ 21 → ((dtAt[5 * i.val + 5]?).getD 0) ≤ 2018 := by decide +kernel
        intro u hu
        have := this i hi
        rw [hu] at this; exact this
    rcases key ⟨j, by omega⟩ with hk | hk
    · exact absurd (hk b e5) (by linarith)
    · simp only [] at hk
      subst hk
      have q0 : a = 2018 := by have : dtAt[5 * (21:ℕ)]? = some (2018 : ℚ) := rfl
                               rw [e0] at this; exact Option.some.inj this
      have q1 : c0 = 690/10 := by have : dtAt[5 * (21:ℕ) + 1]? = some (690/10 : ℚ) := rfl
                                  rw [e1] at this; exact Option.some.inj this
      have q2 : c1 = 36/100 := by have : dtAt[5 * (21:ℕ) + 2]? = some (36/100 : ℚ) := rfl
                                  rw [e2] at this; exact Option.some.inj this
      have q3 : c2 = 0 := by have : dtAt[5 * (21:ℕ) + 3]? = some (0 : ℚ) := rfl
                             rw [e3] at this; exact Option.some.inj this
      have q4 : c3 = 0 := by have : dtAt[5 * (21:ℕ) + 4]? = some (0 : ℚ) := rfl
                             rw [e4] at this; exact Option.some.inj this
      have q5 : b = 2028 := by have : dtAt[5 * (21:ℕ) + 5]? = some (2028 : ℚ) := rfl
                               rw [e5] at this; exact Option.some.inj this
      rw [h3, if_pos h, q0, q1, q2, q3, q4, q5]
      congr 1
      unfold cubic; simp only [id]; ring
  · rw [c25_ext y (not_lt.mp h), if_neg h]

/-- C25: the value joins the extrapolation continuously: over 2018–2300, across 2028 and 2128, it changes by at most 4 seconds a year -/
theorem c25_continuous (y y' v v' : ℚ) (h1 : 2018 ≤ y) (h2 : y ≤ y') (h3 : y' ≤ 2300) (hv : dtCalc id y = some v) (hv' : dtCalc id y' = some v') :
    |v' - v| ≤ 4 * (y' - y) := by
  rw [late_value y h1] at hv
  rw [late_value y' (by linarith)] at hv'
  have hv := (Option.some.inj hv).symm
  have hv' := (Option.some.inj hv').symm
  have e2 : parabola 2028 - 726/10 = 31 * (208/100)^2 - 20 - 726/10 := by unfold parabola; norm_num
  rw [e2] at hv hv'
  unfold parabola at hv hv'
  have d : 0 ≤ y' - y := by linarith
  split_ifs at hv hv' with a1 a2 a3 a4 a5 a6
  all_goals (rw [hv, hv', abs_le])
  all_goals first
    | exact absurd h2 (by linarith)
    | (constructor <;> nlinarith)

/-! ## accuracy of the double computation -/

theorem mul_err {a a' b b' A B ea eb : ℚ} (h1 : |a' - a| ≤ ea) (h2 : |b' - b| ≤ eb) (hA : |a'| ≤ A) (hB : |b| ≤ B) :
    |a' * b' - a * b| ≤ A * eb + B * ea := by
  have e : a' * b' - a * b = a' * (b' - b) + b * (a' - a) := by ring
  rw [e]
  calc |a' * (b' - b) + b * (a' - a)| ≤ |a' * (b' - b)| + |b * (a' - a)| := abs_add_le _ _
    _ = |a'| * |b' - b| + |b| * |a' - a| := by rw [abs_mul, abs_mul]
    _ ≤ A * eb + B * ea := by
      apply add_le_add
      · exact mul_le_mul hA h2 (abs_nonneg _) (le_trans (abs_nonneg _) hA)
      · exact mul_le_mul hB h1 (abs_nonneg _) (le_trans (abs_nonneg _) hB)

/-- rounding something near `x` -/
theorem rnd_near {q x e B : ℚ} (h : |q - x| ≤ e) (hq : |q| ≤ B) (hB : 1 ≤ B) : |rnd q - x| ≤ e + B / 9007199254740992 := by
  have := rnd_err1 hq hB
  calc |rnd q - x| = |(rnd q - q) + (q - x)| := by ring_nf
    _ ≤ |rnd q - q| + |q - x| := abs_add_le _ _
    _ ≤ _ := by linarith

theorem abs_near {q x e B : ℚ} (h : |q - x| ≤ e) (hx : |x| ≤ B) : |q| ≤ B + e := by
  calc |q| = |x + (q - x)| := by ring_nf
    _ ≤ |x| + |q - x| := abs_add_le _ _
    _ ≤ _ := by linarith

theorem sum_err {a a' b b' ea eb : ℚ} (h1 : |a' - a| ≤ ea) (h2 : |b' - b| ≤ eb) : |a' + b' - (a + b)| ≤ ea + eb := by
  have e : a' + b' - (a + b) = (a' - a) + (b' - b) := by ring
  rw [e]; exact le_trans (abs_add_le _ _) (add_le_add h1 h2)

theorem rnd_tight {q B e : ℚ} (hq : |q| ≤ B) (hB : 1 ≤ B) (he : B / 9007199254740992 ≤ e) : |rnd q - q| ≤ e := le_trans (rnd_err1 hq hB) he

/-- the double cubic is within 10⁻⁸ second of the exact one -/
theorem cubic_err (a c0 c1 c2 c3 b y : ℚ) (h0 : |c0| ≤ 108372) (h1 : |c1| ≤ 13037) (h2 : |c2| ≤ 392) (h3 : |c3| ≤ 1)
    (hw1 : 1 ≤ b - a) (hw2 : b - a ≤ 3500) (hw : rnd (b - a) = b - a) (hy1 : a ≤ y) (hy2 : y < b) :
    |cubic rnd a c0 c1 c2 c3 b y - cubic id a c0 c1 c2 c3 b y| ≤ 1/100000000 := by
  have w0 : 0 < b - a := by linarith
  obtain ⟨x, hx⟩ : ∃ x, x = (y - a) / (b - a) := ⟨_, rfl⟩
  have x0 : 0 ≤ x := by rw [hx]; exact div_nonneg (by linarith) w0.le
  have x1 : x ≤ 1 := by rw [hx, div_le_one w0]; linarith
  obtain ⟨T, hT⟩ : ∃ T, T = x * 10 := ⟨_, rfl⟩
  have T0 : |T| ≤ 10 := by rw [hT, abs_le]; constructor <;> linarith
  -- t1
  have s1 := rnd_err1 (show |y - a| ≤ b - a by rw [abs_le]; constructor <;> linarith) hw1
  obtain ⟨q, hq⟩ : ∃ q, q = rnd (y - a) / (b - a) := ⟨_, rfl⟩
  have q1 : |q - x| ≤ 1/9007199254740992 := by
    rw [hq, hx, ← sub_div, abs_div, abs_of_pos w0, div_le_iff₀ w0]
    linarith
  have q2 : |q| ≤ 2 := le_trans (abs_near q1 (show |x| ≤ 1 by rw [abs_le]; constructor <;> linarith)) (by norm_num)
  have q3 := rnd_near q1 q2 (by norm_num)
  have q4 : |rnd q * 10 - T| ≤ 4/1000000000000000 := by
    rw [hT, ← sub_mul, abs_mul, abs_of_pos (show (0:ℚ) < 10 by norm_num)]
    have : (1 / 9007199254740992 + 2 / 9007199254740992) * 10 ≤ (4/1000000000000000 : ℚ) := by norm_num
    linarith
  have q5 : |rnd q * 10| ≤ 11 := le_trans (abs_near q4 T0) (by norm_num)
  obtain ⟨t1, ht1⟩ : ∃ t1, t1 = rnd (rnd q * 10) := ⟨_, rfl⟩
  have t1e : |t1 - T| ≤ 1/100000000000000 := by rw [ht1]; exact le_trans (rnd_near q4 q5 (by norm_num)) (by norm_num)
  have t1b : |t1| ≤ 11 := le_trans (abs_near t1e T0) (by norm_num)
  -- t2
  have m2 := mul_err t1e t1e t1b T0
  have TT : |T * T| ≤ 100 := by rw [abs_mul]; exact le_trans (mul_le_mul T0 T0 (abs_nonneg _) (by norm_num)) (by norm_num)
  obtain ⟨t2, ht2⟩ : ∃ t2, t2 = rnd (t1 * t1) := ⟨_, rfl⟩
  have t2e : |t2 - T * T| ≤ 3/10000000000000 := by
    rw [ht2]; exact le_trans (rnd_near m2 (le_trans (abs_near m2 TT) (show _ ≤ (101 : ℚ) by norm_num)) (by norm_num)) (by norm_num)
  have t2b : |t2| ≤ 101 := le_trans (abs_near t2e TT) (by norm_num)
  -- t3
  have m3 := mul_err t2e t1e t2b T0
  have TTT : |T * T * T| ≤ 1000 := by rw [abs_mul]; exact le_trans (mul_le_mul TT T0 (abs_nonneg _) (by norm_num)) (by norm_num)
  obtain ⟨t3, ht3⟩ : ∃ t3, t3 = rnd (t2 * t1) := ⟨_, rfl⟩
  have t3e : |t3 - T * T * T| ≤ 5/1000000000000 := by
    rw [ht3]; exact le_trans (rnd_near m3 (le_trans (abs_near m3 TTT) (show _ ≤ (1001 : ℚ) by norm_num)) (by norm_num)) (by norm_num)
  -- coefficients
  have k0 : |rnd c0 - c0| ≤ 2/100000000000 := rnd_tight h0 (by norm_num) (by norm_num)
  have k1 : |rnd c1 - c1| ≤ 2/1000000000000 := rnd_tight h1 (by norm_num) (by norm_num)
  have k2 : |rnd c2 - c2| ≤ 1/10000000000000 := rnd_tight h2 (by norm_num) (by norm_num)
  have k3 : |rnd c3 - c3| ≤ 1/1000000000000000 := rnd_tight h3 (by norm_num) (by norm_num)
  -- products
  have p1 := mul_err k1 t1e (abs_near k1 h1) T0
  have p1x : |c1 * T| ≤ 130370 := by rw [abs_mul]; exact le_trans (mul_le_mul h1 T0 (abs_nonneg _) (by norm_num)) (by norm_num)
  have p1e : |rnd (rnd c1 * t1) - c1 * T| ≤ 2/10000000000 :=
    le_trans (rnd_near p1 (le_trans (abs_near p1 p1x) (show _ ≤ (130371 : ℚ) by norm_num)) (by norm_num)) (by norm_num)
  have p2 := mul_err k2 t2e (abs_near k2 h2) TT
  have p2x : |c2 * (T * T)| ≤ 39200 := by rw [abs_mul]; exact le_trans (mul_le_mul h2 TT (abs_nonneg _) (by norm_num)) (by norm_num)
  have p2e : |rnd (rnd c2 * t2) - c2 * (T * T)| ≤ 2/10000000000 :=
    le_trans (rnd_near p2 (le_trans (abs_near p2 p2x) (show _ ≤ (39201 : ℚ) by norm_num)) (by norm_num)) (by norm_num)
  have p3 := mul_err k3 t3e (abs_near k3 h3) TTT
  have p3x : |c3 * (T * T * T)| ≤ 1000 := by rw [abs_mul]; exact le_trans (mul_le_mul h3 TTT (abs_nonneg _) (by norm_num)) (by norm_num)
  have p3e : |rnd (rnd c3 * t3) - c3 * (T * T * T)| ≤ 1/10000000000 :=
    le_trans (rnd_near p3 (le_trans (abs_near p3 p3x) (show _ ≤ (1001 : ℚ) by norm_num)) (by norm_num)) (by norm_num)
  -- sums
  have u1 := sum_err k0 p1e
  have u1x : |c0 + c1 * T| ≤ 238742 := le_trans (abs_add_le _ _) (by linarith)
  have u1e : |rnd (rnd c0 + rnd (rnd c1 * t1)) - (c0 + c1 * T)| ≤ 3/10000000000 :=
    le_trans (rnd_near u1 (le_trans (abs_near u1 u1x) (show _ ≤ (238743 : ℚ) by norm_num)) (by norm_num)) (by norm_num)
  have u2 := sum_err u1e p2e
  have u2x : |c0 + c1 * T + c2 * (T * T)| ≤ 277942 := le_trans (abs_add_le _ _) (by linarith)
  have u2e := rnd_near u2 (le_trans (abs_near u2 u2x) (show _ ≤ (277943 : ℚ) by norm_num)) (by norm_num)
  have u3 := sum_err u2e p3e
  have u3x : |c0 + c1 * T + c2 * (T * T) + c3 * (T * T * T)| ≤ 278942 := le_trans (abs_add_le _ _) (by linarith)
  have u3e := rnd_near u3 (le_trans (abs_near u3 u3x) (show _ ≤ (278943 : ℚ) by norm_num)) (by norm_num)
  have eid : cubic id a c0 c1 c2 c3 b y = c0 + c1 * T + c2 * (T * T) + c3 * (T * T * T) := by
    unfold cubic; simp only [id]; rw [← hx, ← hT]
  have ernd : cubic rnd a c0 c1 c2 c3 b y = rnd (rnd (rnd (rnd c0 + rnd (rnd c1 * t1)) + rnd (rnd c2 * t2)) + rnd (rnd c3 * t3)) := by
    unfold cubic
    simp only []
    rw [hw, ← hq, ← ht1, ← ht2, ← ht3]
  rw [eid, ernd]
  refine le_trans u3e (by norm_num)

/-- C25: for the years of the table the double result is within 10⁻⁸ second of the cubic of the row of the year in exact
arithmetic. -/
theorem c25_accuracy (y : ℚ) (h1 : -4000 ≤ y) (h2 : y < 2028) :
    ∃ a c0 c1 c2 c3 b v, IsRow a c0 c1 c2 c3 b ∧ a ≤ y ∧ y < b ∧ dtCalc rnd y = some v ∧
      |v - (c0 + c1 * (10 * (y - a) / (b - a)) + c2 * (10 * (y - a) / (b - a)) ^ 2 + c3 * (10 * (y - a) / (b - a)) ^ 3)| ≤ 1/100000000 := by
  obtain ⟨a, c0, c1, c2, c3, b, hr, ha, hb, e⟩ := c25_row rnd y h2
  have ha' : a ≤ y := by rcases ha with h | h <;> linarith
  obtain ⟨n, hm, -⟩ := rows_mem hr
  obtain ⟨g0, g1, g2, g3, g4, g5, g6, -⟩ := rows_ok _ hm
  refine ⟨a, c0, c1, c2, c3, b, _, hr, ha', hb, e, ?_⟩
  have := cubic_err a c0 c1 c2 c3 b y g0 g1 g2 g3 g4 g5 g6 ha' hb
  have e2 : cubic id a c0 c1 c2 c3 b y = c0 + c1 * (10 * (y - a) / (b - a)) + c2 * (10 * (y - a) / (b - a)) ^ 2 + c3 * (10 * (y - a) / (b - a)) ^ 3 := by
    unfold cubic; simp only [id]; ring
  rwa [e2] at this

/-- 1990: met by the row of 1980 -/
example : ∃ v, dtCalc rnd 1990 = some v ∧ |v - 5720/100| ≤ 1/2 := ⟨_, rfl, by decide +kernel⟩

end Verif.DeltaT
