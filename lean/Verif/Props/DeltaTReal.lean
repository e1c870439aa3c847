import Verif.DeltaTReal
import Verif.Props.DeltaT
import Mathlib.Tactic.Linarith
import Mathlib.Tactic.FieldSimp

/-!
# The slow-down of the Earth's rotation changes slowly (used by C78)
-/

namespace Verif.DeltaT

/-- the row of the table with number `j`: start, coefficients, end, start value of the next row -/
def rowAt (j : ℕ) : ℚ × ℚ × ℚ × ℚ × ℚ × ℚ × ℚ :=
  (dtAt.getD (5 * j) 0, dtAt.getD (5 * j + 1) 0, dtAt.getD (5 * j + 2) 0, dtAt.getD (5 * j + 3) 0, dtAt.getD (5 * j + 4) 0, dtAt.getD (5 * j + 5) 0, dtAt.getD (5 * j + 6) 0)

noncomputable def valR (j : ℕ) (y : ℝ) : ℝ :=
  cubicR (rowAt j).1 (rowAt j).2.1 (rowAt j).2.2.1 (rowAt j).2.2.2.1 (rowAt j).2.2.2.2.1 (rowAt j).2.2.2.2.2.1 y

theorem getR {i : ℕ} (h : i < 112) : dtAtR[i]? = some ((dtAt.getD i 0 : ℚ) : ℝ) := by
  have hl : dtAt.length = 112 := rfl
  unfold dtAtR
  rw [List.getElem?_map, List.getD_eq_getElem?_getD, List.getElem?_eq_getElem (by omega)]
  rfl

theorem findRowR_spec (y : ℝ) (hy : y < 2028) : ∀ (f j : ℕ), j < 22 → 22 < f + j → (j = 0 ∨ ((rowAt j).1 : ℝ) ≤ y) →
    ∃ j', findRowR dtAtR y f (5 * j) = some (5 * j') ∧ j' < 22 ∧ (j' = 0 ∨ ((rowAt j').1 : ℝ) ≤ y) ∧ y < ((rowAt j').2.2.2.2.2.1 : ℝ) := by
  intro f
  induction f with
  | zero => intro j h1 h2; omega
  | succ f ih =>
    intro j h1 h2 h3
    have hl : dtAtR.length = 112 := by unfold dtAtR; rw [List.length_map]; rfl
    unfold findRowR
    rw [if_pos (by omega), getR (by omega)]
    show ∃ j', (if y < _ then _ else _) = _ ∧ _
    by_cases h : y < ((dtAt.getD (5 * j + 5) 0 : ℚ) : ℝ)
    · rw [if_pos h]
      exact ⟨j, rfl, h1, h3, h⟩
    · rw [if_neg h]
      push Not at h
      have hj : j ≠ 21 := by
        rintro rfl
        have e : ((dtAt.getD (5 * 21 + 5) 0 : ℚ) : ℝ) = 2028 := by
          have : (dtAt.getD (5 * 21 + 5) 0 : ℚ) = 2028 := rfl
          rw [this]; norm_num
        rw [e] at h; linarith
      exact ih (j + 1) (by omega) (by omega) (Or.inr h)

theorem dtCalcR_row (y : ℝ) (hy : y < 2028) : ∃ j, j < 22 ∧ (j = 0 ∨ ((rowAt j).1 : ℝ) ≤ y) ∧ y < ((rowAt j).2.2.2.2.2.1 : ℝ) ∧ dtCalcR y = some (valR j y) := by
  have hl : dtAtR.length = 112 := by unfold dtAtR; rw [List.length_map]; rfl
  obtain ⟨j, h1, h2, h3, h4⟩ := findRowR_spec y hy (112 + 1) 0 (by omega) (by omega) (Or.inl rfl)
  refine ⟨j, h2, h3, h4, ?_⟩
  have e : ((dtAt.getD 110 0 : ℚ) : ℝ) = 2028 := by
    have : (dtAt.getD 110 0 : ℚ) = 2028 := rfl
    rw [this]; norm_num
  unfold dtCalcR
  rw [hl, getR (by omega), getR (by omega)]
  show (if y ≥ ((dtAt.getD 110 0 : ℚ) : ℝ) then _ else _) = _
  rw [if_neg (by rw [e]; linarith)]
  rw [mul_zero] at h1
  rw [h1]
  show ((dtAtR[5 * j]?).bind _) = _
  rw [getR (by omega)]
  show ((dtAtR[5 * j + 1]?).bind _) = _
  rw [getR (by omega)]
  show ((dtAtR[5 * j + 2]?).bind _) = _
  rw [getR (by omega)]
  show ((dtAtR[5 * j + 3]?).bind _) = _
  rw [getR (by omega)]
  show ((dtAtR[5 * j + 4]?).bind _) = _
  rw [getR (by omega)]
  show ((dtAtR[5 * j + 5]?).bind _) = _
  rw [getR (by omega)]
  rfl

theorem dtCalcR_ext (y : ℝ) (hy : 2028 ≤ y) :
    dtCalcR y = some (if 2128 < y then dtExtR y 31 else dtExtR y 31 - (dtExtR 2028 31 - 72.6) * (2128 - y) / 100) := by
  have hl : dtAtR.length = 112 := by unfold dtAtR; rw [List.length_map]; rfl
  have e : ((dtAt.getD 110 0 : ℚ) : ℝ) = 2028 := by
    have : (dtAt.getD 110 0 : ℚ) = 2028 := rfl
    rw [this]; norm_num
  have e' : ((dtAt.getD 111 0 : ℚ) : ℝ) = 72.6 := by
    have : (dtAt.getD 111 0 : ℚ) = 726 / 10 := rfl
    rw [this]; norm_num
  unfold dtCalcR
  rw [hl, getR (by omega), getR (by omega)]
  show (if y ≥ ((dtAt.getD 110 0 : ℚ) : ℝ) then _ else _) = _
  rw [if_pos (by rw [e]; exact hy)]
  show (if y > ((dtAt.getD 110 0 : ℚ) : ℝ) + 100 then some (dtExtR y 31) else some (dtExtR y 31 - (dtExtR ((dtAt.getD 110 0 : ℚ) : ℝ) 31 - ((dtAt.getD 111 0 : ℚ) : ℝ)) * (((dtAt.getD 110 0 : ℚ) : ℝ) + 100 - y) / 100)) = _
  rw [e, e', show (2028 : ℝ) + 100 = 2128 by norm_num]
  by_cases h : 2128 < y
  · rw [if_pos h, if_pos h]
  · rw [if_neg h, if_neg h]

/-! ## Rows -/

/-- width, steepness, join with the next row, bounds -/
theorem row_facts : ∀ j < 22, 5 ≤ (rowAt j).2.2.2.2.2.1 - (rowAt j).1 ∧ (rowAt j).2.2.2.2.2.1 - (rowAt j).1 ≤ 3500
    ∧ 10 * (|(rowAt j).2.2.1| + 20 * |(rowAt j).2.2.2.1| + 300 * |(rowAt j).2.2.2.2.1|) ≤ 60 * ((rowAt j).2.2.2.2.2.1 - (rowAt j).1)
    ∧ |(rowAt j).2.1 + (rowAt j).2.2.1 * 10 + (rowAt j).2.2.2.1 * 100 + (rowAt j).2.2.2.2.1 * 1000 - (rowAt j).2.2.2.2.2.2| ≤ 9 / 2
    ∧ |(rowAt j).2.1| + 10 * |(rowAt j).2.2.1| + 100 * |(rowAt j).2.2.2.1| + 1000 * |(rowAt j).2.2.2.2.1| ≤ 300000 := by decide +kernel

theorem row_next : ∀ j < 21, (rowAt (j + 1)).1 = (rowAt j).2.2.2.2.2.1 ∧ (rowAt (j + 1)).2.1 = (rowAt j).2.2.2.2.2.2 := by decide +kernel

theorem row_far : ∀ j < 22, ∀ j' < 22, j + 2 ≤ j' → (rowAt j).2.2.2.2.2.1 + 5 ≤ (rowAt j').1 := by decide +kernel
theorem row_mono : ∀ j < 22, ∀ j' < 22, j < j' → (rowAt j).2.2.2.2.2.1 ≤ (rowAt j').1 := by decide +kernel

theorem cubicR_lip {a c0 c1 c2 c3 b y y' : ℝ} (hw : 0 < b - a) (hs : 10 * (|c1| + 20 * |c2| + 300 * |c3|) ≤ 60 * (b - a)) (h1 : a ≤ y) (h2 : y ≤ b) (h1' : a ≤ y') (h2' : y' ≤ b) :
    |cubicR a c0 c1 c2 c3 b y' - cubicR a c0 c1 c2 c3 b y| ≤ 60 * |y' - y| := by
  obtain ⟨s, hs'⟩ : ∃ s, s = (y - a) / (b - a) * 10 := ⟨_, rfl⟩
  obtain ⟨t, ht'⟩ : ∃ t, t = (y' - a) / (b - a) * 10 := ⟨_, rfl⟩
  have s0 : 0 ≤ s := by rw [hs']; exact mul_nonneg (div_nonneg (by linarith) hw.le) (by norm_num)
  have t0 : 0 ≤ t := by rw [ht']; exact mul_nonneg (div_nonneg (by linarith) hw.le) (by norm_num)
  have s1 : s ≤ 10 := by
    have : (y - a) / (b - a) ≤ 1 := by rw [div_le_one hw]; linarith
    rw [hs']; linarith
  have t1 : t ≤ 10 := by
    have : (y' - a) / (b - a) ≤ 1 := by rw [div_le_one hw]; linarith
    rw [ht']; linarith
  have e : cubicR a c0 c1 c2 c3 b y' - cubicR a c0 c1 c2 c3 b y = (c1 + c2 * (t + s) + c3 * (t ^ 2 + t * s + s ^ 2)) * (t - s) := by
    unfold cubicR; rw [← hs', ← ht']; ring
  have e2 : t - s = (y' - y) / (b - a) * 10 := by rw [hs', ht']; ring
  rw [e, abs_mul, e2, abs_mul, abs_div, abs_of_pos hw, abs_of_pos (show (0 : ℝ) < 10 by norm_num)]
  have k : |c1 + c2 * (t + s) + c3 * (t ^ 2 + t * s + s ^ 2)| ≤ |c1| + 20 * |c2| + 300 * |c3| := by
    refine (abs_add_le _ _).trans (add_le_add ((abs_add_le _ _).trans (add_le_add le_rfl ?_)) ?_)
    · rw [abs_mul, abs_of_nonneg (show 0 ≤ t + s by linarith)]
      have := mul_le_mul_of_nonneg_left (show t + s ≤ 20 by linarith) (abs_nonneg c2)
      linarith
    · rw [abs_mul, abs_of_nonneg (show 0 ≤ t ^ 2 + t * s + s ^ 2 by positivity)]
      have q1 := mul_le_mul t1 t1 t0 (by norm_num)
      have q2 := mul_le_mul t1 s1 s0 (by norm_num)
      have q3 := mul_le_mul s1 s1 s0 (by norm_num)
      have := mul_le_mul_of_nonneg_left (show t ^ 2 + t * s + s ^ 2 ≤ 300 by rw [sq, sq]; linarith) (abs_nonneg c3)
      linarith
  have h3 := mul_le_mul_of_nonneg_right k (show 0 ≤ |y' - y| / (b - a) * 10 by positivity)
  refine h3.trans ?_
  rw [show (|c1| + 20 * |c2| + 300 * |c3|) * (|y' - y| / (b - a) * 10) = 10 * (|c1| + 20 * |c2| + 300 * |c3|) * (|y' - y| / (b - a)) by ring]
  refine (mul_le_mul_of_nonneg_right hs (show 0 ≤ |y' - y| / (b - a) by positivity)).trans (le_of_eq ?_)
  field_simp

theorem valR_lip {j : ℕ} (hj : j < 22) {y y' : ℝ} (h1 : ((rowAt j).1 : ℝ) ≤ y) (h2 : y ≤ ((rowAt j).2.2.2.2.2.1 : ℝ)) (h1' : ((rowAt j).1 : ℝ) ≤ y') (h2' : y' ≤ ((rowAt j).2.2.2.2.2.1 : ℝ)) :
    |valR j y' - valR j y| ≤ 60 * |y' - y| := by
  obtain ⟨w, -, s, -⟩ := row_facts j hj
  refine cubicR_lip ?_ ?_ h1 h2 h1' h2'
  · have : (5 : ℝ) ≤ ((rowAt j).2.2.2.2.2.1 : ℝ) - ((rowAt j).1 : ℝ) := by exact_mod_cast w
    linarith
  · exact_mod_cast s

theorem valR_end {j : ℕ} (hj : j < 22) : |valR j ((rowAt j).2.2.2.2.2.1 : ℝ) - ((rowAt j).2.2.2.2.2.2 : ℝ)| ≤ 9 / 2 := by
  obtain ⟨w, -, -, q, -⟩ := row_facts j hj
  have w' : (5 : ℝ) ≤ ((rowAt j).2.2.2.2.2.1 : ℝ) - ((rowAt j).1 : ℝ) := by exact_mod_cast w
  have e : valR j ((rowAt j).2.2.2.2.2.1 : ℝ) = ((rowAt j).2.1 : ℝ) + (rowAt j).2.2.1 * 10 + (rowAt j).2.2.2.1 * 100 + (rowAt j).2.2.2.2.1 * 1000 := by
    unfold valR cubicR
    simp only
    rw [div_self (by linarith)]
    ring
  rw [e]
  have q' : ((|(rowAt j).2.1 + (rowAt j).2.2.1 * 10 + (rowAt j).2.2.2.1 * 100 + (rowAt j).2.2.2.2.1 * 1000 - (rowAt j).2.2.2.2.2.2| : ℚ) : ℝ) ≤ ((9 / 2 : ℚ) : ℝ) := by exact_mod_cast q
  push_cast at q'
  exact q'

theorem valR_start {j : ℕ} : valR j ((rowAt j).1 : ℝ) = ((rowAt j).2.1 : ℝ) := by
  unfold valR cubicR
  simp

/-- the value is always defined -/
theorem dtCalcR_some (y : ℝ) : ∃ v, dtCalcR y = some v := by
  by_cases h : y < 2028
  · obtain ⟨j, -, -, -, h⟩ := dtCalcR_row y h
    exact ⟨_, h⟩
  · exact ⟨_, dtCalcR_ext y (not_lt.1 h)⟩

/-- the value as a number -/
noncomputable def dtV (y : ℝ) : ℝ := (dtCalcR y).getD 0

theorem dtV_eq {y v : ℝ} (h : dtCalcR y = some v) : dtV y = v := by unfold dtV; rw [h]; rfl
theorem dtCalcR_dtV (y : ℝ) : dtCalcR y = some (dtV y) := by
  obtain ⟨v, h⟩ := dtCalcR_some y
  rw [h, dtV_eq h]

theorem ext_slow {y y' : ℝ} (h0 : 2028 ≤ y) (h : y ≤ y') (h1 : y' ≤ 3000) : |dtV y' - dtV y| ≤ 60 * (y' - y) := by
  rw [dtV_eq (dtCalcR_ext y h0), dtV_eq (dtCalcR_ext y' (by linarith))]
  have e : ∀ y : ℝ, dtExtR y 31 = -20 + 31 * ((y - 1820) / 100) ^ 2 := fun y => by unfold dtExtR; ring
  rw [e, e, e]
  have k : ((y' - 1820) / 100) ^ 2 - ((y - 1820) / 100) ^ 2 = (y' - y) * (y' + y - 3640) / 10000 := by ring
  have h2 : 0 ≤ (y' - y) * (y' + y - 3640) := mul_nonneg (by linarith) (by linarith)
  have h3 : (y' - y) * (y' + y - 3640) ≤ (y' - y) * 2360 := mul_le_mul_of_nonneg_left (by linarith) (by linarith)
  by_cases c : 2128 < y
  · rw [if_pos c, if_pos (by linarith), abs_le]
    constructor <;> linarith
  · push Not at c
    rw [if_neg (not_lt.2 c)]
    by_cases c' : 2128 < y'
    · rw [if_pos c', abs_le]
      norm_num
      constructor <;> linarith
    · rw [if_neg c', abs_le]
      norm_num
      constructor <;> linarith

theorem row_start {j : ℕ} {y : ℝ} (h0 : -4000 ≤ y) (h : j = 0 ∨ ((rowAt j).1 : ℝ) ≤ y) : ((rowAt j).1 : ℝ) ≤ y := by
  rcases h with rfl | h
  · have : (rowAt 0).1 = -4000 := rfl
    rw [this]; norm_num; exact h0
  · exact h

/-- from -4000 to 3000 the difference changes in less than a year by at most a minute per year and 4.5 s -/
theorem dtV_slow {y y' : ℝ} (h0 : -4000 ≤ y) (h : y ≤ y') (h1 : y' ≤ y + 1) (h2 : y' ≤ 3000) : |dtV y' - dtV y| ≤ 60 * (y' - y) + 9 / 2 := by
  by_cases c' : y' < 2028
  · obtain ⟨j, hj, a1, b1, e1⟩ := dtCalcR_row y (by linarith)
    obtain ⟨j', hj', a2, b2, e2⟩ := dtCalcR_row y' c'
    rw [dtV_eq e1, dtV_eq e2]
    have a1' := row_start h0 a1
    have a2' := row_start (h0.trans h) a2
    rcases lt_trichotomy j' j with hlt | heq | hgt
    · have := row_mono j' hj' j hj hlt
      have : ((rowAt j').2.2.2.2.2.1 : ℝ) ≤ ((rowAt j).1 : ℝ) := by exact_mod_cast this
      linarith
    · subst heq
      have := valR_lip hj a1' b1.le a2' b2.le
      rw [abs_of_nonneg (show 0 ≤ y' - y by linarith)] at this
      linarith
    · by_cases h3 : j' = j + 1
      · subst h3
        obtain ⟨n1, n2⟩ := row_next j (by omega)
        obtain ⟨w, -⟩ := row_facts j hj
        have w' : (5 : ℝ) ≤ ((rowAt j).2.2.2.2.2.1 : ℝ) - ((rowAt j).1 : ℝ) := by exact_mod_cast w
        obtain ⟨w2, -⟩ := row_facts (j + 1) hj'
        have w2' : (5 : ℝ) ≤ ((rowAt (j + 1)).2.2.2.2.2.1 : ℝ) - ((rowAt (j + 1)).1 : ℝ) := by exact_mod_cast w2
        have q1 := valR_lip hj a1' b1.le (y' := ((rowAt j).2.2.2.2.2.1 : ℝ)) (by linarith) le_rfl
        have q2 := valR_end hj
        have q3 := valR_lip hj' (y := ((rowAt (j + 1)).1 : ℝ)) (y' := y') le_rfl (by linarith) a2' b2.le
        rw [valR_start, n1, n2] at q3
        rw [n1] at a2'
        rw [abs_of_nonneg (show 0 ≤ ((rowAt j).2.2.2.2.2.1 : ℝ) - y by linarith)] at q1
        rw [abs_of_nonneg (show 0 ≤ y' - ((rowAt j).2.2.2.2.2.1 : ℝ) by linarith)] at q3
        rw [abs_le] at *
        constructor <;> linarith [q1.1, q1.2, q2.1, q2.2, q3.1, q3.2]
      · have := row_far j hj j' hj' (by omega)
        have : ((rowAt j).2.2.2.2.2.1 : ℝ) + 5 ≤ ((rowAt j').1 : ℝ) := by exact_mod_cast this
        linarith
  · push Not at c'
    by_cases c : y < 2028
    · obtain ⟨j, hj, a1, b1, e1⟩ := dtCalcR_row y c
      have a1' := row_start h0 a1
      have k := ext_slow (y := 2028) (y' := y') le_rfl c' h2
      have hv : dtV 2028 = 72.6 := by
        rw [dtV_eq (dtCalcR_ext 2028 le_rfl), if_neg (by norm_num)]; norm_num
      rw [hv] at k
      rw [dtV_eq e1]
      have h21 : j = 21 := by
        by_contra hne
        have := row_mono j hj 21 (by omega) (by omega)
        have t : (rowAt 21).1 = 2018 := rfl
        rw [t] at this
        have : ((rowAt j).2.2.2.2.2.1 : ℝ) ≤ 2018 := by exact_mod_cast this
        linarith
      subst h21
      have r1 : (rowAt 21).2.2.2.2.2.1 = 2028 := rfl
      have r2 : (rowAt 21).2.2.2.2.2.2 = 726 / 10 := rfl
      have q1 := valR_lip hj a1' b1.le (y' := ((rowAt 21).2.2.2.2.2.1 : ℝ)) (by rw [r1]; push_cast; linarith) le_rfl
      have q2 := valR_end hj
      rw [r1] at q1 q2
      rw [r2] at q2
      push_cast at q1 q2
      rw [abs_of_nonneg (show 0 ≤ 2028 - y by linarith)] at q1
      rw [abs_le] at *
      norm_num at *
      constructor <;> linarith [q1.1, q1.2, q2.1, q2.2, k.1, k.2]
    · have := ext_slow (not_lt.1 c) h h2
      linarith

/-- its size from -4000 to 3000 -/
theorem dtV_size {y : ℝ} (h0 : -4000 ≤ y) (h2 : y ≤ 3000) : |dtV y| ≤ 300000 := by
  by_cases c : y < 2028
  · obtain ⟨j, hj, a1, b1, e1⟩ := dtCalcR_row y c
    have a1' := row_start h0 a1
    rw [dtV_eq e1]
    obtain ⟨w, -, -, -, q⟩ := row_facts j hj
    have w' : (5 : ℝ) ≤ ((rowAt j).2.2.2.2.2.1 : ℝ) - ((rowAt j).1 : ℝ) := by exact_mod_cast w
    have q' : ((|(rowAt j).2.1| + 10 * |(rowAt j).2.2.1| + 100 * |(rowAt j).2.2.2.1| + 1000 * |(rowAt j).2.2.2.2.1| : ℚ) : ℝ) ≤ ((300000 : ℚ) : ℝ) := by exact_mod_cast q
    push_cast at q'
    obtain ⟨s, hs'⟩ : ∃ s, s = (y - (rowAt j).1) / (((rowAt j).2.2.2.2.2.1 : ℝ) - (rowAt j).1) * 10 := ⟨_, rfl⟩
    have s0 : 0 ≤ s := by rw [hs']; exact mul_nonneg (div_nonneg (by linarith) (by linarith)) (by norm_num)
    have s1 : s ≤ 10 := by
      have : (y - (rowAt j).1) / (((rowAt j).2.2.2.2.2.1 : ℝ) - (rowAt j).1) ≤ 1 := by rw [div_le_one (by linarith)]; linarith
      rw [hs']; linarith
    unfold valR cubicR
    simp only
    rw [← hs']
    refine le_trans ?_ q'
    refine (abs_add_le _ _).trans (add_le_add ((abs_add_le _ _).trans (add_le_add ((abs_add_le _ _).trans (add_le_add le_rfl ?_)) ?_)) ?_)
    · rw [abs_mul, abs_of_nonneg s0, mul_comm]; exact mul_le_mul_of_nonneg_right s1 (abs_nonneg _)
    · rw [abs_mul, abs_of_nonneg (show 0 ≤ s * s by positivity), mul_comm]
      exact mul_le_mul_of_nonneg_right (by nlinarith) (abs_nonneg _)
    · rw [abs_mul, abs_of_nonneg (show 0 ≤ s * s * s by positivity), mul_comm]
      have : s * s ≤ 100 := by nlinarith
      exact mul_le_mul_of_nonneg_right (by nlinarith) (abs_nonneg _)
  · rw [dtV_eq (dtCalcR_ext y (not_lt.1 c))]
    push Not at c
    have e : ∀ y : ℝ, dtExtR y 31 = -20 + 31 * ((y - 1820) / 100) ^ 2 := fun y => by unfold dtExtR; ring
    rw [e, e]
    have k0 : 0 ≤ ((y - 1820) / 100) ^ 2 := sq_nonneg _
    have k1 : ((y - 1820) / 100) ^ 2 ≤ 12 ^ 2 := pow_le_pow_left₀ (by linarith) (by linarith) 2
    by_cases c' : 2128 < y
    · rw [if_pos c', abs_le]; constructor <;> linarith
    · rw [if_neg c', abs_le]
      push Not at c'
      norm_num at k1 ⊢
      constructor <;> linarith

theorem row_modern : ∀ j < 22, 1950 ≤ (rowAt j).2.2.2.2.2.1 → |(rowAt j).2.1| + 10 * |(rowAt j).2.2.1| + 100 * |(rowAt j).2.2.2.1| + 1000 * |(rowAt j).2.2.2.2.1| ≤ 4000 := by
  decide +kernel

/-- size of the correction in modern times -/
theorem dtV_modern {y : ℝ} (h0 : 1950 ≤ y) (h2 : y ≤ 2500) : |dtV y| ≤ 4000 := by
  by_cases c : y < 2028
  · obtain ⟨j, hj, a1, b1, e1⟩ := dtCalcR_row y c
    have a1' := row_start (by linarith) a1
    rw [dtV_eq e1]
    obtain ⟨w, -, -, -, -⟩ := row_facts j hj
    have q := row_modern j hj (by have : (1950 : ℝ) ≤ ((rowAt j).2.2.2.2.2.1 : ℝ) := by linarith
                                  exact_mod_cast this)
    have w' : (5 : ℝ) ≤ ((rowAt j).2.2.2.2.2.1 : ℝ) - ((rowAt j).1 : ℝ) := by exact_mod_cast w
    have q' : ((|(rowAt j).2.1| + 10 * |(rowAt j).2.2.1| + 100 * |(rowAt j).2.2.2.1| + 1000 * |(rowAt j).2.2.2.2.1| : ℚ) : ℝ) ≤ ((4000 : ℚ) : ℝ) := by exact_mod_cast q
    push_cast at q'
    obtain ⟨s, hs'⟩ : ∃ s, s = (y - (rowAt j).1) / (((rowAt j).2.2.2.2.2.1 : ℝ) - (rowAt j).1) * 10 := ⟨_, rfl⟩
    have s0 : 0 ≤ s := by rw [hs']; exact mul_nonneg (div_nonneg (by linarith) (by linarith)) (by norm_num)
    have s1 : s ≤ 10 := by
      have : (y - (rowAt j).1) / (((rowAt j).2.2.2.2.2.1 : ℝ) - (rowAt j).1) ≤ 1 := by rw [div_le_one (by linarith)]; linarith
      rw [hs']; linarith
    unfold valR cubicR
    simp only
    rw [← hs']
    refine le_trans ?_ q'
    refine (abs_add_le _ _).trans (add_le_add ((abs_add_le _ _).trans (add_le_add ((abs_add_le _ _).trans (add_le_add le_rfl ?_)) ?_)) ?_)
    · rw [abs_mul, abs_of_nonneg s0, mul_comm]; exact mul_le_mul_of_nonneg_right s1 (abs_nonneg _)
    · rw [abs_mul, abs_of_nonneg (show 0 ≤ s * s by positivity), mul_comm]
      exact mul_le_mul_of_nonneg_right (by nlinarith) (abs_nonneg _)
    · rw [abs_mul, abs_of_nonneg (show 0 ≤ s * s * s by positivity), mul_comm]
      have : s * s ≤ 100 := by nlinarith
      exact mul_le_mul_of_nonneg_right (by nlinarith) (abs_nonneg _)
  · rw [dtV_eq (dtCalcR_ext y (not_lt.1 c))]
    push Not at c
    have e : ∀ y : ℝ, dtExtR y 31 = -20 + 31 * ((y - 1820) / 100) ^ 2 := fun y => by unfold dtExtR; ring
    rw [e, e]
    have k0 : 0 ≤ ((y - 1820) / 100) ^ 2 := sq_nonneg _
    have k1 : ((y - 1820) / 100) ^ 2 ≤ 7 ^ 2 := pow_le_pow_left₀ (by linarith) (by linarith) 2
    by_cases c' : 2128 < y
    · rw [if_pos c', abs_le]; constructor <;> linarith
    · rw [if_neg c', abs_le]
      push Not at c'
      norm_num at k1 ⊢
      constructor <;> linarith

/-- it is never very negative -/
theorem dtV_low (y : ℝ) : -300000 ≤ dtV y := by
  by_cases h0 : -4000 ≤ y
  · by_cases h2 : y ≤ 3000
    · exact (abs_le.1 (dtV_size h0 h2)).1
    · push Not at h2
      rw [dtV_eq (dtCalcR_ext y (by linarith)), if_pos (by linarith)]
      have e : dtExtR y 31 = -20 + 31 * ((y - 1820) / 100) ^ 2 := by unfold dtExtR; ring
      rw [e]
      nlinarith [sq_nonneg ((y - 1820) / 100)]
  · push Not at h0
    obtain ⟨j, hj, a1, b1, e1⟩ := dtCalcR_row y (by linarith)
    rw [dtV_eq e1]
    have hz : j = 0 := by
      rcases a1 with h | h
      · exact h
      · by_contra hne
        have := row_mono 0 (by omega) j hj (by omega)
        have t : (rowAt 0).2.2.2.2.2.1 = -500 := rfl
        rw [t] at this
        have : (-500 : ℝ) ≤ ((rowAt j).1 : ℝ) := by exact_mod_cast this
        linarith
    subst hz
    have r : rowAt 0 = (-4000, 1083717/10, -1303680/100, 392000/1000, 0, -500, 172010/10) := rfl
    unfold valR cubicR
    rw [r]
    obtain ⟨s, hs⟩ : ∃ s, s = (y - -4000) / (-500 - -4000) * 10 := ⟨_, rfl⟩
    have s0 : s ≤ 0 := by rw [hs]; norm_num; linarith
    push_cast
    rw [← hs]
    nlinarith [mul_self_nonneg s]

/-- `dt_T` as a number of days -/
noncomputable def dtDays (t : ℝ) : ℝ := dtV (t / 365.2425 + 2000) / 86400

theorem dtTR_days (t : ℝ) : dtTR t = some (dtDays t) := by
  unfold dtTR dtDays
  rw [dtCalcR_dtV]
  rfl

theorem dtDays_low (t : ℝ) : -36525 ≤ dtDays t := by
  have := dtV_low (t / 365.2425 + 2000)
  unfold dtDays
  rw [le_div_iff₀ (by norm_num)]
  linarith

/-- from 30 centuries before 2000 to almost 10 after it the correction changes by less than 38 s in 200 days -/
theorem dtDays_slow {x y : ℝ} (hx : -1100000 ≤ x) (hx' : x ≤ 365000) (hy : -1100000 ≤ y) (hy' : y ≤ 365000) (h : |y - x| ≤ 200) :
    |dtDays y - dtDays x| * 86400 ≤ 38 := by
  have key : ∀ {x y : ℝ}, -1100000 ≤ x → y ≤ 365000 → x ≤ y → y - x ≤ 200 → |dtDays y - dtDays x| * 86400 ≤ 38 := by
    intro x y hx hy h1 h2
    have d : y / 365.2425 + 2000 - (x / 365.2425 + 2000) = (y - x) / 365.2425 := by ring
    have d1 : (y - x) / 365.2425 ≤ 0.5476 := by rw [div_le_iff₀ (by norm_num)]; norm_num; linarith
    have d0 : 0 ≤ (y - x) / 365.2425 := div_nonneg (by linarith) (by norm_num)
    have k := dtV_slow (y := x / 365.2425 + 2000) (y' := y / 365.2425 + 2000)
      (by have : (-1100000 : ℝ) / 365.2425 ≤ x / 365.2425 := by gcongr
          norm_num at this ⊢; linarith) (by linarith) (by norm_num at d1 ⊢; linarith)
      (by have : y / 365.2425 ≤ (365000 : ℝ) / 365.2425 := by gcongr
          norm_num at this ⊢; linarith)
    rw [d] at k
    unfold dtDays
    rw [← sub_div, abs_div, abs_of_pos (show (0 : ℝ) < 86400 by norm_num), div_mul_cancel₀ _ (by norm_num)]
    norm_num at d1 k ⊢
    linarith
  rcases le_total x y with h1 | h1
  · exact key hx hy' h1 ((le_abs_self _).trans h)
  · rw [abs_sub_comm]
    exact key hy hx' h1 (by rw [abs_sub_comm] at h; exact (le_abs_self _).trans h)

theorem dtDays_size {x : ℝ} (hx : -1100000 ≤ x) (hx' : x ≤ 365000) : |dtDays x| ≤ 3.5 := by
  have k := dtV_size (y := x / 365.2425 + 2000)
      (by have : (-1100000 : ℝ) / 365.2425 ≤ x / 365.2425 := by gcongr
          norm_num at this ⊢; linarith)
      (by have : x / 365.2425 ≤ (365000 : ℝ) / 365.2425 := by gcongr
          norm_num at this ⊢; linarith)
  unfold dtDays
  rw [abs_div, abs_of_pos (show (0 : ℝ) < 86400 by norm_num), div_le_iff₀ (by norm_num)]
  norm_num at k ⊢
  linarith

/-- at most 0.1 day from 1959 to 2410 -/
theorem dtDays_modern {x : ℝ} (hx : -15000 ≤ x) (hx' : x ≤ 150000) : |dtDays x| ≤ 0.1 := by
  have k := dtV_modern (y := x / 365.2425 + 2000)
      (by have : (-15000 : ℝ) / 365.2425 ≤ x / 365.2425 := by gcongr
          norm_num at this ⊢; linarith)
      (by have : x / 365.2425 ≤ (150000 : ℝ) / 365.2425 := by gcongr
          norm_num at this ⊢; linarith)
  unfold dtDays
  rw [abs_div, abs_of_pos (show (0 : ℝ) < 86400 by norm_num), div_le_iff₀ (by norm_num)]
  norm_num at k ⊢
  linarith

end Verif.DeltaT
