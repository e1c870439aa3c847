import Verif.Props.LonNear

/-!
# The series of the Earth's longitude with the built-in table (used by C74)
-/

namespace Verif.Longitude

open Real Verif.Series Verif.EphTab

/-! ## Series with integer data -/

abbrev T3 := ℤ × ℤ × ℤ

def trip : List ℤ → List T3
  | a :: b :: c :: r => (a, b, c) :: trip r
  | _ => []

noncomputable def dec3 (q : T3) : ℝ × ℝ × ℝ := (dec q.1, dec q.2.1, dec q.2.2)

theorem triples_map : ∀ l : List ℤ, triples (l.map dec) = (trip l).map dec3
  | [] => rfl
  | [_] => rfl
  | [_, _] => rfl
  | a :: b :: c :: r => by
    simp only [List.map_cons, triples, trip, dec3]
    rw [triples_map r]

def ampI (l : List T3) : ℕ := (l.map (fun q => q.1.natAbs)).sum
def spdI (l : List T3) : ℕ := (l.map (fun q => q.1.natAbs * q.2.2.natAbs)).sum

/-- the sum of the terms -/
noncomputable def ser (l : List T3) (t : ℝ) : ℝ := series t (l.map dec3)

theorem ser_nil (t : ℝ) : ser [] t = 0 := by simp [ser, series]
theorem ser_cons (q : T3) (l : List T3) (t : ℝ) : ser (q :: l) t = dec q.1 * cos (dec q.2.1 + t * dec q.2.2) + ser l t := by
  simp [ser, series, dec3]
theorem ser_append (l m : List T3) (t : ℝ) : ser (l ++ m) t = ser l t + ser m t := by simp [ser, series]

theorem abs_dec (n : ℤ) : |dec n| = (n.natAbs : ℝ) / 10 ^ 9 := by
  rw [dec, abs_div, abs_of_pos (show (0 : ℝ) < 10 ^ 9 by positivity), Nat.cast_natAbs, Int.cast_abs]

theorem ser_bd (l : List T3) (t : ℝ) : |ser l t| ≤ (ampI l : ℝ) / 10 ^ 9 := by
  induction l with
  | nil => simp [ser_nil, ampI]
  | cons q l ih =>
    rw [ser_cons]
    have e : ((ampI (q :: l) : ℕ) : ℝ) / 10 ^ 9 = (q.1.natAbs : ℝ) / 10 ^ 9 + (ampI l : ℝ) / 10 ^ 9 := by
      simp only [ampI, List.map_cons, List.sum_cons, Nat.cast_add]; ring
    rw [e]
    refine (abs_add_le _ _).trans (add_le_add ?_ ih)
    rw [abs_mul, abs_dec]
    exact mul_le_of_le_one_right (by positivity) (abs_cos_le_one _)

theorem ser_lip (l : List T3) (s t : ℝ) : |ser l t - ser l s| ≤ (spdI l : ℝ) / 10 ^ 18 * |t - s| := by
  induction l with
  | nil => simp [ser_nil, spdI]
  | cons q l ih =>
    rw [ser_cons, ser_cons]
    have e : ((spdI (q :: l) : ℕ) : ℝ) / 10 ^ 18 = (q.1.natAbs : ℝ) / 10 ^ 9 * ((q.2.2.natAbs : ℝ) / 10 ^ 9) + (spdI l : ℝ) / 10 ^ 18 := by
      simp only [spdI, List.map_cons, List.sum_cons, Nat.cast_add, Nat.cast_mul]; ring
    rw [e, add_mul]
    rw [show dec q.1 * cos (dec q.2.1 + t * dec q.2.2) + ser l t - (dec q.1 * cos (dec q.2.1 + s * dec q.2.2) + ser l s)
      = dec q.1 * (cos (dec q.2.1 + t * dec q.2.2) - cos (dec q.2.1 + s * dec q.2.2)) + (ser l t - ser l s) by ring]
    refine (abs_add_le _ _).trans (add_le_add ?_ ih)
    rw [abs_mul, abs_dec, mul_assoc]
    refine mul_le_mul_of_nonneg_left ((abs_cos_sub_cos _ _).trans (le_of_eq ?_)) (by positivity)
    rw [show dec q.2.1 + t * dec q.2.2 - (dec q.2.1 + s * dec q.2.2) = dec q.2.2 * (t - s) by ring, abs_mul, abs_dec]

theorem ampI_take (l : List T3) (k : ℕ) : ampI (l.take k) ≤ ampI l := by
  induction l generalizing k with
  | nil => simp [ampI]
  | cons q l ih =>
    cases k with
    | zero => simp [ampI]
    | succ k => have := ih k; simp only [ampI, List.take_succ_cons, List.map_cons, List.sum_cons] at *; omega
theorem spdI_take (l : List T3) (k : ℕ) : spdI (l.take k) ≤ spdI l := by
  induction l generalizing k with
  | nil => simp [spdI]
  | cons q l ih =>
    cases k with
    | zero => simp [spdI]
    | succ k => have := ih k; simp only [spdI, List.take_succ_cons, List.map_cons, List.sum_cons] at *; omega

/-! ## The Earth -/

/-- the terms of order `i` of the longitude -/
def eT (i : ℕ) : List T3 := trip ((x0I.drop (start 0 0 i)).take (start 0 0 (i + 1) - start 0 0 i))

/-- the part of order `i` when the first `k` terms are used -/
noncomputable def ordE (i k : ℕ) (t : ℝ) : ℝ := (t / 10) ^ i * ser ((eT i).take k) (t / 10)

/-- the correction — eph0.cpp:407-415 -/
noncomputable def corrE (t : ℝ) : ℝ := (-0.0728 - 2.7702 * (t / 10) - 1.1019 * (t / 10 * (t / 10)) - 0.0996 * (t / 10 * (t / 10) * (t / 10))) / radSec

/-- how many terms of order `i` are used -/
def useE (n : ℤ) (i : ℕ) : ℕ := used n (eT 0).length (eT i).length i

theorem x0_layout : Layout 0 (x0I.map dec) := by
  refine ⟨by rw [List.length_map]; decide +kernel, fun k hk => ?_⟩
  have h : ∀ k < 19, x0I[k + 1]? = (index[0]?.bind (fun l => l[k]?)).map (fun (n : ℤ) => n * 10 ^ 9) := by decide +kernel
  rw [List.getElem?_map, h k hk, Option.map_map]
  congr 1
  funext n
  simp [dec]
  norm_num

/-- `E_Lon` with the built-in table -/
theorem eLon_eq (b : Tab) (hb : Builtin b) (t : ℝ) (n : ℤ) (hn : n ≤ 600000) :
    eLon b t n = some ((ordE 0 (useE n 0) t + ordE 1 (useE n 1) t + ordE 2 (useE n 2) t + ordE 3 (useE n 3) t + ordE 4 (useE n 4) t
      + ordE 5 (useE n 5) t) / 10 ^ 10 + corrE t) := by
  have hX' : ∀ k < 8, ∃ F, (x0I.map dec :: (List.range 7).map (fun k => demoTable (k + 1)))[k]? = some F ∧ Layout k F := by
    intro k hk
    match k with
    | 0 => exact ⟨_, rfl, x0_layout⟩
    | k + 1 =>
      refine ⟨demoTable (k + 1), ?_, demo_layout (k + 1) hk⟩
      rw [List.getElem?_cons_succ, List.getElem?_map, List.getElem?_range (by omega)]
      rfl
  obtain ⟨F, f0, q, hF, hf0, hq, h⟩ := c51_planets _ (List.replicate 21 0) (by simp) hX' 0 0 (by omega) (by omega) t n hn
  have hF' : F = x0I.map dec := by simpa using hF.symm
  subst hF'
  have hf0' : f0 = 10 ^ 10 := by
    rw [List.getElem?_map, show x0I[0]? = some (10 ^ 19) by decide +kernel] at hf0
    simp only [Option.map_some, Option.some.injEq] at hf0
    rw [← hf0, dec]
    norm_num
  have hq' : q = corrE t := by
    unfold xl0Corr at hq
    simp only [Nat.cast_zero, if_true, Option.some.injEq] at hq
    rw [← hq, corrE]
  have hterms : ∀ i, orderTerms (x0I.map dec) 0 0 i = (eT i).map dec3 := by
    intro i
    rw [orderTerms, eT, ← List.map_drop, ← List.map_take, triples_map]
  have hcalc : eLon b t n = xl0Calc (x0I.map dec :: (List.range 7).map (fun k => demoTable (k + 1))) (List.replicate 21 0) 0 0 t n := by
    unfold eLon xl0Calc
    have h0 : b.X[(0 : ℤ).toNat]? = some (x0I.map dec) := hb.1
    have h1 : (x0I.map dec :: (List.range 7).map (fun k => demoTable (k + 1)))[(0 : ℤ).toNat]? = some (x0I.map dec) := rfl
    have h2 : ∀ xzb t', xl0Corr xzb 0 0 t' = xl0Corr [] 0 0 t' := fun xzb t' => by unfold xl0Corr; simp
    simp only [le_refl, if_true, h0, h1, h2]
  rw [hcalc]
  simp only [Nat.cast_zero] at h
  rw [h, hf0', hq']
  simp only [hterms, List.length_map, ← List.map_take, Finset.sum_range_succ, Finset.sum_range_zero, zero_add]
  rfl

/-! ## Bounds -/

/-- the part of order `i` of a list of terms -/
noncomputable def ordL (i : ℕ) (l : List T3) (t : ℝ) : ℝ := (t / 10) ^ i * ser l (t / 10)

theorem tenth {t : ℝ} (h : |t| ≤ 30) : |t / 10| ≤ 3 := by
  rw [abs_div, show |(10 : ℝ)| = 10 by norm_num]; linarith

theorem ordL_bd (i : ℕ) (l : List T3) : Bd 30 (ordL i l) (3 ^ i * ((ampI l : ℝ) / 10 ^ 9)) := fun t ht => by
  unfold ordL
  rw [abs_mul, abs_pow]
  exact mul_le_mul (pow_le_pow_left₀ (abs_nonneg _) (tenth ht) i) (ser_bd l _) (abs_nonneg _) (by positivity)

theorem ordL_lip (i : ℕ) (l : List T3) : Lip 30 (ordL i l) ((3 ^ i * ((spdI l : ℝ) / 10 ^ 18) + i * 3 ^ (i - 1) * ((ampI l : ℝ) / 10 ^ 9)) / 10) := by
  have h : Lip 3 (fun x => x ^ i * ser l x) (3 ^ i * ((spdI l : ℝ) / 10 ^ 18) + i * 3 ^ (i - 1) * ((ampI l : ℝ) / 10 ^ 9)) :=
    (Lip.pow (by norm_num) i).mul (fun s t _ _ => ser_lip l s t) (Bd.pow (by norm_num) i) (fun t _ => ser_bd l t)
  intro s t hs ht
  have := h (s / 10) (t / 10) (tenth hs) (tenth ht)
  rw [show t / 10 - s / 10 = (t - s) / 10 by ring, abs_div, show |(10 : ℝ)| = 10 by norm_num] at this
  unfold ordL
  linarith

theorem ordL_append (i : ℕ) (l m : List T3) (t : ℝ) : ordL i (l ++ m) t = ordL i l t + ordL i m t := by
  unfold ordL; rw [ser_append]; ring

/-- the built-in data: counts, sums of amplitudes and of speeds -/
theorem eT_length : (eT 0).length = 186 ∧ (eT 1).length = 114 ∧ (eT 2).length = 60 ∧ (eT 3).length = 8 ∧ (eT 4).length = 4 ∧ (eT 5).length = 4 := by
  decide +kernel
theorem eT_head0 : (eT 0).take 3 = [(17534704567000000000, 0, 0), (334165646000000000, 4669256804, 6283075849991), (3489428000000000, 4626102400, 12566151700000)] := by
  decide +kernel
theorem eT_head1 : (eT 1).take 2 = [(62833196674749000000000, 0, 0), (20605886000000000, 2678234560, 6283075849990)] := by decide +kernel
theorem eT_head2 : (eT 2).take 2 = [(5291887000000000, 0, 0), (871984000000000, 1072097000, 6283075850000)] := by decide +kernel
theorem eT_head01 : (eT 0).take 1 = [(17534704567000000000, 0, 0)] := by decide +kernel
theorem eT_head11 : (eT 1).take 1 = [(62833196674749000000000, 0, 0)] := by decide +kernel
theorem eT_spd : spdI ((eT 0).drop 3) ≤ 39608856408000633000000000000 ∧ spdI ((eT 1).drop 2) ≤ 5908543323544560000000000000
    ∧ spdI ((eT 2).drop 2) ≤ 520861233723400000000000000 ∧ spdI (eT 3) ≤ 204284101605950000000000000
    ∧ spdI (eT 4) ≤ 5824655862000000000000000 ∧ spdI (eT 5) ≤ 145287910000000000000000 := by
  decide +kernel
theorem eT_amp : ampI ((eT 0).drop 1) ≤ 340629577000000000 ∧ ampI ((eT 1).drop 1) ≤ 21193360000000000
    ∧ ampI (eT 2) ≤ 6209358000000000 ∧ ampI ((eT 1).drop 2) ≤ 587474000000000
    ∧ ampI ((eT 2).drop 2) ≤ 45487000000000 ∧ ampI (eT 3) ≤ 34701000000000
    ∧ ampI (eT 4) ≤ 12299000000000 ∧ ampI (eT 5) ≤ 113000000000 := by
  decide +kernel

theorem take_split {α : Type} (l : List α) {j k : ℕ} (h : j ≤ k) : l.take k = l.take j ++ (l.drop j).take (k - j) := by
  have := List.take_append_drop j (l.take k)
  rw [List.take_take, List.drop_take, Nat.min_eq_left h] at this
  exact this.symm

/-- the longitude of the Earth as a real function; `n` terms -/
noncomputable def eR (n : ℤ) (t : ℝ) : ℝ :=
  (ordL 0 ((eT 0).take (useE n 0)) t + ordL 1 ((eT 1).take (useE n 1)) t + ordL 2 ((eT 2).take (useE n 2)) t
    + ordL 3 ((eT 3).take (useE n 3)) t + ordL 4 ((eT 4).take (useE n 4)) t + ordL 5 ((eT 5).take (useE n 5)) t) / 10 ^ 10 + corrE t

theorem eLon_eR (b : Tab) (hb : Builtin b) (t : ℝ) (n : ℤ) (hn : n ≤ 600000) : eLon b t n = some (eR n t) := eLon_eq b hb t n hn

theorem radSec_gt : 206264 < radSec := by
  unfold radSec
  rw [lt_div_iff₀ pi_pos]
  have := pi_lt_d6
  norm_num at *; linarith
theorem radSec_lt : radSec < 206265 := by
  unfold radSec
  rw [div_lt_iff₀ pi_pos]
  have := pi_gt_d6
  norm_num at *; linarith

theorem corrE_bd : Bd 30 corrE 0.00011 := by
  intro t ht
  have hr := radSec_gt
  obtain ⟨x, hx⟩ : ∃ x, x = t / 10 := ⟨_, rfl⟩
  have h1 : |x| ≤ 3 := by rw [hx]; exact tenth ht
  unfold corrE
  rw [← hx, abs_div, abs_of_pos (by linarith : 0 < radSec), div_le_iff₀ (by linarith)]
  have h2 : |x * x| ≤ 9 := by rw [abs_mul]; nlinarith [abs_nonneg x]
  have h3 : |x * x * x| ≤ 27 := by rw [abs_mul]; nlinarith [abs_nonneg x, abs_nonneg (x * x)]
  rw [abs_le] at *
  constructor <;> norm_num at * <;> linarith

theorem corrE_lip : Lip 30 corrE 0.00001 := by
  intro s t hs ht
  have hr := radSec_gt
  obtain ⟨x, ex⟩ : ∃ x, x = t / 10 := ⟨_, rfl⟩
  obtain ⟨y, ey⟩ : ∃ y, y = s / 10 := ⟨_, rfl⟩
  have hx : |x| ≤ 3 := by rw [ex]; exact tenth ht
  have hy : |y| ≤ 3 := by rw [ey]; exact tenth hs
  unfold corrE
  rw [← ex, ← ey]
  rw [show t - s = 10 * (x - y) by rw [ex, ey]; ring, abs_mul, show |(10 : ℝ)| = 10 by norm_num]
  rw [← sub_div, abs_div, abs_of_pos (by linarith : 0 < radSec), div_le_iff₀ (by linarith)]
  rw [show -0.0728 - 2.7702 * x - 1.1019 * (x * x) - 0.0996 * (x * x * x) - (-0.0728 - 2.7702 * y - 1.1019 * (y * y) - 0.0996 * (y * y * y))
    = -(2.7702 + 1.1019 * (x + y) + 0.0996 * (x * x + x * y + y * y)) * (x - y) by ring, abs_mul, abs_neg]
  have b1 : |x * x| ≤ 9 := by rw [abs_mul]; nlinarith [abs_nonneg x]
  have b2 : |y * y| ≤ 9 := by rw [abs_mul]; nlinarith [abs_nonneg y]
  have b3 : |x * y| ≤ 9 := by rw [abs_mul]; nlinarith [abs_nonneg y, abs_nonneg x]
  have h13 : |2.7702 + 1.1019 * (x + y) + 0.0996 * (x * x + x * y + y * y)| ≤ 13 := by
    rw [abs_le] at *
    constructor <;> norm_num at * <;> linarith
  have h0 := abs_nonneg (x - y)
  have h5 := mul_le_mul_of_nonneg_right h13 h0
  have h4 := mul_le_mul_of_nonneg_left hr.le h0
  refine h5.trans ?_
  norm_num
  linarith

/-- a term of the model speed against a term of the derivative -/
theorem match_speed {A V x y d e : ℝ} (hV : 0 ≤ V) (h1 : |A - V| ≤ d) (h2 : |x + π - y| ≤ e) : |-(A * sin x) - V * sin y| ≤ d + V * e := by
  have e1 : -(A * sin x) - V * sin y = (A - V) * sin (x + π) + V * (sin (x + π) - sin y) := by rw [sin_add_pi]; ring
  rw [e1]
  refine (abs_add_le _ _).trans (add_le_add ?_ ?_)
  · rw [abs_mul]
    have := mul_le_mul h1 (abs_sin_le_one (x + π)) (abs_nonneg _) ((abs_nonneg _).trans h1)
    linarith
  · rw [abs_mul, abs_of_nonneg hV]
    exact mul_le_mul_of_nonneg_left ((abs_sin_sub_sin _ _).trans h2) hV

end Verif.Longitude
