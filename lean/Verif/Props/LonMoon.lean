import Verif.Props.LonNut

/-!
# The series of the moon's longitude with the built-in table (used by C75)
-/

namespace Verif.Longitude

open Real Verif.Series Verif.EphTab

/-! ## Series with integer data -/

abbrev T6 := ℤ × ℤ × ℤ × ℤ × ℤ × ℤ

def sext : List ℤ → List T6
  | a :: b :: c :: d :: e :: f :: r => (a, b, c, d, e, f) :: sext r
  | _ => []

noncomputable def dec6 (q : T6) : ℝ × ℝ × ℝ × ℝ × ℝ × ℝ := (dec q.1, dec q.2.1, dec q.2.2.1, dec q.2.2.2.1, dec q.2.2.2.2.1, dec q.2.2.2.2.2)

theorem sextuples_map : ∀ l : List ℤ, sextuples (l.map dec) = (sext l).map dec6
  | [] => rfl
  | [_] => rfl
  | [_, _] => rfl
  | [_, _, _] => rfl
  | [_, _, _, _] => rfl
  | [_, _, _, _, _] => rfl
  | a :: b :: c :: d :: e :: f :: r => by
    simp only [List.map_cons, sextuples, sext, dec6]
    rw [sextuples_map r]

/-- the phase of a term -/
noncomputable def ph (b w x y z t : ℝ) : ℝ := b + t * w + t * t / 1e4 * x + t * t * t / 1e8 * y + t * t * t * t / 1e8 * z

theorem ph_lip {R : ℝ} (hR : 0 ≤ R) (b w x y z : ℝ) {s t : ℝ} (hs : |s| ≤ R) (ht : |t| ≤ R) :
    |ph b w x y z t - ph b w x y z s - w * (t - s)| ≤ (2 * R * |x| / 1e4 + 3 * R ^ 2 * |y| / 1e8 + 4 * R ^ 3 * |z| / 1e8) * |t - s| := by
  have e : ph b w x y z t - ph b w x y z s - w * (t - s)
      = (t ^ 2 - s ^ 2) * (x / 1e4) + (t ^ 3 - s ^ 3) * (y / 1e8) + (t ^ 4 - s ^ 4) * (z / 1e8) := by unfold ph; ring
  have p2 := Lip.pow hR 2 s t hs ht
  have p3 := Lip.pow hR 3 s t hs ht
  have p4 := Lip.pow hR 4 s t hs ht
  norm_num at p2 p3 p4
  rw [e]
  refine (abs_add_three _ _ _).trans ?_
  rw [abs_mul, abs_mul, abs_mul, abs_div, abs_div, abs_div, abs_of_pos (show (0 : ℝ) < 1e4 by norm_num), abs_of_pos (show (0 : ℝ) < 1e8 by norm_num)]
  have h2 := mul_le_mul_of_nonneg_right p2 (show 0 ≤ |x| / 1e4 by positivity)
  have h3 := mul_le_mul_of_nonneg_right p3 (show 0 ≤ |y| / 1e8 by positivity)
  have h4 := mul_le_mul_of_nonneg_right p4 (show 0 ≤ |z| / 1e8 by positivity)
  refine (add_le_add (add_le_add h2 h3) h4).trans (le_of_eq ?_)
  ring

/-- the sum of the terms -/
noncomputable def ser6 (l : List T6) (t : ℝ) : ℝ := moonSeries t (l.map dec6)

theorem ser6_nil (t : ℝ) : ser6 [] t = 0 := by simp [ser6, moonSeries]
theorem ser6_cons (q : T6) (l : List T6) (t : ℝ) : ser6 (q :: l) t
    = dec q.1 * cos (ph (dec q.2.1) (dec q.2.2.1) (dec q.2.2.2.1) (dec q.2.2.2.2.1) (dec q.2.2.2.2.2) t) + ser6 l t := by
  unfold ser6 moonSeries
  rw [List.map_cons, List.map_cons, List.sum_cons]
  congr 3
  simp only [dec6, ph]
  norm_num
  ring
theorem ser6_append (l m : List T6) (t : ℝ) : ser6 (l ++ m) t = ser6 l t + ser6 m t := by simp [ser6, moonSeries]

def amp6 (l : List T6) : ℕ := (l.map (fun q => q.1.natAbs)).sum
/-- the sum of the speeds for `|t| ≤ 30`, in units of `10⁻²⁶` -/
def spd6 (l : List T6) : ℕ := (l.map (fun q => q.1.natAbs * (10 ^ 8 * q.2.2.1.natAbs + 600000 * q.2.2.2.1.natAbs + 2700 * q.2.2.2.2.1.natAbs
  + 108000 * q.2.2.2.2.2.natAbs))).sum

theorem ser6_bd (l : List T6) (t : ℝ) : |ser6 l t| ≤ (amp6 l : ℝ) / 10 ^ 9 := by
  induction l with
  | nil => simp [ser6_nil, amp6]
  | cons q l ih =>
    rw [ser6_cons]
    have e : ((amp6 (q :: l) : ℕ) : ℝ) / 10 ^ 9 = (q.1.natAbs : ℝ) / 10 ^ 9 + (amp6 l : ℝ) / 10 ^ 9 := by
      simp only [amp6, List.map_cons, List.sum_cons, Nat.cast_add]; ring
    rw [e]
    refine (abs_add_le _ _).trans (add_le_add ?_ ih)
    rw [abs_mul, abs_dec]
    exact mul_le_of_le_one_right (by positivity) (abs_cos_le_one _)

theorem ser6_lip (l : List T6) : Lip 30 (ser6 l) ((spd6 l : ℝ) / 10 ^ 26) := by
  intro s t hs ht
  induction l with
  | nil => simp [ser6_nil, spd6]
  | cons q l ih =>
    rw [ser6_cons, ser6_cons]
    have e : ((spd6 (q :: l) : ℕ) : ℝ) / 10 ^ 26 = (q.1.natAbs : ℝ) / 10 ^ 9 * ((q.2.2.1.natAbs : ℝ) / 10 ^ 9
        + (2 * 30 * ((q.2.2.2.1.natAbs : ℝ) / 10 ^ 9) / 1e4 + 3 * 30 ^ 2 * ((q.2.2.2.2.1.natAbs : ℝ) / 10 ^ 9) / 1e8 + 4 * 30 ^ 3 * ((q.2.2.2.2.2.natAbs : ℝ) / 10 ^ 9) / 1e8))
        + (spd6 l : ℝ) / 10 ^ 26 := by
      simp only [spd6, List.map_cons, List.sum_cons, Nat.cast_add, Nat.cast_mul]
      push_cast
      norm_num
      ring
    obtain ⟨P, hP⟩ : ∃ P : ℝ → ℝ, P = ph (dec q.2.1) (dec q.2.2.1) (dec q.2.2.2.1) (dec q.2.2.2.2.1) (dec q.2.2.2.2.2) := ⟨_, rfl⟩
    have hl := ph_lip (by norm_num) (dec q.2.1) (dec q.2.2.1) (dec q.2.2.2.1) (dec q.2.2.2.2.1) (dec q.2.2.2.2.2) hs ht
    rw [e, add_mul, ← hP]
    rw [← hP, abs_dec, abs_dec, abs_dec] at hl
    rw [show dec q.1 * cos (P t) + ser6 l t - (dec q.1 * cos (P s) + ser6 l s) = dec q.1 * (cos (P t) - cos (P s)) + (ser6 l t - ser6 l s) by ring]
    refine (abs_add_le _ _).trans (add_le_add ?_ ih)
    rw [abs_mul, abs_dec, mul_assoc]
    refine mul_le_mul_of_nonneg_left ((abs_cos_sub_cos _ _).trans ?_) (by positivity)
    have h2 := abs_add_le (P t - P s - dec q.2.2.1 * (t - s)) (dec q.2.2.1 * (t - s))
    rw [sub_add_cancel, abs_mul, abs_dec] at h2
    rw [add_mul]
    linarith

theorem amp6_take (l : List T6) (k : ℕ) : amp6 (l.take k) ≤ amp6 l := by
  induction l generalizing k with
  | nil => simp [amp6]
  | cons q l ih =>
    cases k with
    | zero => simp [amp6]
    | succ k => have := ih k; simp only [amp6, List.take_succ_cons, List.map_cons, List.sum_cons] at *; omega

/-- the part of order `i` -/
noncomputable def ordM (i : ℕ) (l : List T6) (t : ℝ) : ℝ := t ^ i * ser6 l t

theorem ordM_append (i : ℕ) (l m : List T6) (t : ℝ) : ordM i (l ++ m) t = ordM i l t + ordM i m t := by
  unfold ordM; rw [ser6_append]; ring
theorem ordM_bd {R : ℝ} (hR : 0 ≤ R) (i : ℕ) (l : List T6) : Bd R (ordM i l) (R ^ i * ((amp6 l : ℝ) / 10 ^ 9)) := fun t ht => by
  unfold ordM
  rw [abs_mul, abs_pow]
  exact mul_le_mul (pow_le_pow_left₀ (abs_nonneg _) ht i) (ser6_bd l _) (abs_nonneg _) (by positivity)
theorem ordM_lip {R : ℝ} (hR : 0 ≤ R) (hR30 : R ≤ 30) (i : ℕ) (l : List T6) :
    Lip R (ordM i l) (R ^ i * ((spd6 l : ℝ) / 10 ^ 26) + i * R ^ (i - 1) * ((amp6 l : ℝ) / 10 ^ 9)) :=
  (Lip.pow hR i).mul (fun s t hs ht => ser6_lip l s t (hs.trans hR30) (ht.trans hR30)) (Bd.pow hR i) (fun t _ => ser6_bd l t)

/-! ## The moon -/

def mT : ℕ → List T6
  | 0 => sext ml0I
  | 1 => sext ml1I
  | 2 => sext ml2I
  | 3 => sext ml3I
  | _ => []

def useM (n : ℤ) (i : ℕ) : ℕ := usedMoon n (mT 0).length (mT i).length i

/-- the longitude of the moon as a real function; `n` terms -/
noncomputable def mR (n : ℤ) (t : ℝ) : ℝ :=
  (moonMean t + (ordM 0 ((mT 0).take (useM n 0)) t + ordM 1 ((mT 1).take (useM n 1)) t + ordM 2 ((mT 2).take (useM n 2)) t
    + ordM 3 ((mT 3).take (useM n 3)) t)) / radSec

theorem ml_len : ml0I.length = 2652 ∧ ml1I.length = 894 ∧ ml2I.length = 204 ∧ ml3I.length = 12 := by decide +kernel

theorem mLon_mR (b : Tab) (hb : Builtin b) (t : ℝ) (n : ℤ) (hn1 : -357913941 ≤ n) (hn : n ≤ 130000) : mLon b t n = some (mR n t) := by
  obtain ⟨T, hT⟩ : ∃ T : List (List (List ℝ)), T = [[ml0I.map dec, ml1I.map dec, ml2I.map dec, ml3I.map dec],
    [List.replicate 1236 0, List.replicate 270 0, List.replicate 72 0], [List.replicate 1326 0, List.replicate 312 0, List.replicate 72 0]] := ⟨_, rfl⟩
  have hlen : T.map (fun ob => ob.map List.length) = moonLengths := by
    rw [hT]
    obtain ⟨l0, l1, l2, l3⟩ := ml_len
    simp only [List.map_cons, List.map_nil, List.length_map, List.length_replicate, l0, l1, l2, l3]
    rfl
  obtain ⟨ob, hob, -, h⟩ := c51_moon T hlen 0 (by omega) t n hn1 hn
  have hob' : ob = [ml0I.map dec, ml1I.map dec, ml2I.map dec, ml3I.map dec] := by rw [hT] at hob; exact (Option.some.inj hob).symm
  subst hob'
  have hcalc : mLon b t n = xl1Calc T moonLengths 0 t n := by
    unfold mLon xl1Calc
    have h0 : b.T[(0 : ℤ).toNat]? = some [ml0I.map dec, ml1I.map dec, ml2I.map dec, ml3I.map dec] := hb.2.1
    have h1 : T[(0 : ℤ).toNat]? = some [ml0I.map dec, ml1I.map dec, ml2I.map dec, ml3I.map dec] := hob
    simp only [le_refl, if_true, h0, h1]
  rw [hcalc]
  simp only [Nat.cast_zero] at h
  rw [h]
  unfold mR useM
  simp only [if_true, if_neg (show (0 : ℕ) ≠ 2 by decide), List.length_cons, List.length_nil, zero_add, Nat.reduceAdd, Finset.sum_range_succ,
    Finset.sum_range_zero, List.getD_cons_zero, List.getD_cons_succ, sextuples_map, List.length_map, ← List.map_take, mT, ordM, ser6]

end Verif.Longitude
