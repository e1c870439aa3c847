import Verif.Series
import Mathlib.Algebra.BigOperators.Intervals

/-!
# C51: the series stay inside their tables and are what they say
-/

namespace Verif.Series

open Real Verif.Fp Finset

/-! ## Specification -/

/-- the entries in groups of three: amplitude, phase, frequency -/
def triples : List ℝ → List (ℝ × ℝ × ℝ)
  | a :: b :: c :: r => (a, b, c) :: triples r
  | _ => []

/-- the sum of a list of terms -/
noncomputable def series (t : ℝ) (L : List (ℝ × ℝ × ℝ)) : ℝ := (L.map (fun q => q.1 * cos (q.2.1 + t * q.2.2))).sum

/-- `F` is laid out as the table of planet `xt`: length and index entries -/
def Layout (xt : ℕ) (F : List ℝ) : Prop :=
  lengths[xt]? = some F.length ∧ ∀ k < 19, F[k + 1]? = (index[xt]?.bind (fun l => l[k]?)).map (fun (n : ℤ) => (n : ℝ))

/-- position of the first entry of the series of coordinate `zn` and order `i` -/
def start (xt zn i : ℕ) : ℕ := (((index[xt]?.bind (fun l => l[zn * 6 + i]?)).getD 0 : ℤ)).toNat

/-- the terms of coordinate `zn` and order `i` -/
def orderTerms (F : List ℝ) (xt zn i : ℕ) : List (ℝ × ℝ × ℝ) := triples ((F.drop (start xt zn i)).take (start xt zn (i + 1) - start xt zn i))

/-- how many of the `m` terms of order `i` are summed when `n` are asked for and order 0 has `M` terms -/
def used (n : ℤ) (M m i : ℕ) : ℕ :=
  if n < 0 then m else min m ((3 * n.toNat * m / M + 2) / 3 + if i = 0 then 0 else 1)

/-! ## Lemmas -/

theorem trunc_int (n : ℤ) : Geom.trunc (n : ℝ) = n := by
  unfold Geom.trunc
  split_ifs <;> simp

theorem toI_int {n : ℤ} (h1 : -2147483648 ≤ n) (h2 : n ≤ 2147483647) : toI (n : ℝ) = some n := by
  unfold toI
  rw [trunc_int]
  unfold i32
  rw [if_pos]
  exact ⟨by norm_num; exact h1, by norm_num; exact h2⟩

theorem triples_take (l : List ℝ) (k : ℕ) : triples (l.take (3 * k)) = (triples l).take k := by
  induction k generalizing l with
  | zero => simp [triples]
  | succ k ih =>
    match l with
    | a :: b :: c :: r =>
      rw [show 3 * (k + 1) = 3 * k + 3 from rfl]
      simp [triples, ih]
    | [a, b] => rw [show 3 * (k + 1) = 3 * k + 3 from rfl]; simp [triples]
    | [a] => rw [show 3 * (k + 1) = 3 * k + 3 from rfl]; simp [triples]
    | [] => simp [triples]

theorem triples_length (l : List ℝ) : (triples l).length = l.length / 3 := by
  match l with
  | a :: b :: c :: r => simp only [triples, List.length_cons]; rw [triples_length r]; omega
  | [a, b] => simp [triples]
  | [a] => simp [triples]
  | [] => simp [triples]

theorem terms_sum (F : List ℝ) (t : ℝ) (N : ℤ) : ∀ (k fuel j : ℕ) (c : ℝ), k < fuel → N ≤ (j : ℤ) + 3 * k → (j : ℤ) + 3 * k < N + 3 → j + 3 * k ≤ F.length →
    xl0Terms F t N fuel j c = some (c + series t (triples ((F.drop j).take (3 * k)))) := by
  intro k
  induction k with
  | zero =>
    intro fuel j c h1 h2 h3 h4
    obtain ⟨f, rfl⟩ : ∃ f, fuel = f + 1 := ⟨fuel - 1, by omega⟩
    unfold xl0Terms
    rw [if_neg (by push_cast at h2; omega)]
    simp [triples, series]
  | succ k ih =>
    intro fuel j c h1 h2 h3 h4
    obtain ⟨f, rfl⟩ : ∃ f, fuel = f + 1 := ⟨fuel - 1, by omega⟩
    unfold xl0Terms
    rw [if_pos (by push_cast at h3; omega)]
    obtain ⟨a, b, w, r, hr⟩ : ∃ a b w r, F.drop j = a :: b :: w :: r := by
      have hl : (F.drop j).length = F.length - j := List.length_drop
      match hd : F.drop j with
      | a :: b :: w :: r => exact ⟨a, b, w, r, rfl⟩
      | [a, b] => rw [hd] at hl; simp at hl; omega
      | [a] => rw [hd] at hl; simp at hl; omega
      | [] => rw [hd] at hl; simp at hl; omega
    have g : ∀ i : ℕ, F[j + i]? = (a :: b :: w :: r)[i]? := fun i => by rw [← hr, List.getElem?_drop]
    have e0 : rd F (j : ℤ) = some a := by
      unfold rd; rw [if_pos (by omega)]; have := g 0; simpa using this
    have e1 : rd F ((j : ℤ) + 1) = some b := by
      unfold rd; rw [if_pos (by omega)]; have := g 1; rw [show ((j : ℤ) + 1).toNat = j + 1 by omega]; simpa using this
    have e2 : rd F ((j : ℤ) + 2) = some w := by
      unfold rd; rw [if_pos (by omega)]; have := g 2; rw [show ((j : ℤ) + 2).toNat = j + 2 by omega]; simpa using this
    simp only [e0, e1, e2, Option.bind_eq_bind, Option.bind_some]
    have hd3 : F.drop (j + 3) = r := by rw [← List.drop_drop, hr]; rfl
    have := ih f (j + 3) (c + a * cos (b + t * w)) (by omega) (by push_cast at h2 ⊢; omega) (by push_cast at h3 ⊢; omega) (by omega)
    rw [show ((j : ℤ) + 3) = ((j + 3 : ℕ) : ℤ) by push_cast; rfl, this, hd3, hr, show 3 * (k + 1) = 3 * k + 3 from rfl]
    simp only [List.take_succ_cons, triples, series, List.map_cons, List.sum_cons]
    congr 1; ring

/-- facts about the transcribed index entries, all 8·3·6 of them -/
theorem index_facts : ∀ xt < 8, ∀ zn < 3, ∀ i < 6, start xt zn i ≤ start xt zn (i + 1) ∧ (start xt zn (i + 1) - start xt zn i) % 3 = 0
    ∧ start xt zn (i + 1) ≤ (lengths[xt]?).getD 0 ∧ start xt zn (i + 1) - start xt zn i ≤ 1065 ∧ 20 ≤ start xt zn i
    ∧ 3 ≤ start xt zn 1 - start xt zn 0 := by decide +kernel

theorem index_get : ∀ xt < 8, ∀ zn < 3, ∀ i ≤ 6, (index[xt]?.bind (fun l => l[zn * 6 + i]?)) = some ((start xt zn i : ℕ) : ℤ) := by decide +kernel

theorem lengths_le : ∀ xt < 8, (lengths[xt]?).getD 0 ≤ 6536 := by decide +kernel

theorem hdr {xt : ℕ} {F : List ℝ} (hF : Layout xt F) (hx : xt < 8) {zn i : ℕ} (hz : zn < 3) (hi : i ≤ 6) :
    rd F (((zn : ℤ) * 6 + 1) + i) = some ((start xt zn i : ℕ) : ℝ) := by
  unfold rd
  rw [if_pos (by positivity), show (((zn : ℤ) * 6 + 1) + i).toNat = (zn * 6 + i) + 1 by omega, hF.2 _ (by omega), index_get xt hx zn hz i hi]
  simp

theorem start_bounds {xt zn i : ℕ} (hx : xt < 8) (hz : zn < 3) (hi : i ≤ 6) : start xt zn i ≤ 6536 := by
  rcases Nat.lt_or_ge i 6 with h | h
  · obtain ⟨a, -, b, -⟩ := index_facts xt hx zn hz i h
    exact (a.trans b).trans (lengths_le xt hx)
  · obtain rfl : i = 6 := by omega
    obtain ⟨-, -, b, -⟩ := index_facts xt hx zn hz 5 (by omega)
    exact b.trans (lengths_le xt hx)

theorem toI_nat {n : ℕ} (h : n ≤ 6536) : toI (n : ℝ) = some (n : ℤ) := by
  have := toI_int (n := (n : ℤ)) (by omega) (by omega)
  simpa using this

theorem i32_ok {a : ℤ} (h1 : -2147483648 ≤ a) (h2 : a ≤ 2147483647) : i32 a = some a := by
  unfold i32; rw [if_pos]; exact ⟨by norm_num; exact h1, by norm_num; exact h2⟩

/-- the end of a loop covers exactly `used` terms -/
theorem xl0End_spec {n1 M m : ℕ} (hM : 0 < M) (hm : m ≤ 355) {n : ℤ} (hn : n ≤ 600000) (i : ℕ) :
    ∃ N : ℤ, xl0End n1 (n1 + 3 * m : ℕ) (3 * M : ℕ) n i = some N ∧ N ≤ n1 + 3 * (used n M m i : ℕ) ∧ ((n1 : ℤ) + 3 * (used n M m i : ℕ) < N + 3 ) := by
  unfold xl0End used
  by_cases h0 : n < 0
  · rw [if_pos h0, if_pos h0]
    exact ⟨_, rfl, by push_cast; omega, by push_cast; omega⟩
  · rw [if_neg h0, if_neg h0]
    obtain ⟨k, rfl⟩ : ∃ k : ℕ, n = k := ⟨n.toNat, by omega⟩
    have b1 : 3 * (k : ℤ) ≤ 1800000 := by omega
    have b2 : 3 * (k : ℤ) * (3 * m) ≤ 1800000 * 1065 := by
      have : (3 * m : ℤ) ≤ 1065 := by omega
      calc 3 * (k : ℤ) * (3 * m) ≤ 1800000 * (3 * m) := by gcongr
        _ ≤ _ := by gcongr
    have b3 : 0 ≤ 3 * (k : ℤ) * (3 * m) := by positivity
    have e1 : i32 (3 * (k : ℤ)) = some (3 * (k : ℤ)) := i32_ok (by omega) (by omega)
    have e2 : i32 (3 * (k : ℤ) * (((n1 + 3 * m : ℕ) : ℤ) - n1)) = some (3 * (k : ℤ) * (3 * m)) := by
      rw [show (((n1 + 3 * m : ℕ) : ℤ) - n1) = 3 * m by push_cast; ring]
      exact i32_ok (by omega) (by omega)
    simp only [e1, e2, Option.bind_eq_bind, Option.bind_some]
    rw [if_neg (by omega)]
    have hq : (3 * (k : ℤ) * (3 * m)).tdiv ((3 * M : ℕ) : ℤ) = ((3 * k * m / M : ℕ) : ℤ) := by
      rw [Int.tdiv_eq_ediv_of_nonneg b3]
      push_cast
      rw [show (3 * (k : ℤ) * (3 * m)) = 3 * (3 * k * m) by ring, Int.mul_ediv_mul_of_pos _ _ (by norm_num)]
    rw [hq, Int.toNat_natCast]
    obtain ⟨q, hq'⟩ : ∃ q, q = 3 * k * m / M := ⟨_, rfl⟩
    rw [← hq']
    by_cases hi : i = 0
    · simp only [hi, ne_eq, not_true_eq_false, if_false, if_true]
      refine ⟨_, rfl, ?_, ?_⟩ <;> push_cast <;> split_ifs <;> omega
    · simp only [hi, ne_eq, not_false_eq_true, if_false, if_true]
      refine ⟨_, rfl, ?_, ?_⟩ <;> push_cast <;> split_ifs <;> omega

theorem order_spec {xt : ℕ} {F : List ℝ} (hF : Layout xt F) (hx : xt < 8) {zn i : ℕ} (hz : zn < 3) (hi : i < 6) {n : ℤ} (hn : n ≤ 600000) (t : ℝ) :
    xl0Order F ((zn : ℤ) * 6 + 1) ((start xt zn 1 - start xt zn 0 : ℕ) : ℤ) n t i
      = some (series t ((orderTerms F xt zn i).take (used n (orderTerms F xt zn 0).length (orderTerms F xt zn i).length i))) := by
  obtain ⟨f1, f2, f3, f4, -, f5⟩ := index_facts xt hx zn hz i hi
  obtain ⟨g1, g2, g3, -, -, -⟩ := index_facts xt hx zn hz 0 (by omega)
  have hlen : (lengths[xt]?).getD 0 = F.length := by rw [hF.1]; rfl
  rw [hlen] at f3 g3
  have ol : ∀ k, start xt zn (k + 1) ≤ F.length → (orderTerms F xt zn k).length = (start xt zn (k + 1) - start xt zn k) / 3 := by
    intro k hk
    unfold orderTerms
    rw [triples_length, List.length_take, List.length_drop]
    congr 1; omega
  rw [ol i f3, ol 0 g3]
  obtain ⟨m, hm⟩ : ∃ m, start xt zn (i + 1) = start xt zn i + 3 * m := ⟨(start xt zn (i + 1) - start xt zn i) / 3, by omega⟩
  obtain ⟨M, hM⟩ : ∃ M, start xt zn 1 - start xt zn 0 = 3 * M := ⟨(start xt zn 1 - start xt zn 0) / 3, by simp only [zero_add] at g2; omega⟩
  have e1 := hdr hF hx hz (i := i) (by omega)
  have e2 := hdr hF hx hz (i := i + 1) (by omega)
  unfold xl0Order
  have h2 : rd F (((zn : ℤ) * 6 + 1) + 1 + i) = some ((start xt zn (i + 1) : ℕ) : ℝ) := by
    rw [show ((zn : ℤ) * 6 + 1) + 1 + i = ((zn : ℤ) * 6 + 1) + ((i + 1 : ℕ) : ℤ) by push_cast; ring]; exact e2
  simp only [e1, h2, Option.bind_eq_bind, Option.bind_some, toI_nat (start_bounds hx hz (i := i) (by omega)), toI_nat (start_bounds hx hz (i := i + 1) (by omega))]
  have hm1 : (start xt zn (i + 1) - start xt zn i) / 3 = m := by omega
  have hM1 : (start xt zn (0 + 1) - start xt zn 0) / 3 = M := by simp only [zero_add]; omega
  rw [hm1, hM1]
  by_cases h0 : ((start xt zn (i + 1) : ℕ) : ℤ) - (start xt zn i : ℕ) = 0
  · rw [if_pos h0]
    obtain rfl : m = 0 := by omega
    have hu : used n M 0 i = 0 := by unfold used; split_ifs <;> simp
    rw [hu]; simp [series]
  · rw [if_neg h0, hM, hm]
    obtain ⟨N, hN, n1, n2⟩ := xl0End_spec (n1 := start xt zn i) (M := M) (m := m) (by omega) (by omega) hn i
    simp only [hN, Option.bind_some]
    have ule : used n M m i ≤ m := by unfold used; split_ifs <;> simp
    rw [terms_sum F t N (used n M m i) _ _ 0 (by omega) n1 n2 (by omega)]
    unfold orderTerms
    rw [hm, Nat.add_sub_cancel_left, ← triples_take, List.take_take, min_eq_left (by omega), zero_add]

theorem orders_sum (F : List ℝ) (pn N0 n : ℤ) (t : ℝ) (c : ℕ → ℝ) : ∀ (k i : ℕ) (v : ℝ), (∀ a < k, xl0Order F pn N0 n t (i + a) = some (c (i + a))) →
    xl0Orders F pn N0 n t k i (t ^ i) v = some (v + ∑ a ∈ Finset.range k, t ^ (i + a) * c (i + a)) := by
  intro k
  induction k with
  | zero => intro i v _; simp [xl0Orders]
  | succ k ih =>
    intro i v h
    have h0 := h 0 (by omega)
    rw [add_zero] at h0
    unfold xl0Orders
    simp only [h0, Option.bind_eq_bind, Option.bind_some]
    rw [show t ^ i * t = t ^ (i + 1) from (pow_succ t i).symm, ih (i + 1) (v + c i * t ^ i) (fun a ha => by
      have := h (a + 1) (by omega)
      rw [show i + 1 + a = i + (a + 1) by ring]; exact this)]
    rw [Finset.sum_range_succ']
    congr 1
    simp only [add_zero, show ∀ a, i + 1 + a = i + (a + 1) from fun a => by ring]
    ring

/-! ## Theorems -/

/-- **C51 (planets).**  For every planet (0 Earth … 7 Neptune), coordinate, time and term count up to 600000 (or negative), with tables of the shape of the built-in ones, `XL0_calc` reads
inside its tables and returns the sum over the six orders of `τ^i` (τ in thousands of years) times the sum of the first `used` terms of that order, divided by the scale of the table, plus the
correction of the planet. -/
theorem c51_planets (X : List (List ℝ)) (xzb : List ℝ) (hxzb : xzb.length = 21) (hX : ∀ k < 8, ∃ F, X[k]? = some F ∧ Layout k F)
    (xt zn : ℕ) (hx : xt < 8) (hz : zn < 3) (t : ℝ) (n : ℤ) (hn : n ≤ 600000) :
    ∃ F f0 q, X[xt]? = some F ∧ F[0]? = some f0 ∧ xl0Corr xzb xt zn (t / 10) = some q ∧
      xl0Calc X xzb xt zn t n = some ((∑ i ∈ Finset.range 6, (t / 10) ^ i *
        series (t / 10) ((orderTerms F xt zn i).take (used n (orderTerms F xt zn 0).length (orderTerms F xt zn i).length i))) / f0 + q) := by
  obtain ⟨F, hXF, hF⟩ := hX xt hx
  obtain ⟨-, -, g3, -, g4, g5⟩ := index_facts xt hx zn hz 0 (by omega)
  have hlen : (lengths[xt]?).getD 0 = F.length := by rw [hF.1]; rfl
  obtain ⟨f0, hf0⟩ : ∃ f0, F[0]? = some f0 := ⟨F[0]'(by rw [hlen] at g3; simp only [zero_add] at g3; omega), List.getElem?_eq_getElem _⟩
  obtain ⟨q, hq⟩ : ∃ q, xl0Corr xzb xt zn (t / 10) = some q := by
    unfold xl0Corr
    by_cases h : (xt : ℤ) = 0
    · rw [if_pos h]; exact ⟨_, rfl⟩
    · rw [if_neg h]
      have : rd xzb (((xt : ℤ) - 1) * 3 + zn) = some (xzb[((xt - 1) * 3 + zn)]'(by omega)) := by
        unfold rd
        rw [if_pos (by omega), show ((((xt : ℤ) - 1) * 3 + zn)).toNat = (xt - 1) * 3 + zn by omega, List.getElem?_eq_getElem]
      simp only [this, Option.bind_eq_bind, Option.bind_some]
      exact ⟨_, rfl⟩
  refine ⟨F, f0, q, hXF, hf0, hq, ?_⟩
  unfold xl0Calc
  have h1 := hdr hF hx hz (i := 1) (by omega)
  have h0 := hdr hF hx hz (i := 0) (by omega)
  simp only [Nat.cast_one, Nat.cast_zero, add_zero] at h1 h0
  have hN : toI (((start xt zn 1 : ℕ) : ℝ) - ((start xt zn 0 : ℕ) : ℝ)) = some ((start xt zn 1 - start xt zn 0 : ℕ) : ℤ) := by
    rw [← Nat.cast_sub (by omega)]
    exact toI_nat (by have := start_bounds hx hz (i := 1) (by omega); omega)
  have hr0 : rd F 0 = some f0 := by unfold rd; simpa using hf0
  have key := orders_sum F ((zn : ℤ) * 6 + 1) ((start xt zn 1 - start xt zn 0 : ℕ) : ℤ) n (t / 10)
    (fun i => series (t / 10) ((orderTerms F xt zn i).take (used n (orderTerms F xt zn 0).length (orderTerms F xt zn i).length i))) 6 0 0
    (fun a ha => by simp only [zero_add]; exact order_spec hF hx hz ha hn _)
  simp only [pow_zero, zero_add] at key
  simp only [Int.toNat_natCast, hXF, h0, h1, hN, key, hr0, hq, Option.bind_eq_bind, Option.bind_some, Int.natCast_nonneg, if_true]
  rfl

/-- **C51 (term counts).**  Order 0 uses exactly the first `n` terms (all of them if there are not so many); a negative count, or one at least as large as order 0, uses every term of every
order; otherwise an order gets its proportional share, rounded up by at most two terms; and asking for more never uses fewer. -/
theorem c51_counts (M m : ℕ) (hM : 0 < M) (n : ℤ) (i : ℕ) :
    (0 ≤ n → used n M M 0 = min M n.toNat) ∧ (n < 0 ∨ (M : ℤ) ≤ n → used n M m i = m) ∧ used n M m i ≤ m ∧
    (0 ≤ n → min m (n.toNat * m / M) ≤ used n M m i ∧ used n M m i ≤ n.toNat * m / M + 2) ∧
    (∀ n' : ℤ, 0 ≤ n → n ≤ n' → used n M m i ≤ used n' M m i) := by
  have key : ∀ k : ℕ, k * m / M ≤ (3 * k * m / M + 2) / 3 ∧ (3 * k * m / M + 2) / 3 ≤ k * m / M + 1 := by
    intro k
    have a1 := Nat.div_add_mod (k * m) M
    have a2 := Nat.mod_lt (k * m) hM
    obtain ⟨q, hq⟩ : ∃ q, q = k * m / M := ⟨_, rfl⟩
    obtain ⟨r, hr⟩ : ∃ r, r = k * m % M := ⟨_, rfl⟩
    rw [← hq, ← hr] at a1
    rw [← hr] at a2
    have b : 3 * k * m / M = 3 * q + 3 * r / M := by
      rw [show 3 * k * m = M * (3 * q) + 3 * r by rw [mul_assoc, ← a1]; ring, Nat.mul_add_div hM]
    have c : 3 * r / M < 3 := by rw [Nat.div_lt_iff_lt_mul hM]; omega
    obtain ⟨w, hw⟩ : ∃ w, w = 3 * r / M := ⟨_, rfl⟩
    rw [b, ← hq, ← hw]
    rw [← hw] at c
    clear hq hr hw b
    omega
  refine ⟨fun h => ?_, fun h => ?_, ?_, fun h => ?_, fun n' h h' => ?_⟩
  · unfold used
    rw [if_neg (by omega), Nat.mul_div_cancel _ hM]
    simp; omega
  · unfold used
    rcases h with h | h
    · rw [if_pos h]
    · rw [if_neg (by omega)]
      have : m ≤ (3 * n.toNat * m / M + 2) / 3 := by
        refine le_trans ?_ (key n.toNat).1
        rw [Nat.le_div_iff_mul_le hM, mul_comm]
        exact Nat.mul_le_mul_right m (by omega)
      omega
  · unfold used; split_ifs <;> simp
  · unfold used
    rw [if_neg (by omega)]
    have := key n.toNat
    split_ifs <;> omega
  · unfold used
    rw [if_neg (show ¬ n < 0 by omega), if_neg (show ¬ n' < 0 by omega)]
    have : 3 * n.toNat * m / M ≤ 3 * n'.toNat * m / M := Nat.div_le_div_right (Nat.mul_le_mul_right m (by omega))
    omega

/-! ## The moon -/

/-- the entries in groups of six: amplitude, phase, and the coefficients of the four powers of the time -/
def sextuples : List ℝ → List (ℝ × ℝ × ℝ × ℝ × ℝ × ℝ)
  | a :: b :: c :: d :: e :: f :: r => (a, b, c, d, e, f) :: sextuples r
  | _ => []

/-- the sum of a list of terms: amplitude times the cosine of a polynomial of degree four -/
noncomputable def moonSeries (t : ℝ) (L : List (ℝ × ℝ × ℝ × ℝ × ℝ × ℝ)) : ℝ :=
  (L.map (fun q => q.1 * cos (q.2.1 + q.2.2.1 * t + q.2.2.2.1 * (t ^ 2 / 10 ^ 4) + q.2.2.2.2.1 * (t ^ 3 / 10 ^ 8) + q.2.2.2.2.2 * (t ^ 4 / 10 ^ 8)))).sum

/-- how many of the `m` terms of order `i` are summed when `n` are asked for and order 0 has `M` terms -/
def usedMoon (n : ℤ) (M m i : ℕ) : ℕ :=
  if n < 0 then m else min m ((6 * n.toNat * m / M + 5) / 6 + if i = 0 then 0 else 1)

theorem sextuples_length (l : List ℝ) : (sextuples l).length = l.length / 6 := by
  match l with
  | a :: b :: c :: d :: e :: f :: r => simp only [sextuples, List.length_cons]; rw [sextuples_length r]; omega
  | [_, _, _, _, _] => simp [sextuples]
  | [_, _, _, _] => simp [sextuples]
  | [_, _, _] => simp [sextuples]
  | [_, _] => simp [sextuples]
  | [_] => simp [sextuples]
  | [] => simp [sextuples]

theorem sextuples_take (l : List ℝ) (k : ℕ) : sextuples (l.take (6 * k)) = (sextuples l).take k := by
  induction k generalizing l with
  | zero => simp [sextuples]
  | succ k ih =>
    rw [show 6 * (k + 1) = 6 * k + 6 from rfl]
    match l with
    | a :: b :: c :: d :: e :: f :: r => simp [sextuples, ih]
    | [_, _, _, _, _] => simp [sextuples]
    | [_, _, _, _] => simp [sextuples]
    | [_, _, _] => simp [sextuples]
    | [_, _] => simp [sextuples]
    | [_] => simp [sextuples]
    | [] => simp [sextuples]

theorem moon_terms (F : List ℝ) (t : ℝ) (N : ℤ) : ∀ (k fuel j : ℕ) (c : ℝ), k < fuel → N ≤ (j : ℤ) + 6 * k → (j : ℤ) + 6 * k < N + 6 → j + 6 * k ≤ F.length →
    xl1Terms F t (t * t / 1e4) (t * t * t / 1e8) (t * t * t * t / 1e8) N fuel j c = some (c + moonSeries t (sextuples ((F.drop j).take (6 * k)))) := by
  intro k
  induction k with
  | zero =>
    intro fuel j c h1 h2 h3 h4
    obtain ⟨f, rfl⟩ : ∃ f, fuel = f + 1 := ⟨fuel - 1, by omega⟩
    unfold xl1Terms
    rw [if_neg (by push_cast at h2; omega)]
    simp [sextuples, moonSeries]
  | succ k ih =>
    intro fuel j c h1 h2 h3 h4
    obtain ⟨f, rfl⟩ : ∃ f, fuel = f + 1 := ⟨fuel - 1, by omega⟩
    unfold xl1Terms
    rw [if_pos (by push_cast at h3; omega)]
    obtain ⟨a, b, w, x, y, z, r, hr⟩ : ∃ a b w x y z r, F.drop j = a :: b :: w :: x :: y :: z :: r := by
      have hl : (F.drop j).length = F.length - j := List.length_drop
      match hd : F.drop j with
      | a :: b :: w :: x :: y :: z :: r => exact ⟨a, b, w, x, y, z, r, rfl⟩
      | [_, _, _, _, _] => rw [hd] at hl; simp at hl; omega
      | [_, _, _, _] => rw [hd] at hl; simp at hl; omega
      | [_, _, _] => rw [hd] at hl; simp at hl; omega
      | [_, _] => rw [hd] at hl; simp at hl; omega
      | [_] => rw [hd] at hl; simp at hl; omega
      | [] => rw [hd] at hl; simp at hl; omega
    have g : ∀ i : ℕ, rd F ((j : ℤ) + (i : ℕ)) = (a :: b :: w :: x :: y :: z :: r)[i]? := fun i => by
      unfold rd; rw [if_pos (by omega), show ((j : ℤ) + (i : ℕ)).toNat = j + i by omega, ← hr, List.getElem?_drop]
    have e0 : rd F (j : ℤ) = some a := by have := g 0; simpa using this
    have e1 : rd F ((j : ℤ) + 1) = some b := by have := g 1; simpa using this
    have e2 : rd F ((j : ℤ) + 2) = some w := by have := g 2; simpa using this
    have e3 : rd F ((j : ℤ) + 3) = some x := by have := g 3; simpa using this
    have e4 : rd F ((j : ℤ) + 4) = some y := by have := g 4; simpa using this
    have e5 : rd F ((j : ℤ) + 5) = some z := by have := g 5; simpa using this
    simp only [e0, e1, e2, e3, e4, e5, Option.bind_eq_bind, Option.bind_some]
    have hd3 : F.drop (j + 6) = r := by rw [← List.drop_drop, hr]; rfl
    rw [show ((j : ℤ) + 6) = ((j + 6 : ℕ) : ℤ) by push_cast; rfl,
      ih f (j + 6) _ (by omega) (by push_cast at h2 ⊢; omega) (by push_cast at h3 ⊢; omega) (by omega), hd3, hr, show 6 * (k + 1) = 6 * k + 6 from rfl]
    simp only [List.take_succ_cons, sextuples, moonSeries, List.map_cons, List.sum_cons]
    rw [show b + t * w + t * t / 1e4 * x + t * t * t / 1e8 * y + t * t * t * t / 1e8 * z
      = b + w * t + x * (t ^ 2 / 10 ^ 4) + y * (t ^ 3 / 10 ^ 8) + z * (t ^ 4 / 10 ^ 8) by norm_num; ring]
    congr 1; ring

/-- the end of a loop covers exactly `usedMoon` terms -/
theorem xl1End_spec {M m : ℕ} (hM : 0 < M) (hM2 : M ≤ 442) (hm : m ≤ 442) {n n' : ℤ} (hn : n ≤ 130000) (hn' : n' = if n * 6 < 0 then ((6 * M : ℕ) : ℤ) else n * 6) (i : ℕ) :
    ∃ N : ℤ, xl1End n' (6 * M : ℕ) (6 * m : ℕ) i = some N ∧ N ≤ 6 * (usedMoon n M m i : ℕ) ∧ (6 * (usedMoon n M m i : ℕ) : ℤ) < N + 6 := by
  unfold xl1End usedMoon
  have hk : ∀ k : ℕ, k ≤ 130000 → i32 (((6 * k : ℕ) : ℤ) * ((6 * m : ℕ) : ℤ)) = some (((6 * k : ℕ) : ℤ) * ((6 * m : ℕ) : ℤ)) ∧
      (((6 * k : ℕ) : ℤ) * ((6 * m : ℕ) : ℤ)).tdiv ((6 * M : ℕ) : ℤ) = ((6 * k * m / M : ℕ) : ℤ) := by
    intro k hk
    have b2 : ((6 * k : ℕ) : ℤ) * ((6 * m : ℕ) : ℤ) ≤ 780000 * 2652 := by
      have h1 : ((6 * k : ℕ) : ℤ) ≤ 780000 := by omega
      have h2 : ((6 * m : ℕ) : ℤ) ≤ 2652 := by omega
      gcongr
    have b3 : 0 ≤ ((6 * k : ℕ) : ℤ) * ((6 * m : ℕ) : ℤ) := by positivity
    refine ⟨i32_ok (by omega) (by omega), ?_⟩
    rw [Int.tdiv_eq_ediv_of_nonneg b3]
    push_cast
    rw [show (6 * (k : ℤ) * (6 * m)) = 6 * (6 * k * m) by ring, Int.mul_ediv_mul_of_pos _ _ (by norm_num)]
  by_cases h0 : n < 0
  · rw [if_pos h0]
    rw [if_pos (by omega)] at hn'
    obtain ⟨k1, k2⟩ := hk M (by omega)
    subst hn'
    simp only [k1, k2, Option.bind_eq_bind, Option.bind_some]
    rw [show 6 * M * m / M = 6 * m by rw [show 6 * M * m = M * (6 * m) by ring, Nat.mul_div_cancel_left _ hM]]
    refine ⟨_, rfl, ?_, ?_⟩ <;> split_ifs <;> omega
  · rw [if_neg h0]
    rw [if_neg (by omega)] at hn'
    obtain ⟨k, rfl⟩ : ∃ k : ℕ, n = k := ⟨n.toNat, by omega⟩
    obtain ⟨k1, k2⟩ := hk k (by omega)
    rw [show n' = ((6 * k : ℕ) : ℤ) by rw [hn']; push_cast; ring]
    simp only [k1, k2, Option.bind_eq_bind, Option.bind_some, Int.toNat_natCast]
    obtain ⟨q, hq'⟩ : ∃ q, q = 6 * k * m / M := ⟨_, rfl⟩
    rw [← hq']
    by_cases hi : i = 0
    · simp only [hi, ne_eq, not_true_eq_false, if_false, if_true]
      refine ⟨_, rfl, ?_, ?_⟩ <;> push_cast <;> split_ifs <;> omega
    · simp only [hi, ne_eq, not_false_eq_true, if_false, if_true]
      refine ⟨_, rfl, ?_, ?_⟩ <;> push_cast <;> split_ifs <;> omega

theorem moon_orders (ob : List (List ℝ)) (ls : List ℕ) (len0 n' : ℤ) (t : ℝ) (c : ℕ → ℝ) : ∀ (k i : ℕ) (v : ℝ),
    (∀ a < k, ∃ F len N, ob[i + a]? = some F ∧ ls[i + a]? = some len ∧ xl1End n' len0 len (i + a) = some N ∧
      xl1Terms F t (t * t / 1e4) (t * t * t / 1e8) (t * t * t * t / 1e8) N (N.toNat + 1) 0 0 = some (c (i + a))) →
    xl1Orders ob ls len0 n' t (t * t / 1e4) (t * t * t / 1e8) (t * t * t * t / 1e8) k i (t ^ i) v = some (v + ∑ a ∈ Finset.range k, t ^ (i + a) * c (i + a)) := by
  intro k
  induction k with
  | zero => intro i v _; simp [xl1Orders]
  | succ k ih =>
    intro i v h
    obtain ⟨F, len, N, h1, h2, h3, h4⟩ := h 0 (by omega)
    rw [add_zero] at h1 h2 h3 h4
    unfold xl1Orders
    simp only [h1, h2, h3, h4, Option.bind_eq_bind, Option.bind_some]
    rw [show t ^ i * t = t ^ (i + 1) from (pow_succ t i).symm, ih (i + 1) (v + c i * t ^ i) (fun a ha => by
      have := h (a + 1) (by omega)
      rw [show i + 1 + a = i + (a + 1) by ring]; exact this)]
    rw [Finset.sum_range_succ']
    congr 1
    simp only [add_zero, show ∀ a, i + 1 + a = i + (a + 1) from fun a => by ring]
    ring

theorem moon_facts : ∀ zn < 3, ∃ ls, moonLengths[zn]? = some ls ∧ 0 < ls.length ∧ ∃ M, ls[0]? = some (6 * M) ∧ 0 < M ∧ M ≤ 442 ∧ ∀ i < ls.length, ∃ m, ls[i]? = some (6 * m) ∧ m ≤ 442 := by
  intro zn hz
  have key : ∀ l ∈ moonLengths, 0 < l.length ∧ (∀ i < l.length, l.getD i 0 % 6 = 0 ∧ 6 ≤ l.getD i 0 ∧ l.getD i 0 ≤ 2652) := by decide +kernel
  have hl : moonLengths.length = 3 := rfl
  have hm : moonLengths[zn]? = some (moonLengths[zn]'(by omega)) := List.getElem?_eq_getElem _
  obtain ⟨k1, k2⟩ := key _ (List.getElem_mem (l := moonLengths) (n := zn) (by omega))
  refine ⟨_, hm, k1, ?_⟩
  have hg : ∀ i < (moonLengths[zn]'(by omega)).length, ∃ m, (moonLengths[zn]'(by omega))[i]? = some (6 * m) ∧ 0 < m ∧ m ≤ 442 := by
    intro i hi
    obtain ⟨a, b, c⟩ := k2 i hi
    rw [List.getD_eq_getElem?_getD, List.getElem?_eq_getElem hi, Option.getD_some] at a b c
    exact ⟨_ / 6, by rw [List.getElem?_eq_getElem hi]; congr 1; exact (Nat.mul_div_cancel' (Nat.dvd_of_mod_eq_zero a)).symm, by omega, by omega⟩
  obtain ⟨M, h1, h2, h3⟩ := hg 0 k1
  exact ⟨M, h1, h2, h3, fun i hi => by obtain ⟨m, a, -, b⟩ := hg i hi; exact ⟨m, a, b⟩⟩

/-- **C51 (moon).**  For every coordinate, time and term count from −357913941 to 130000, with tables of the built-in lengths, `XL1_calc` reads inside its tables and returns the mean
longitude (longitude only) plus the sum over the orders of `t^i` times the sum of the first `usedMoon` terms, in radians (kilometres for the distance). -/
theorem c51_moon (T : List (List (List ℝ))) (hT : T.map (fun ob => ob.map List.length) = moonLengths) (zn : ℕ) (hz : zn < 3) (t : ℝ) (n : ℤ) (hn1 : -357913941 ≤ n) (hn : n ≤ 130000) :
    ∃ ob, T[zn]? = some ob ∧ 0 < ob.length ∧
      let L := fun (i : ℕ) => sextuples (ob.getD i [])
      let v := (if zn = 0 then moonMean t else 0) + ∑ i ∈ Finset.range ob.length, t ^ i * moonSeries t ((L i).take (usedMoon n (L 0).length (L i).length i))
      xl1Calc T moonLengths zn t n = some (if zn = 2 then v else v / radSec) := by
  obtain ⟨ls, hls, hpos, M, hM0, hM1, hM2, hm⟩ := moon_facts zn hz
  obtain ⟨ob, hob, hobl⟩ : ∃ ob, T[zn]? = some ob ∧ ob.map List.length = ls := by
    rw [← hT, List.getElem?_map] at hls
    match h : T[zn]? with
    | none => rw [h] at hls; simp at hls
    | some ob => rw [h] at hls; exact ⟨ob, rfl, by simpa using hls⟩
  have hlen : ls.length = ob.length := by rw [← hobl]; simp
  refine ⟨ob, hob, by omega, ?_⟩
  intro L v
  have hLi : ∀ i < ob.length, ∃ F m, ob[i]? = some F ∧ ls[i]? = some (6 * m) ∧ F.length = 6 * m ∧ m ≤ 442 ∧ ob.getD i [] = F ∧ (L i).length = m := by
    intro i hi
    obtain ⟨m, h1, h2⟩ := hm i (by omega)
    have hF : ob[i]? = some ob[i] := List.getElem?_eq_getElem hi
    have hfl : ob[i].length = 6 * m := by
      rw [← hobl, List.getElem?_map, hF] at h1
      simpa using h1
    have hg : ob.getD i [] = ob[i] := by rw [List.getD_eq_getElem?_getD, hF]; rfl
    refine ⟨ob[i], m, hF, h1, hfl, h2, hg, ?_⟩
    show (sextuples (ob.getD i [])).length = m
    rw [hg, sextuples_length, hfl]; omega
  obtain ⟨F0, M', g1, g2, g3, -, -, g4⟩ := hLi 0 (by omega)
  obtain rfl : M' = M := by rw [hM0] at g2; simp at g2; omega
  have hn6 : i32 (n * 6) = some (n * 6) := i32_ok (by omega) (by omega)
  obtain ⟨n', hn'⟩ : ∃ n', n' = if n * 6 < 0 then ((6 * M' : ℕ) : ℤ) else n * 6 := ⟨_, rfl⟩
  have key := moon_orders ob ls ((6 * M' : ℕ) : ℤ) n' t (fun i => moonSeries t ((L i).take (usedMoon n (L 0).length (L i).length i))) ls.length 0 (if zn = 0 then moonMean t else 0) (by
    intro a ha
    simp only [zero_add]
    obtain ⟨F, m, a1, a2, a3, a4, a5, a6⟩ := hLi a (by omega)
    obtain ⟨N, b1, b2, b3⟩ := xl1End_spec hM1 hM2 a4 hn hn' a
    refine ⟨F, 6 * m, N, a1, a2, b1, ?_⟩
    have ule : usedMoon n M' m a ≤ m := by unfold usedMoon; split_ifs <;> simp
    have := moon_terms F t N (usedMoon n M' m a) (N.toNat + 1) 0 0 (by omega) (by push_cast; omega) (by push_cast; omega) (by omega)
    rw [Nat.cast_zero] at this
    rw [this, a6, g4]
    show _ = some (moonSeries t ((sextuples (ob.getD a [])).take _))
    rw [a5, ← sextuples_take, List.drop_zero, zero_add])
  simp only [pow_zero, zero_add, hlen] at key
  unfold xl1Calc
  have hc : ((zn : ℤ) = 0) = (zn = 0) := by simp
  have hc2 : ((zn : ℤ) ≠ 2) = (zn ≠ 2) := by simp only [ne_eq, eq_iff_iff]; omega
  simp only [Int.natCast_nonneg, if_true, Int.toNat_natCast, hob, hls, hn6, hM0, Option.bind_eq_bind, Option.bind_some, hc, hc2, ← hn', key, hlen]
  show some _ = some _
  congr 1
  by_cases h2 : zn = 2 <;> simp [h2, v]

/-- **C51 (moon's term counts).**  As `c51_counts`. -/
theorem c51_moon_counts (M m : ℕ) (hM : 0 < M) (n : ℤ) (i : ℕ) :
    (0 ≤ n → usedMoon n M M 0 = min M n.toNat) ∧ (n < 0 ∨ (M : ℤ) ≤ n → usedMoon n M m i = m) ∧ usedMoon n M m i ≤ m ∧
    (0 ≤ n → min m (n.toNat * m / M) ≤ usedMoon n M m i ∧ usedMoon n M m i ≤ n.toNat * m / M + 2) ∧
    (∀ n' : ℤ, 0 ≤ n → n ≤ n' → usedMoon n M m i ≤ usedMoon n' M m i) := by
  have key : ∀ k : ℕ, k * m / M ≤ (6 * k * m / M + 5) / 6 ∧ (6 * k * m / M + 5) / 6 ≤ k * m / M + 1 := by
    intro k
    have a1 := Nat.div_add_mod (k * m) M
    have a2 := Nat.mod_lt (k * m) hM
    obtain ⟨q, hq⟩ : ∃ q, q = k * m / M := ⟨_, rfl⟩
    obtain ⟨r, hr⟩ : ∃ r, r = k * m % M := ⟨_, rfl⟩
    rw [← hq, ← hr] at a1
    rw [← hr] at a2
    have b : 6 * k * m / M = 6 * q + 6 * r / M := by
      rw [show 6 * k * m = M * (6 * q) + 6 * r by rw [mul_assoc, ← a1]; ring, Nat.mul_add_div hM]
    have c : 6 * r / M < 6 := by rw [Nat.div_lt_iff_lt_mul hM]; omega
    obtain ⟨w, hw⟩ : ∃ w, w = 6 * r / M := ⟨_, rfl⟩
    rw [b, ← hq, ← hw]
    rw [← hw] at c
    clear hq hr hw b
    omega
  refine ⟨fun h => ?_, fun h => ?_, ?_, fun h => ?_, fun n' h h' => ?_⟩
  · unfold usedMoon
    rw [if_neg (by omega), Nat.mul_div_cancel _ hM]
    simp; omega
  · unfold usedMoon
    rcases h with h | h
    · rw [if_pos h]
    · rw [if_neg (by omega)]
      have : m ≤ (6 * n.toNat * m / M + 5) / 6 := by
        refine le_trans ?_ (key n.toNat).1
        rw [Nat.le_div_iff_mul_le hM, mul_comm]
        exact Nat.mul_le_mul_right m (by omega)
      omega
  · unfold usedMoon; split_ifs <;> simp
  · unfold usedMoon
    rw [if_neg (by omega)]
    have := key n.toNat
    split_ifs <;> omega
  · unfold usedMoon
    rw [if_neg (show ¬ n < 0 by omega), if_neg (show ¬ n' < 0 by omega)]
    have : 6 * n.toNat * m / M ≤ 6 * n'.toNat * m / M := Nat.div_le_div_right (Nat.mul_le_mul_right m (by omega))
    omega

/-! ## Pluto -/

/-- the sum of the terms of one of Pluto's tables -/
noncomputable def plutoSeries (t : ℝ) (L : List (ℝ × ℝ × ℝ)) : ℝ :=
  (L.map (fun q => q.1 * sin (q.2.1 * (t / 10 ^ 8) + q.2.2 * (π / 180 / 10 ^ 5)))).sum

theorem pl_terms (F : List ℝ) (t : ℝ) : ∀ (k fuel j : ℕ) (v : ℝ), k < fuel → j + 3 * k = F.length →
    plTerms F (t / 100000000) (π / 180 / 100000) fuel j v = some (v + plutoSeries t (triples (F.drop j))) := by
  intro k
  induction k with
  | zero =>
    intro fuel j v h1 h2
    obtain ⟨f, rfl⟩ : ∃ f, fuel = f + 1 := ⟨fuel - 1, by omega⟩
    unfold plTerms
    rw [if_neg (by omega), List.drop_eq_nil_of_le (by omega)]
    simp [triples, plutoSeries]
  | succ k ih =>
    intro fuel j v h1 h2
    obtain ⟨f, rfl⟩ : ∃ f, fuel = f + 1 := ⟨fuel - 1, by omega⟩
    unfold plTerms
    rw [if_pos (by omega)]
    obtain ⟨a, b, w, r, hr⟩ : ∃ a b w r, F.drop j = a :: b :: w :: r := by
      have hl : (F.drop j).length = F.length - j := List.length_drop
      match hd : F.drop j with
      | a :: b :: w :: r => exact ⟨a, b, w, r, rfl⟩
      | [a, b] => rw [hd] at hl; simp at hl; omega
      | [a] => rw [hd] at hl; simp at hl; omega
      | [] => rw [hd] at hl; simp at hl; omega
    have g : ∀ i : ℕ, F[j + i]? = (a :: b :: w :: r)[i]? := fun i => by rw [← hr, List.getElem?_drop]
    have e0 : F[j]? = some a := by have := g 0; simpa using this
    have e1 : F[j + 1]? = some b := by have := g 1; simpa using this
    have e2 : F[j + 2]? = some w := by have := g 2; simpa using this
    simp only [e0, e1, e2, Option.bind_eq_bind, Option.bind_some]
    rw [ih f (j + 3) _ (by omega) (by omega), ← List.drop_drop, hr]
    simp only [List.drop_succ_cons, List.drop_zero, triples, plutoSeries, List.map_cons, List.sum_cons]
    rw [show (100000000 : ℝ) = 10 ^ 8 by norm_num, show (100000 : ℝ) = 10 ^ 5 by norm_num]
    congr 1; ring

/-- **C51 (Pluto).**  With tables of the built-in lengths `pluto_coord` reads inside its tables and returns, for each axis, the constant and linear part plus the three series weighted with
`1`, `x`, `x²`. -/
theorem c51_pluto (P : List (List ℝ)) (hP : P.map List.length = plutoLengths) (t : ℝ) :
    let x := -1 + 2 * (t * 36525 + 1825394.5) / 2185000
    let S := fun (k : ℕ) => plutoSeries t (triples (P.getD k []))
    let A := fun (k : ℕ) => (S (3 * k) + S (3 * k + 1) * x + S (3 * k + 2) * x ^ 2) / 10 ^ 8
    plutoCoord P t = some ⟨A 0 + 9.922274 + 0.154154 * x, A 1 + 10.016090 + 0.064073 * x, A 2 - 3.947474 - 0.042746 * x⟩ := by
  intro x S A
  have hl : P.length = 9 := by have := congrArg List.length hP; simpa [plutoLengths] using this
  have hk : ∀ k < 9, ∃ F, P[k]? = some F ∧ plTerms F (t / 100000000) (π / 180 / 100000) (F.length + 1) 0 0 = some (S k) := by
    intro k hk
    have hF : P[k]? = some (P[k]'(by omega)) := List.getElem?_eq_getElem _
    have h3 : (P[k]'(by omega)).length % 3 = 0 := by
      have h := congrArg (fun l => l[k]?) hP
      simp only [List.getElem?_map, hF, Option.map_some] at h
      have key : ∀ k < 9, ∀ a, plutoLengths[k]? = some a → a % 3 = 0 := by
        intro k hk a ha
        have : ∀ k < 9, (plutoLengths[k]?).getD 0 % 3 = 0 := by decide +kernel
        have := this k hk
        rwa [ha] at this
      exact key k hk _ h.symm
    refine ⟨_, hF, ?_⟩
    rw [pl_terms _ t ((P[k]'(by omega)).length / 3) _ 0 0 (by omega) (by omega), List.drop_zero, zero_add]
    show _ = some (plutoSeries t (triples (P.getD k [])))
    rw [List.getD_eq_getElem?_getD, hF]; rfl
  have hc : ∀ k < 3, plCoord P t k = some (A k) := by
    intro k hk3
    obtain ⟨F1, a1, b1⟩ := hk (3 * k) (by omega)
    obtain ⟨F2, a2, b2⟩ := hk (3 * k + 1) (by omega)
    obtain ⟨F3, a3, b3⟩ := hk (3 * k + 2) (by omega)
    unfold plCoord
    simp only [a1, a2, a3, b1, b2, b3, Option.bind_eq_bind, Option.bind_some]
    show some _ = some _
    congr 1
    show S (3 * k) / 100000000 + S (3 * k + 1) * x / 100000000 + S (3 * k + 2) * (x * x) / 100000000 = (S (3 * k) + S (3 * k + 1) * x + S (3 * k + 2) * x ^ 2) / 10 ^ 8
    ring
  unfold plutoCoord
  simp only [hc 0 (by omega), hc 1 (by omega), hc 2 (by omega), Option.bind_eq_bind, Option.bind_some]
  show some _ = some _
  congr 2 <;> ring

/-! ## Precession -/

/-- the twelve quantities in the order of the tables -/
def quantities : List (List Char) := [['f', 'i'], ['w'], ['P'], ['Q'], ['E'], ['x'], ['p', 'i'], ['I', 'I'], ['p'], ['t', 'h'], ['Z'], ['z']]

theorem preceLoop_spec (p : List ℝ) (base n : ℕ) (t : ℝ) (h : base + n ≤ p.length) : ∀ (k : ℕ) (c : ℝ), k ≤ n →
    preceLoop p base n t k (t ^ (n - k)) c = some (c + ∑ i ∈ Finset.range k, p.getD (base + (n - k + i)) 0 * t ^ (n - k + i)) := by
  intro k
  induction k with
  | zero => intro c _; simp [preceLoop]
  | succ k ih =>
    intro c hk
    unfold preceLoop
    have hg : p[base + (n - (k + 1))]? = some (p.getD (base + (n - (k + 1))) 0) := by
      rw [List.getD_eq_getElem?_getD, List.getElem?_eq_getElem (by omega)]; rfl
    simp only [hg, Option.bind_eq_bind, Option.bind_some]
    rw [← pow_succ, show n - (k + 1) + 1 = n - k by omega, ih _ (by omega), Finset.sum_range_succ']
    congr 1
    rw [add_assoc]
    congr 1
    rw [add_zero, add_comm (Finset.sum _ _)]
    congr 1
    refine Finset.sum_congr rfl fun i _ => ?_
    rw [show n - (k + 1) + (i + 1) = n - k + i by omega]

theorem name_pos : ∀ k < 12, (strstr preceNames (quantities.getD k [] ++ [' '])).map (· / 3) = some k ∧ (quantities.getD k []).length ≤ 2 := by decide +kernel

/-- **C51 (precession).**  For every time and each of the twelve quantities the library computes, `prece` returns the polynomial of that quantity in the chosen model, read inside the table; an unknown
model gives 0; a name of three or more characters writes past the end of its buffer. -/
theorem c51_prece (p76 p00 p03 : List ℝ) (h76 : p76.length = 48) (h00 : p00.length = 72) (h03 : p03.length = 72) (t : ℝ) :
    (∀ k < 12, prece p76 p00 p03 t (quantities.getD k []) "IAU1976" = some ((∑ i ∈ Finset.range 4, p76.getD (4 * k + i) 0 * t ^ i) / radSec)
      ∧ prece p76 p00 p03 t (quantities.getD k []) "IAU2000" = some ((∑ i ∈ Finset.range 6, p00.getD (6 * k + i) 0 * t ^ i) / radSec)
      ∧ prece p76 p00 p03 t (quantities.getD k []) "P03" = some ((∑ i ∈ Finset.range 6, p03.getD (6 * k + i) 0 * t ^ i) / radSec)) ∧
    (∀ ss mx, mx ≠ "IAU1976" → mx ≠ "IAU2000" → mx ≠ "P03" → ss.length ≤ 2 → prece p76 p00 p03 t ss mx = some 0) ∧
    (∀ ss mx, 3 ≤ ss.length → prece p76 p00 p03 t ss mx = none) := by
  refine ⟨fun k hk => ?_, fun ss mx h1 h2 h3 hl => ?_, fun ss mx hl => ?_⟩
  · obtain ⟨a, b⟩ := name_pos k hk
    match hs : strstr preceNames (quantities.getD k [] ++ [' ']) with
    | none => rw [hs] at a; simp at a
    | some q =>
      rw [hs] at a
      have a : q / 3 = k := by simpa using a
      have key : ∀ (p : List ℝ) (n : ℕ), p.length = 12 * n → (preceLoop p (q / 3 * n) n t n 1 0).map (· / radSec) = some ((∑ i ∈ Finset.range n, p.getD (n * k + i) 0 * t ^ i) / radSec) := by
        intro p n hp
        have h := preceLoop_spec p (k * n) n t (by rw [hp]; nlinarith) n 0 le_rfl
        simp only [Nat.sub_self, pow_zero, zero_add] at h
        rw [a, h, Option.map_some]
        simp only [mul_comm k n]
      have hl : ¬ 3 < (quantities.getD k []).length + 1 := by omega
      have n1 : ("IAU2000" : String) ≠ "IAU1976" := by decide
      have n2 : ("P03" : String) ≠ "IAU1976" := by decide
      have n3 : ("P03" : String) ≠ "IAU2000" := by decide
      refine ⟨?_, ?_, ?_⟩
      · unfold prece; rw [if_neg hl]; simp only [hs, if_true]; exact key p76 4 h76
      · unfold prece; rw [if_neg hl]; simp only [hs, n1, if_false, if_true]; exact key p00 6 h00
      · unfold prece; rw [if_neg hl]; simp only [hs, n2, n3, if_false, if_true]; exact key p03 6 h03
  · unfold prece
    rw [if_neg (by omega)]
    simp only [h1, h2, h3, if_false]
  · unfold prece
    rw [if_pos (by omega)]

/-! ## The hypotheses can be met -/

/-- a table with the index entries of planet `xt`, scale 1 and every coefficient 2 -/
noncomputable def demoTable (xt : ℕ) : List ℝ :=
  1 :: ((index.getD xt []).map (fun (n : ℤ) => (n : ℝ)) ++ List.replicate (lengths.getD xt 0 - 20) 2)

theorem demo_layout : ∀ xt < 8, Layout xt (demoTable xt) := by
  intro xt hx
  have k1 : ∀ xt < 8, (index.getD xt []).length = 19 ∧ lengths[xt]? = some (lengths.getD xt 0) ∧ 20 ≤ lengths.getD xt 0 ∧ index[xt]? = some (index.getD xt []) := by decide +kernel
  obtain ⟨a, b, c, d⟩ := k1 xt hx
  refine ⟨?_, fun k hk => ?_⟩
  · rw [b]; unfold demoTable
    simp only [List.length_cons, List.length_append, List.length_map, List.length_replicate, a, Option.some.injEq]
    omega
  · unfold demoTable
    rw [List.getElem?_cons_succ, List.getElem?_append_left (by simp only [List.length_map, a]; exact hk), List.getElem?_map, d, Option.bind_some]

/-- `c51_planets` applies to them: five terms of Jupiter's longitude -/
example (t : ℝ) : ∃ v, xl0Calc ((List.range 8).map demoTable) (List.replicate 21 0) 4 0 t 5 = some v := by
  obtain ⟨F, f0, q, -, -, -, h⟩ := c51_planets ((List.range 8).map demoTable) (List.replicate 21 0) (by simp)
    (fun k hk => ⟨demoTable k, by simp [hk], demo_layout k hk⟩) 4 0 (by norm_num) (by norm_num) t 5 (by norm_num)
  exact ⟨_, h⟩

/-- `c51_moon` applies to tables of the built-in lengths -/
example (t : ℝ) : ∃ v, xl1Calc (moonLengths.map (fun l => l.map (fun n => List.replicate n (1 : ℝ)))) moonLengths 1 t 20 = some v := by
  obtain ⟨ob, -, -, h⟩ := c51_moon (moonLengths.map (fun l => l.map (fun n => List.replicate n (1 : ℝ)))) (by
    rw [List.map_map, List.map_congr_left (g := id) (fun l _ => by
      simp only [Function.comp, List.map_map, id]
      rw [List.map_congr_left (g := id) (fun n _ => by simp only [Function.comp, List.length_replicate, id])]
      exact List.map_id l)]
    exact List.map_id _) 1 (by norm_num) t 20 (by norm_num) (by norm_num)
  exact ⟨_, h⟩

/-- `c51_pluto` applies to tables of the built-in lengths -/
example (t : ℝ) : ∃ v, plutoCoord (plutoLengths.map (fun n => List.replicate n (1 : ℝ))) t = some v :=
  ⟨_, c51_pluto (plutoLengths.map (fun n => List.replicate n (1 : ℝ))) (by
    rw [List.map_map, List.map_congr_left (g := id) (fun n _ => by simp only [Function.comp, List.length_replicate, id])]
    exact List.map_id _) t⟩

end Verif.Series
