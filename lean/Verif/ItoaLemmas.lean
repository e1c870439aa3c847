import Verif.Itoa
import Mathlib.Tactic.IntervalCases

/-! Helper lemmas for `Verif/Props/Itoa.lean`: the reciprocal multiplications of itoa.h are exact divisions, and each
block appends decimal digits. -/

namespace Verif.Itoa

theorem A4 (n f0 f2 : ℕ) (h : n < 10^4) (h0 : f0 = 167773*n) (h2 : f2 = f0 % 2^24 * 100) : f0/2^24 = n/100 ∧ f2/2^24 = n % 100 := by
  obtain ⟨a, b, hn, ha, hb⟩ : ∃ a b, n = 100 * a + b ∧ a < 100 ∧ b < 100 := ⟨n/100, n%100, by omega, by omega, by omega⟩
  have e0 : f0 / 2^24 = a ∧ f0 % 2^24 = 84*a + 167773*b := by omega
  have e2 : f2 / 2^24 = b := by omega
  omega
theorem A6 (n f0 f2 f4 : ℕ) (h : n < 10^6) (h0 : f0 = 429497*n) (h2 : f2 = f0 % 2^32 * 100) (h4 : f4 = f2 % 2^32 * 100) :
  f0 / 2^32 = n/10000 ∧ f2/2^32 = n/100%100 ∧ f4 / 2^32 = n % 100 := by
  obtain ⟨a, b, c, hn, ⟨ha, qa⟩, ⟨hb, qb⟩, hc, qc⟩ : ∃ a b c, n = 10000 * a + 100 * b + c ∧ (a < 100 ∧ n/10000 = a) ∧ (b < 100 ∧ n/100%100 = b) ∧ (c < 100 ∧ n%100 = c) := ⟨n/10000, n/100%100, n%100, by omega, by omega, by omega, by omega⟩
  rw [qa, qb, qc]; clear qa qb qc
  obtain ⟨x, hx⟩ : ∃ x, x = 2704*a + 42949700*b + 429497*c := ⟨_, rfl⟩
  have e0 : f0 / 2^32 = a ∧ f0 % 2^32 = x := by omega
  obtain ⟨y, hy⟩ : ∃ y, y + 2^32 * b = 100 * x := ⟨100 * x - 2^32 * b, by omega⟩
  have e2 : f2 / 2^32 = b ∧ f2 % 2^32 = y := by omega
  have e4 : f4 / 2^32 = c := by omega
  exact ⟨e0.1, e2.1, e4⟩
theorem A8 (n f0 f2 f4 f6 : ℕ) (hm : 10^6 ≤ n) (h : n < 10^8) (h0 : f0 = 281474977*n/2^16) (h2 : f2 = f0 % 2^32 * 100) (h4 : f4 = f2 % 2^32 * 100) (h6 : f6 = f4 % 2^32 * 100) :
  f0 / 2^32 = n/1000000 ∧ f2/2^32 = n/10000%100 ∧ f4 / 2^32 = n /100 % 100 ∧ f6 / 2^32 = n % 100 := by
  obtain ⟨a, b, c, d, hn, ⟨ha, qa⟩, ⟨hb, qb⟩, ⟨hc, qc⟩, hd, qd⟩ : ∃ a b c d, n = 1000000 * a + 10000 * b + 100 * c + d ∧ (a < 100 ∧ n/1000000 = a) ∧ (b < 100 ∧ n/10000%100 = b) ∧ (c < 100 ∧ n/100%100 = c) ∧ (d < 100 ∧ n%100 = d) := 
    ⟨n/1000000, n/10000%100, n/100%100, n%100, by omega, by omega, by omega, by omega, by omega⟩
  rw [qa, qb, qc, qd]; clear qa qb qc qd
  obtain ⟨x, hx⟩ : ∃ x, x + 2^32 * a = f0 := ⟨f0 - 2^32 * a, by omega⟩
  have e0 : f0 / 2^32 = a ∧ f0 % 2^32 = x := by omega
  obtain ⟨y, hy⟩ : ∃ y, y + 2^32 * b = 100 * x := ⟨100 * x - 2^32 * b, by omega⟩
  have e2 : f2 / 2^32 = b ∧ f2 % 2^32 = y := by omega
  obtain ⟨z, hz⟩ : ∃ z, z + 2^32 * c = 100 * y := ⟨100 * y - 2^32 * c, by omega⟩
  have e4 : f4 / 2^32 = c ∧ f4 % 2^32 = z := by omega
  have e6 : f6 / 2^32 = d := by omega
  exact ⟨e0.1, e2.1, e4.1, e6⟩
theorem P8 (n f0 f2 f4 f6 : ℕ) (h : n < 10^8) (h0 : f0 = 281474977*n/2^16+1) (h2 : f2 = f0 % 2^32 * 100) (h4 : f4 = f2 % 2^32 * 100) (h6 : f6 = f4 % 2^32 * 100) :
  f0 / 2^32 = n/1000000 ∧ f2/2^32 = n/10000%100 ∧ f4 / 2^32 = n /100 % 100 ∧ f6 / 2^32 = n % 100 := by
  obtain ⟨a, b, c, d, hn, ⟨ha, qa⟩, ⟨hb, qb⟩, ⟨hc, qc⟩, hd, qd⟩ : ∃ a b c d, n = 1000000 * a + 10000 * b + 100 * c + d ∧ (a < 100 ∧ n/1000000 = a) ∧ (b < 100 ∧ n/10000%100 = b) ∧ (c < 100 ∧ n/100%100 = c) ∧ (d < 100 ∧ n%100 = d) := 
    ⟨n/1000000, n/10000%100, n/100%100, n%100, by omega, by omega, by omega, by omega, by omega⟩
  rw [qa, qb, qc, qd]; clear qa qb qc qd
  obtain ⟨x, hx⟩ : ∃ x, x + 2^32 * a = f0 := ⟨f0 - 2^32 * a, by omega⟩
  have e0 : f0 / 2^32 = a ∧ f0 % 2^32 = x := by omega
  obtain ⟨y, hy⟩ : ∃ y, y + 2^32 * b = 100 * x := ⟨100 * x - 2^32 * b, by omega⟩
  have e2 : f2 / 2^32 = b ∧ f2 % 2^32 = y := by omega
  obtain ⟨z, hz⟩ : ∃ z, z + 2^32 * c = 100 * y := ⟨100 * y - 2^32 * c, by omega⟩
  have e4 : f4 / 2^32 = c ∧ f4 % 2^32 = z := by omega
  have e6 : f6 / 2^32 = d := by omega
  exact ⟨e0.1, e2.1, e4.1, e6⟩
theorem A10 (n f0 f2 f4 f6 f8 : ℕ) (h : n < 2^32) (h0 : f0 = 1441151881*n) (h2 : f2 = f0 % 2^57 * 100) (h4 : f4 = f2 % 2^57 * 100) (h6 : f6 = f4 % 2^57 * 100) (h8 : f8 = f6 % 2^57 * 100):
  f0 / 2^57 = n/100000000 ∧ f2/2^57 = n/1000000%100 ∧ f4 / 2^57 = n /10000 % 100 ∧ f6 / 2^57 = n /100 % 100 ∧ f8 / 2^57 = n % 100 := by
  obtain ⟨a, b, c, d, e, hn, ⟨ha, qa⟩, ⟨hb, qb⟩, ⟨hc, qc⟩, ⟨hd, qd⟩, he, qe⟩ : ∃ a b c d e, n = 100000000 * a + 1000000 * b + 10000 * c + 100 * d + e ∧ (a < 43 ∧ n/100000000 = a) ∧ (b < 100 ∧ n/1000000%100 = b) ∧ (c < 100 ∧ n/10000%100 = c) ∧ (d < 100 ∧ n/100%100 = d) ∧ (e < 100 ∧ n%100 = e) := 
    ⟨n/100000000, n/1000000%100, n/10000%100, n/100%100, n%100, by omega, by omega, by omega, by omega, by omega, by omega⟩
  rw [qa, qb, qc, qd, qe]; clear qa qb qc qd qe
  obtain ⟨x, hx⟩ : ∃ x, x + 2^57 * a = f0 := ⟨f0 - 2^57 * a, by omega⟩
  have e0 : f0 / 2^57 = a ∧ f0 % 2^57 = x := by omega
  obtain ⟨y, hy⟩ : ∃ y, y + 2^57 * b = 100 * x := ⟨100 * x - 2^57 * b, by omega⟩
  have e2 : f2 / 2^57 = b ∧ f2 % 2^57 = y := by omega
  obtain ⟨z, hz⟩ : ∃ z, z + 2^57 * c = 100 * y := ⟨100 * y - 2^57 * c, by omega⟩
  have e4 : f4 / 2^57 = c ∧ f4 % 2^57 = z := by omega
  obtain ⟨w, hw⟩ : ∃ w, w + 2^57 * d = 100 * z := ⟨100 * z - 2^57 * d, by omega⟩
  have e6 : f6 / 2^57 = d ∧ f6 % 2^57 = w := by omega
  have e8 : f8 / 2^57 = e := by omega
  exact ⟨e0.1, e2.1, e4.1, e6.1, e8⟩

theorem dig_eq (k : ℕ) (h : k < 10) : dig k = k.digitChar := by
  interval_cases k <;> rfl

/-- the two decimal digits of `k < 100` -/
def two (k : ℕ) : List Char := [dig (k / 10), dig (k % 10)]

theorem toDigits_two (n : ℕ) (h : 10 ≤ n) (h2 : n < 100) : Nat.toDigits 10 n = two n := by
  rw [Nat.toDigits_of_base_le (by norm_num) h, Nat.toDigits_of_lt_base (by omega), two, dig_eq _ (by omega), dig_eq _ (by omega)]
  rfl

theorem toDigits_100 (n : ℕ) (h : 100 ≤ n) : Nat.toDigits 10 n = Nat.toDigits 10 (n / 100) ++ two (n % 100) := by
  rw [Nat.toDigits_of_base_le (by norm_num) (by omega : 10 ≤ n), Nat.toDigits_of_base_le (by norm_num) (by omega : 10 ≤ n/10)]
  rw [two, dig_eq _ (by omega), dig_eq _ (by omega), show n / 10 / 10 = n / 100 by omega,
    show n / 10 % 10 = n % 100 / 10 by omega, show n % 10 = n % 100 % 10 by omega]
  simp

theorem len_lt (k : ℕ) (h : k < 10) : (Nat.toDigits 10 k).length = 1 := by
  rw [Nat.toDigits_of_lt_base h]; rfl

theorem len_two (k : ℕ) (h : 10 ≤ k) (h2 : k < 100) : (Nat.toDigits 10 k).length = 2 := by
  rw [toDigits_two k h h2]; rfl

theorem len_100 (n : ℕ) (h : 100 ≤ n) : (Nat.toDigits 10 n).length = (Nat.toDigits 10 (n / 100)).length + 2 := by
  rw [toDigits_100 n h]; simp [two]

theorem put2_at (pre : List Char) (x y : Char) (post : List Char) (c : Char × Char) :
    put2 (pre ++ x :: y :: post) (pre.length : ℤ) c = some (pre ++ c.1 :: c.2 :: post) := by
  have h1 : put1 (pre ++ x :: y :: post) (pre.length : ℤ) c.1 = some (pre ++ c.1 :: y :: post) := by
    unfold put1; rw [if_pos (by simp; omega)]; simp
  unfold put2
  rw [h1]
  simp only [Option.bind_eq_bind, Option.bind_some]
  unfold put1
  rw [if_pos (by simp; omega), show ((pre.length : ℤ) + 1).toNat = pre.length + 1 by omega]
  simp [List.set_append]

/-- writing an entry of `dd` -/
theorem pair_put (pre post : List Char) (b : ℤ) (hb : b = pre.length) (k : ℕ) (hk : k < 100) (hp : 2 ≤ post.length) :
    ((dd k).bind (fun c => put2 (pre ++ post) b c)) = some ((pre ++ two k) ++ post.drop 2) := by
  match post, hp with
  | x :: y :: post, _ =>
    rw [dd, if_pos hk, hb]
    simp only [Option.bind_some]
    rw [put2_at]
    simp [two]

/-- writing an entry of `fd`: a one-digit entry is followed by a zero byte -/
theorem lead_put (pre post : List Char) (b : ℤ) (hb : b = pre.length) (k : ℕ) (hk : k < 100) (hp : 2 ≤ post.length) :
    ∃ post', (fd k).bind (fun c => put2 (pre ++ post) b c) = some ((pre ++ Nat.toDigits 10 k) ++ post') ∧
      post'.length + (Nat.toDigits 10 k).length = post.length ∧
      post'.drop 2 = post.drop ((Nat.toDigits 10 k).length + 2) ∧
      (k < 10 → post' = '\x00' :: post.drop 2) ∧ (10 ≤ k → post' = post.drop 2) := by
  match post, hp with
  | x :: y :: post, _ =>
    by_cases h : k < 10
    · refine ⟨'\x00' :: post, ?_, ?_, ?_, ?_, ?_⟩
      · rw [fd, if_pos h, hb]
        simp only [Option.bind_some]
        rw [put2_at, Nat.toDigits_of_lt_base h, dig_eq _ h]; simp
      · rw [len_lt k h]; simp
      · rw [len_lt k h]; simp
      · intro; simp
      · intro; omega
    · refine ⟨post, ?_, ?_, ?_, ?_, ?_⟩
      · rw [fd, if_neg h, pair_put pre _ b hb k hk (by simp), toDigits_two k (by omega) hk]; simp
      · rw [len_two k (by omega) hk]; simp
      · rw [len_two k (by omega) hk]; simp
      · intro; omega
      · intro; simp

theorem drop_eq {l m : List Char} {i j k : ℕ} (h : l.drop i = m.drop j) : l.drop (i + k) = m.drop (j + k) := by
  rw [← List.drop_drop, h, List.drop_drop]

/-- what a block does -/
def Appends (f : Buf → ℤ → Option (Buf × ℤ)) (s : List Char) : Prop :=
  ∀ (pre post : List Char) (b : ℤ), b = pre.length → s.length ≤ post.length →
    f (pre ++ post) b = some ((pre ++ s) ++ post.drop s.length, ((pre ++ s).length : ℤ))

theorem block4_ok (W n : ℕ) (hW : W = 32 ∨ W = 64) (h1 : 100 ≤ n) (h2 : n < 10000) :
    Appends (block4 W n) (Nat.toDigits 10 n) := by
  intro pre post b hb hp
  have hw : 167773 * n % 2^W = 167773 * n := by rcases hW with rfl | rfl <;> omega
  obtain ⟨a0, a2⟩ := A4 n _ _ h2 rfl rfl
  have hw2 : w64 (167773 * n % 2^24 * 100) = 167773 * n % 2^24 * 100 := by unfold w64; omega
  unfold block4
  simp only [hw, hw2, a0, a2]
  have hl := len_100 n h1
  have hl0 := Nat.length_toDigits_pos (b := 10) (n := n / 100)
  obtain ⟨p, e1, e2, e3, -, -⟩ := lead_put pre post b hb (n / 100) (by omega) (by omega)
  simp only [Option.bind_eq_bind]
  have hl1 : (n < 1000 → (Nat.toDigits 10 (n/100)).length = 1) ∧ (¬ n < 1000 → (Nat.toDigits 10 (n/100)).length = 2) :=
    ⟨fun h => len_lt _ (by omega), fun h => len_two _ (by omega) (by omega)⟩
  rw [← Option.bind_assoc, e1, Option.bind_some, ← Option.bind_assoc,
    pair_put _ p _ (by simp only [List.length_append, Nat.cast_add]; split_ifs with hc <;> [have := hl1.1 hc; have := hl1.2 hc] <;> omega) _ (by omega) (by omega)]
  rw [toDigits_100 n h1, e3]
  simp only [Option.bind_some, Option.pure_def, Option.some.injEq, Prod.mk.injEq]
  refine ⟨by simp [two], ?_⟩
  simp only [List.length_append, Nat.cast_add, two, List.length_cons, List.length_nil]
  split_ifs with hc <;> [have := hl1.1 hc; have := hl1.2 hc] <;> omega

theorem block6_ok (n : ℕ) (h1 : 10000 ≤ n) (h2 : n < 1000000) : Appends (block6 n) (Nat.toDigits 10 n) := by
  intro pre post b hb hp
  have hw : w64 (429497 * n) = 429497 * n := by unfold w64; omega
  obtain ⟨a0, a2, a4⟩ := A6 n _ _ _ h2 rfl rfl rfl 
  have hw2 : ∀ x, w64 (x % 2^32 * 100) = x % 2^32 * 100 := by intro x; unfold w64; omega
  unfold block6
  simp only [hw, hw2, a0, a2, a4]
  have hl0 := len_100 n (by omega)
  have hl1 := len_100 (n / 100) (by omega)
  have q1 : n / 100 / 100 = n / 10000 := by omega
  rw [q1] at hl1
  have hlp := Nat.length_toDigits_pos (b := 10) (n := n / 10000)
  obtain ⟨p, e1, e2, e3, -, -⟩ := lead_put pre post b hb (n / 10000) (by omega) (by omega)
  simp only [Option.bind_eq_bind]
  have hs : (if n < 100000 then (1:ℤ) else 0) = 2 - (Nat.toDigits 10 (n / 10000)).length := by
    split_ifs with hc
    · rw [len_lt _ (by omega)]; rfl
    · rw [len_two _ (by omega) (by omega)]; rfl
  rw [hs, ← Option.bind_assoc, e1, Option.bind_some]
  rw [← Option.bind_assoc, pair_put _ p _ (by simp only [List.length_append, two, List.length_cons, List.length_nil, Nat.cast_add]; push_cast; omega) _ (by omega) (by omega), Option.bind_some]
  rw [← Option.bind_assoc, pair_put _ (p.drop 2) _ (by simp only [List.length_append, two, List.length_cons, List.length_nil, Nat.cast_add]; push_cast; omega) _ (by omega) (by simp only [List.length_drop]; omega), Option.bind_some]
  rw [List.drop_drop]
  have e4 : p.drop 4 = post.drop ((Nat.toDigits 10 n).length) := by
    have := drop_eq (k := 2) e3
    rw [show (Nat.toDigits 10 n).length = (Nat.toDigits 10 (n / 10000)).length + 2 + 2 by omega, ← this]
  have e5 : Nat.toDigits 10 n = Nat.toDigits 10 (n / 10000) ++ two (n / 100 % 100) ++ two (n % 100) := by
    rw [toDigits_100 n (by omega), toDigits_100 (n / 100) (by omega), q1]
  simp only [Option.pure_def, Option.some.injEq, Prod.mk.injEq]
  refine ⟨?_, ?_⟩
  · rw [← e4, e5]; simp only [List.append_assoc]
  · simp only [List.length_append, Nat.cast_add]; push_cast; omega

theorem block8_ok (n : ℕ) (h1 : 1000000 ≤ n) (h2 : n < 100000000) : Appends (block8 n) (Nat.toDigits 10 n) := by
  intro pre post b hb hp
  have hw : w64 (281474977 * n) = 281474977 * n := by unfold w64; omega
  obtain ⟨a0, a2, a4, a6⟩ := A8 n _ _ _ _ h1 h2 rfl rfl rfl rfl 
  have hw2 : ∀ x, w64 (x % 2^32 * 100) = x % 2^32 * 100 := by intro x; unfold w64; omega
  unfold block8
  simp only [hw, hw2, a0, a2, a4, a6]
  have hl0 := len_100 n (by omega)
  have hl1 := len_100 (n / 100) (by omega)
  have q1 : n / 100 / 100 = n / 10000 := by omega
  rw [q1] at hl1
  have hl2 := len_100 (n / 10000) (by omega)
  have q2 : n / 10000 / 100 = n / 1000000 := by omega
  rw [q2] at hl2
  have hlp := Nat.length_toDigits_pos (b := 10) (n := n / 1000000)
  obtain ⟨p, e1, e2, e3, -, -⟩ := lead_put pre post b hb (n / 1000000) (by omega) (by omega)
  simp only [Option.bind_eq_bind]
  have hs : (if n < 10000000 then (1:ℤ) else 0) = 2 - (Nat.toDigits 10 (n / 1000000)).length := by
    split_ifs with hc
    · rw [len_lt _ (by omega)]; rfl
    · rw [len_two _ (by omega) (by omega)]; rfl
  rw [hs, ← Option.bind_assoc, e1, Option.bind_some]
  rw [← Option.bind_assoc, pair_put _ p _ (by simp only [List.length_append, two, List.length_cons, List.length_nil, Nat.cast_add]; push_cast; omega) _ (by omega) (by omega), Option.bind_some]
  rw [← Option.bind_assoc, pair_put _ (p.drop 2) _ (by simp only [List.length_append, two, List.length_cons, List.length_nil, Nat.cast_add]; push_cast; omega) _ (by omega) (by simp only [List.length_drop]; omega), Option.bind_some]
  rw [List.drop_drop]
  rw [← Option.bind_assoc, pair_put _ (p.drop 4) _ (by simp only [List.length_append, two, List.length_cons, List.length_nil, Nat.cast_add]; push_cast; omega) _ (by omega) (by simp only [List.length_drop]; omega), Option.bind_some]
  rw [List.drop_drop]
  have e4 : p.drop 6 = post.drop ((Nat.toDigits 10 n).length) := by
    have := drop_eq (k := 4) e3
    rw [show (Nat.toDigits 10 n).length = (Nat.toDigits 10 (n / 1000000)).length + 2 + 4 by omega, ← this]
  have e5 : Nat.toDigits 10 n = Nat.toDigits 10 (n / 1000000) ++ two (n / 10000 % 100) ++ two (n / 100 % 100) ++ two (n % 100) := by
    rw [toDigits_100 n (by omega), toDigits_100 (n / 100) (by omega), q1, toDigits_100 (n / 10000) (by omega), q2]
  simp only [Option.pure_def, Option.some.injEq, Prod.mk.injEq]
  refine ⟨?_, ?_⟩
  · rw [← e4, e5]; simp only [List.append_assoc]
  · simp only [List.length_append, Nat.cast_add]; push_cast; omega

theorem block10_ok (n : ℕ) (h1 : 100000000 ≤ n) (h2 : n < 4294967296) : Appends (block10 n) (Nat.toDigits 10 n) := by
  intro pre post b hb hp
  have hw : w64 (1441151881 * n) = 1441151881 * n := by unfold w64; omega
  obtain ⟨a0, a2, a4, a6, a8⟩ := A10 n _ _ _ _ _ h2 rfl rfl rfl rfl rfl 
  have hw2 : ∀ x, w64 (x % 2^57 * 100) = x % 2^57 * 100 := by intro x; unfold w64; omega
  unfold block10
  simp only [hw, hw2, a0, a2, a4, a6, a8]
  have hl0 := len_100 n (by omega)
  have hl1 := len_100 (n / 100) (by omega)
  have q1 : n / 100 / 100 = n / 10000 := by omega
  rw [q1] at hl1
  have hl2 := len_100 (n / 10000) (by omega)
  have q2 : n / 10000 / 100 = n / 1000000 := by omega
  rw [q2] at hl2
  have hl3 := len_100 (n / 1000000) (by omega)
  have q3 : n / 1000000 / 100 = n / 100000000 := by omega
  rw [q3] at hl3
  have hlp := Nat.length_toDigits_pos (b := 10) (n := n / 100000000)
  obtain ⟨p, e1, e2, e3, -, -⟩ := lead_put pre post b hb (n / 100000000) (by omega) (by omega)
  simp only [Option.bind_eq_bind]
  have hs : (if n < 1000000000 then (1:ℤ) else 0) = 2 - (Nat.toDigits 10 (n / 100000000)).length := by
    split_ifs with hc
    · rw [len_lt _ (by omega)]; rfl
    · rw [len_two _ (by omega) (by omega)]; rfl
  rw [hs, ← Option.bind_assoc, e1, Option.bind_some]
  rw [← Option.bind_assoc, pair_put _ p _ (by simp only [List.length_append, two, List.length_cons, List.length_nil, Nat.cast_add]; push_cast; omega) _ (by omega) (by omega), Option.bind_some]
  rw [← Option.bind_assoc, pair_put _ (p.drop 2) _ (by simp only [List.length_append, two, List.length_cons, List.length_nil, Nat.cast_add]; push_cast; omega) _ (by omega) (by simp only [List.length_drop]; omega), Option.bind_some]
  rw [List.drop_drop]
  rw [← Option.bind_assoc, pair_put _ (p.drop 4) _ (by simp only [List.length_append, two, List.length_cons, List.length_nil, Nat.cast_add]; push_cast; omega) _ (by omega) (by simp only [List.length_drop]; omega), Option.bind_some]
  rw [List.drop_drop]
  rw [← Option.bind_assoc, pair_put _ (p.drop 6) _ (by simp only [List.length_append, two, List.length_cons, List.length_nil, Nat.cast_add]; push_cast; omega) _ (by omega) (by simp only [List.length_drop]; omega), Option.bind_some]
  rw [List.drop_drop]
  have e4 : p.drop 8 = post.drop ((Nat.toDigits 10 n).length) := by
    have := drop_eq (k := 6) e3
    rw [show (Nat.toDigits 10 n).length = (Nat.toDigits 10 (n / 100000000)).length + 2 + 6 by omega, ← this]
  have e5 : Nat.toDigits 10 n = Nat.toDigits 10 (n / 100000000) ++ two (n / 1000000 % 100) ++ two (n / 10000 % 100) ++ two (n / 100 % 100) ++ two (n % 100) := by
    rw [toDigits_100 n (by omega), toDigits_100 (n / 100) (by omega), q1, toDigits_100 (n / 10000) (by omega), q2, toDigits_100 (n / 1000000) (by omega), q3]
  simp only [Option.pure_def, Option.some.injEq, Prod.mk.injEq]
  refine ⟨?_, ?_⟩
  · rw [← e4, e5]; simp only [List.append_assoc]
  · simp only [List.length_append, Nat.cast_add]; push_cast; omega

/-- the eight decimal digits of `z < 10^8` -/
def eight (z : ℕ) : List Char := two (z / 1000000) ++ two (z / 10000 % 100) ++ two (z / 100 % 100) ++ two (z % 100)

theorem eight_length (z : ℕ) : (eight z).length = 8 := rfl

theorem toDigits_eight (n : ℕ) (h : 100000000 ≤ n) :
    Nat.toDigits 10 n = Nat.toDigits 10 (n / 100000000) ++ eight (n % 100000000) := by
  rw [toDigits_100 n (by omega), toDigits_100 (n / 100) (by omega), toDigits_100 (n / 100 / 100) (by omega),
    toDigits_100 (n / 100 / 100 / 100) (by omega), eight,
    show n / 100 / 100 / 100 / 100 = n / 100000000 by omega, show n / 100 / 100 / 100 % 100 = n % 100000000 / 1000000 by omega,
    show n / 100 / 100 % 100 = n % 100000000 / 10000 % 100 by omega, show n / 100 % 100 = n % 100000000 / 100 % 100 by omega,
    show n % 100 = n % 100000000 % 100 by omega]
  simp only [List.append_assoc]

theorem pad8_ok (z : ℕ) (hz : z < 10^8) : Appends (pad8 z) (eight z) := by
  intro pre post b hb hp
  rw [eight_length] at hp
  have hw0 : w64 (281474977 * z) = 281474977 * z := by unfold w64; omega
  have hw : w64 (w64 (281474977 * z) / 2^16 + 1) = 281474977 * z / 2^16 + 1 := by rw [hw0]; unfold w64; omega
  obtain ⟨a0, a2, a4, a6⟩ := P8 z _ _ _ _ hz rfl rfl rfl rfl
  have hw2 : ∀ x, w64 (x % 2^32 * 100) = x % 2^32 * 100 := by intro x; unfold w64; omega
  unfold pad8
  simp only [hw, hw2, a0, a2, a4, a6, Option.bind_eq_bind]
  rw [← Option.bind_assoc, pair_put pre post b hb _ (by omega) (by omega), Option.bind_some]
  rw [← Option.bind_assoc, pair_put _ _ _ (by simp only [List.length_append, two, List.length_cons, List.length_nil, Nat.cast_add]; push_cast; omega) _ (by omega) (by simp only [List.length_drop]; omega), Option.bind_some, List.drop_drop]
  rw [← Option.bind_assoc, pair_put _ _ _ (by simp only [List.length_append, two, List.length_cons, List.length_nil, Nat.cast_add]; push_cast; omega) _ (by omega) (by simp only [List.length_drop]; omega), Option.bind_some, List.drop_drop]
  rw [← Option.bind_assoc, pair_put _ _ _ (by simp only [List.length_append, two, List.length_cons, List.length_nil, Nat.cast_add]; push_cast; omega) _ (by omega) (by simp only [List.length_drop]; omega), Option.bind_some, List.drop_drop]
  simp only [Option.pure_def, Option.some.injEq, Prod.mk.injEq, eight_length]
  refine ⟨by simp [eight], ?_⟩
  rw [List.length_append, eight_length]; push_cast; omega

theorem Appends.comp {f g : Buf → ℤ → Option (Buf × ℤ)} {s t : List Char} (hf : Appends f s) (hg : Appends g t) :
    Appends (fun buf b => (f buf b).bind (fun r => g r.1 r.2)) (s ++ t) := by
  intro pre post b hb hp
  simp only [List.length_append] at hp
  simp only
  rw [hf pre post b hb (by omega)]
  simp only [Option.bind_some]
  rw [hg _ _ _ rfl (by simp only [List.length_drop]; omega)]
  simp [List.drop_drop]

theorem dd_ok (u : ℕ) (h1 : 10 ≤ u) (h2 : u < 100) :
    Appends (fun buf b => (do let buf ← put2 buf b (← dd u); pure (buf, b + 2) : Option (Buf × ℤ))) (Nat.toDigits 10 u) := by
  intro pre post b hb hp
  rw [len_two u h1 h2] at hp ⊢
  simp only [Option.bind_eq_bind]
  rw [← Option.bind_assoc, pair_put pre post b hb u h2 hp, toDigits_two u h1 h2]
  simp only [Option.bind_some, Option.pure_def, Option.some.injEq, Prod.mk.injEq, true_and]
  simp [two]; omega

theorem toTextU_large (w n : ℕ) (h1 : 100 ≤ n) (h2 : n < 2^64) : Appends (toTextU w n) (Nat.toDigits 10 n) := by
  have unfold1 : ∀ buf b, toTextU w n buf b = (if n < 1000000 then
    (if n < 10000 then block4 (if w ≤ 32 then 32 else 64) n buf b else block6 n buf b)
    else if n < 2^32 then
      (if n < 100000000 then block8 n buf b else block10 n buf b)
    else ((if n / 100000000 < 100 then (do let buf ← put2 buf b (← dd (n / 100000000)); pure (buf, b + 2) : Option (Buf × ℤ))
      else if n / 100000000 < 1000000 then
        if n / 100000000 < 10000 then block4 64 (n / 100000000) buf b else block6 (n / 100000000) buf b
      else if n / 100000000 < 100000000 then block8 (n / 100000000) buf b
      else if n / 100000000 < 2^32 then block10 (n / 100000000) buf b
      else (if n / 100000000 / 100000000 < 100 then (do let buf ← put2 buf b (← dd (n / 100000000 / 100000000)); pure (buf, b + 2) : Option (Buf × ℤ)) else block4 64 (n / 100000000 / 100000000) buf b).bind
        (fun r => pad8 (n / 100000000 % 100000000) r.1 r.2)).bind (fun r => pad8 (n % 100000000) r.1 r.2))) := by
    intro buf b
    unfold toTextU
    rw [if_neg (by omega)]
    rfl
  have : toTextU w n = fun buf b => toTextU w n buf b := rfl
  rw [this]
  simp only [unfold1]
  split_ifs with c1 c2 c3 c4 c5 c6 c7 c8 c9 c10 c11
  · exact block4_ok 32 n (by omega) h1 c2
  · exact block4_ok 64 n (by omega) h1 c2
  · exact block6_ok n (by omega) c1
  · exact block8_ok n (by omega) c5
  · exact block10_ok n (by omega) c4
  · rw [toDigits_eight n (by omega)]; exact (dd_ok _ (by omega) c6).comp (pad8_ok _ (by omega))
  · rw [toDigits_eight n (by omega)]; exact (block4_ok 64 _ (by omega) (by omega) c8).comp (pad8_ok _ (by omega))
  · rw [toDigits_eight n (by omega)]; exact (block6_ok _ (by omega) c7).comp (pad8_ok _ (by omega))
  · rw [toDigits_eight n (by omega)]; exact (block8_ok _ (by omega) c9).comp (pad8_ok _ (by omega))
  · rw [toDigits_eight n (by omega)]; exact (block10_ok _ (by omega) c10).comp (pad8_ok _ (by omega))
  · rw [toDigits_eight n (by omega), toDigits_eight (n / 100000000) (by omega)]
    exact ((dd_ok _ (by omega) c11).comp (pad8_ok _ (by omega))).comp (pad8_ok _ (by omega))
  · rw [toDigits_eight n (by omega), toDigits_eight (n / 100000000) (by omega)]
    exact ((block4_ok 64 _ (by omega) (by omega) (by omega)).comp (pad8_ok _ (by omega))).comp (pad8_ok _ (by omega))

end Verif.Itoa
