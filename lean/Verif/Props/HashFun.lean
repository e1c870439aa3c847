import Verif.HashFun
import Mathlib.Tactic.Common
import Mathlib.Tactic.NormNum
import Mathlib.Algebra.Order.Ring.Nat
import Mathlib.Tactic.IntervalCases
/-!
# C112: hash functions
-/
namespace Verif.HashFun

/-! ## Specification -/

/-- the ranges of the integer types: `w` bits, signed or not -/
def InType (signed : Bool) (w : ℕ) (v : ℤ) : Prop := if signed then -2 ^ (w - 1) ≤ v ∧ v < 2 ^ (w - 1) else 0 ≤ v ∧ v < 2 ^ w

/-- IEEE formats: bytes and bits of the fraction -/
inductive IsFormat : ℕ → ℕ → Prop where
  | float : IsFormat 4 23
  | double : IsFormat 8 52

/-- not a number: all bits of the exponent set and the fraction not 0 -/
def isNaN (n f x : ℕ) : Prop := x / 2 ^ f % 2 ^ (8 * n - 1 - f) = 2 ^ (8 * n - 1 - f) - 1 ∧ x % 2 ^ f ≠ 0

/-- `a == b` by IEEE 754: neither is NaN, and the patterns are the same or both are zeros (of any sign) -/
def ieeeEq (n f a b : ℕ) : Prop := ¬ isNaN n f a ∧ ¬ isNaN n f b ∧ (a = b ∨ (a = 0 ∨ a = 2 ^ (8 * n - 1)) ∧ (b = 0 ∨ b = 2 ^ (8 * n - 1)))

/-! ## Proof -/

/-- the inverse of the prime -/
def inv : BitVec 64 := 14886173955864302971#64

theorem prime_inv : fnvPrime * inv = 1#64 := by decide

theorem step_inj {r s : BitVec 64} {b : BitVec 8} (h : fnvStep r b = fnvStep s b) : r = s := by
  unfold fnvStep at h
  have h2 := congrArg (· * inv) h
  simp only [BitVec.mul_assoc, prime_inv, BitVec.mul_one] at h2
  exact (BitVec.xor_left_inj _).1 h2

theorem step_byte {r : BitVec 64} {b c : BitVec 8} (h : fnvStep r b = fnvStep r c) : b = c := by
  unfold fnvStep at h
  have h2 := congrArg (· * inv) h
  simp only [BitVec.mul_assoc, prime_inv, BitVec.mul_one] at h2
  have h3 := (BitVec.xor_right_inj _).1 h2
  have h4 := congrArg BitVec.toNat h3
  simp only [BitVec.toNat_setWidth] at h4
  apply BitVec.eq_of_toNat_eq
  have := b.isLt
  have := c.isLt
  rwa [Nat.mod_eq_of_lt (by omega), Nat.mod_eq_of_lt (by omega)] at h4

theorem fold_inj (l : List (BitVec 8)) : ∀ {r s : BitVec 64}, l.foldl fnvStep r = l.foldl fnvStep s → r = s := by
  induction l with
  | nil => intro r s h; exact h
  | cons b l ih => intro r s h; exact step_inj (ih h)

/-- **C112.**  Two blocks of memory of any length that differ in exactly one byte have different hashes. -/
theorem c112_one_byte (l r : List (BitVec 8)) (b c : BitVec 8) (h : b ≠ c) : bitwiseHash (l ++ b :: r) ≠ bitwiseHash (l ++ c :: r) := by
  intro e
  unfold bitwiseHash at e
  rw [List.foldl_append, List.foldl_append] at e
  exact h (step_byte (fold_inj r e))

/-- **C112.**  Integers, characters, `bool` and pointers (unsigned, 64 bits): the hashes of two values of one type are equal exactly when
the values are. -/
theorem c112_integers (signed : Bool) (w : ℕ) (hw : 1 ≤ w) (hw2 : w ≤ 64) (u v : ℤ) (hu : InType signed w u) (hv : InType signed w v) :
    hashInt u = hashInt v ↔ u = v := by
  refine ⟨fun h => ?_, fun h => by rw [h]⟩
  have h2 := congrArg BitVec.toInt h
  unfold hashInt at h2
  rw [BitVec.toInt_ofInt, BitVec.toInt_ofInt] at h2
  have h3 : u % 2 ^ 64 = v % 2 ^ 64 := by
    have e1 := Int.bmod_emod (x := u) (m := 2 ^ 64)
    have e2 := Int.bmod_emod (x := v) (m := 2 ^ 64)
    rw [h2] at e1
    have := e1.symm.trans e2
    simpa using this
  unfold InType at hu hv
  have p1 : (2 : ℤ) ^ w ≤ 2 ^ 64 := pow_le_pow_right₀ (by norm_num) hw2
  have p2 : (2 : ℤ) ^ (w - 1) ≤ 2 ^ 63 := pow_le_pow_right₀ (by norm_num) (by omega)
  cases signed <;> simp only [if_true, Bool.false_eq_true, if_false] at hu hv <;> norm_num at p1 p2 h3 <;> omega

theorem zero_iff {n f x : ℕ} (hf : IsFormat n f) (hx : x < 2 ^ (8 * n)) : isZero n x = true ↔ x = 0 ∨ x = 2 ^ (8 * n - 1) := by
  unfold isZero
  rw [beq_iff_eq]
  cases hf <;> norm_num at hx ⊢ <;> omega

/-- **C112.**  `float` and `double`: numbers that are equal have equal hashes — also 0 and -0, whose bits differ. -/
theorem c112_equal (n f : ℕ) (hf : IsFormat n f) (a b : ℕ) (ha : a < 2 ^ (8 * n)) (hb : b < 2 ^ (8 * n)) (h : ieeeEq n f a b) :
    hashFloat n a = hashFloat n b := by
  rcases h.2.2 with h | ⟨h1, h2⟩
  · rw [h]
  · unfold hashFloat
    rw [if_pos ((zero_iff hf ha).2 h1), if_pos ((zero_iff hf hb).2 h2)]

/-- **C112.**  Numbers other than 0 whose patterns differ in exactly one byte have different hashes. -/
theorem c112_differ (n f : ℕ) (hf : IsFormat n f) (a b i : ℕ) (ha : a < 2 ^ (8 * n)) (hb : b < 2 ^ (8 * n)) (hi : i < n)
    (hd : a / 256 ^ i % 256 ≠ b / 256 ^ i % 256) (hs : ∀ j < n, j ≠ i → a / 256 ^ j % 256 = b / 256 ^ j % 256)
    (h1 : ¬ (a = 0 ∨ a = 2 ^ (8 * n - 1))) (h2 : ¬ (b = 0 ∨ b = 2 ^ (8 * n - 1))) : hashFloat n a ≠ hashFloat n b := by
  unfold hashFloat
  rw [if_neg (fun h => h1 ((zero_iff hf ha).1 h)), if_neg (fun h => h2 ((zero_iff hf hb).1 h))]
  have byte : ∀ x j : ℕ, (BitVec.ofNat 8 (x / 256 ^ j)).toNat = x / 256 ^ j % 256 := fun x j => by rw [BitVec.toNat_ofNat]
  have same : ∀ j < n, j ≠ i → BitVec.ofNat 8 (a / 256 ^ j) = BitVec.ofNat 8 (b / 256 ^ j) := fun j hj hne =>
    BitVec.eq_of_toNat_eq (by rw [byte, byte]; exact hs j hj hne)
  obtain ⟨k, rfl⟩ : ∃ k, n = i + (k + 1) := ⟨n - i - 1, by omega⟩
  have split : ∀ x : ℕ, bytesOf (i + (k + 1)) x = (List.range i).map (fun j => BitVec.ofNat 8 (x / 256 ^ j)) ++
      BitVec.ofNat 8 (x / 256 ^ i) :: (List.range k).map fun j => BitVec.ofNat 8 (x / 256 ^ (i + (j + 1))) := by
    intro x
    unfold bytesOf
    rw [List.range_add, List.map_append, List.range_succ_eq_map, List.map_cons, List.map_cons, List.map_map, List.map_map]
    rfl
  rw [split, split]
  have e1 : (List.range i).map (fun j => BitVec.ofNat 8 (a / 256 ^ j)) = (List.range i).map (fun j => BitVec.ofNat 8 (b / 256 ^ j)) :=
    List.map_congr_left fun j hj => same j (by have := List.mem_range.1 hj; omega) (by have := List.mem_range.1 hj; omega)
  have e2 : (List.range k).map (fun j => BitVec.ofNat 8 (a / 256 ^ (i + (j + 1)))) = (List.range k).map (fun j => BitVec.ofNat 8 (b / 256 ^ (i + (j + 1)))) :=
    List.map_congr_left fun j hj => same _ (by have := List.mem_range.1 hj; omega) (by omega)
  rw [e1, e2]
  refine c112_one_byte _ _ _ _ fun h => hd ?_
  rw [← byte, ← byte, h]

/-- the bits of 1.0 and of the next double -/
example : hashFloat 8 0x3ff0000000000000 ≠ hashFloat 8 0x3ff0000000000001 :=
  c112_differ 8 52 .double 0x3ff0000000000000 0x3ff0000000000001 0 (by norm_num) (by norm_num) (by norm_num) (by norm_num)
    (fun j hj h => by interval_cases j <;> first | omega | norm_num) (by norm_num) (by norm_num)

/-- 0.0f == -0.0f -/
example : ieeeEq 4 23 0 0x80000000 := by
  refine ⟨?_, ?_, Or.inr ⟨Or.inl rfl, Or.inr (by norm_num)⟩⟩ <;> unfold isNaN <;> norm_num

/-- **C112, defect.**  A `long double` has 10 bytes that matter and 6 that do not (`value` and `padding`), but all 16 are hashed: the same
number with one other byte of padding has another hash, so that a hash table may not find it. -/
theorem c112_long_double_defect (value : List (BitVec 8)) (hv : value.length = 10) (p q : BitVec 8) (h : p ≠ q) (rest : List (BitVec 8))
    (hr : rest.length = 5) :
    (value ++ p :: rest).take 10 = (value ++ q :: rest).take 10 ∧ (value ++ p :: rest).length = 16 ∧
      hashLongDouble (value ++ p :: rest) ≠ hashLongDouble (value ++ q :: rest) := by
  refine ⟨?_, by simp [hv, hr], c112_one_byte value rest p q h⟩
  rw [← hv, List.take_left, List.take_left]

end Verif.HashFun
