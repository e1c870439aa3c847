import Verif.Iterators
import Mathlib.Tactic.Common
/-!
# C114: distance, advance, reverse iterators
-/
namespace Verif.Iterators

variable {α : Type}

/-! ## Specification

A reverse iterator `r` into `l` stands for the place `mirror l r` in the reversed list. -/

def mirror (l : List α) (r : ℕ) : ℕ := l.length - r

/-- the operators of iterators into `l`, as relations of integers -/
def Moves (l : List α) (i : ℕ) (n : ℤ) (j : Option ℕ) : Prop :=
  j = if 0 ≤ (i : ℤ) + n ∧ (i : ℤ) + n ≤ l.length then some ((i : ℤ) + n).toNat else none

/-! ## Proof -/

theorem distLoop_ok (len last : ℕ) (hl : last ≤ len) : ∀ (k first fuel : ℕ) (n : ℤ), first + k = last → k < fuel →
    distLoop len last fuel first n = some (n + k) := by
  intro k
  induction k with
  | zero =>
    intro first fuel n h hf
    obtain ⟨f, rfl⟩ : ∃ f, fuel = f + 1 := ⟨fuel - 1, by omega⟩
    rw [distLoop, if_neg (by omega)]
    simp
  | succ k ih =>
    intro first fuel n h hf
    obtain ⟨f, rfl⟩ : ∃ f, fuel = f + 1 := ⟨fuel - 1, by omega⟩
    rw [distLoop, if_pos (by omega), inc, if_pos (by omega)]
    simp only [Option.bind_eq_bind, Option.bind_some]
    rw [ih (first + 1) f (n + 1) (by omega) (by omega)]
    congr 1
    push_cast
    omega

theorem distLoop_none (len last : ℕ) : ∀ (fuel first : ℕ) (n : ℤ), last < first → distLoop len last fuel first n = none := by
  intro fuel
  induction fuel with
  | zero => intros; rfl
  | succ f ih =>
    intro first n h
    rw [distLoop, if_pos (by omega), inc]
    split
    · simp only [Option.bind_eq_bind, Option.bind_some]
      exact ih _ _ (by omega)
    · rfl

/-- **C114.**  `distance(first, last)` of a range in the sequence is the number of elements, for every category. -/
theorem c114_distance (c : Cat) (len first last : ℕ) (h1 : first ≤ last) (h2 : last ≤ len) :
    distance c len first last = some ((last : ℤ) - first) := by
  have := distLoop_ok len last h2 (last - first) first (len + 1) 0 (by omega) (by omega)
  cases c
  · simp only [distance]
    rw [this]
    congr 1
    omega
  · simp only [distance]
    rw [this]
    congr 1
    omega
  · rfl

/-- **C114.**  The other way round only random access iterators have a (negative) distance; the others run out of the sequence. -/
theorem c114_distance_back (c : Cat) (len first last : ℕ) (h1 : last < first) :
    distance c len first last = (match c with | .random => some (-((first : ℤ) - last)) | _ => none) := by
  cases c
  · exact distLoop_none len last _ _ _ h1
  · exact distLoop_none len last _ _ _ h1
  · simp only [distance]
    congr 1
    omega

theorem upLoop_ok (len : ℕ) : ∀ (k i fuel : ℕ), i + k ≤ len → k < fuel → upLoop len fuel i k = some (i + k) := by
  intro k
  induction k with
  | zero =>
    intro i fuel h hf
    obtain ⟨f, rfl⟩ : ∃ f, fuel = f + 1 := ⟨fuel - 1, by omega⟩
    rw [upLoop, if_neg (by omega), Nat.add_zero]
  | succ k ih =>
    intro i fuel h hf
    obtain ⟨f, rfl⟩ : ∃ f, fuel = f + 1 := ⟨fuel - 1, by omega⟩
    rw [upLoop, if_pos (by omega), inc, if_pos (by omega)]
    simp only [Option.bind_eq_bind, Option.bind_some]
    rw [show ((k + 1 : ℕ) : ℤ) - 1 = (k : ℤ) by omega, ih (i + 1) f (by omega) (by omega)]
    congr 1
    omega

theorem upLoop_none (len : ℕ) : ∀ (fuel i : ℕ) (n : ℤ), n < 0 ∨ (len : ℤ) < i + n → i ≤ len → upLoop len fuel i n = none := by
  intro fuel
  induction fuel with
  | zero => intros; rfl
  | succ f ih =>
    intro i n h hi
    rw [upLoop, if_pos (by omega), inc]
    split
    · simp only [Option.bind_eq_bind, Option.bind_some]
      exact ih _ _ (by push_cast; omega) (by omega)
    · rfl

theorem downLoop_ok : ∀ (k i fuel : ℕ), k ≤ i → k < fuel → downLoop fuel i (-(k : ℤ)) = some (i - k) := by
  intro k
  induction k with
  | zero =>
    intro i fuel h hf
    obtain ⟨f, rfl⟩ : ∃ f, fuel = f + 1 := ⟨fuel - 1, by omega⟩
    rw [downLoop, if_neg (by omega), Nat.sub_zero]
  | succ k ih =>
    intro i fuel h hf
    obtain ⟨f, rfl⟩ : ∃ f, fuel = f + 1 := ⟨fuel - 1, by omega⟩
    rw [downLoop, if_pos (by omega), dec, if_pos (by omega)]
    simp only [Option.bind_eq_bind, Option.bind_some]
    rw [show -((k + 1 : ℕ) : ℤ) + 1 = -(k : ℤ) by omega, ih (i - 1) f (by omega) (by omega)]
    congr 1
    omega

theorem downLoop_none : ∀ (fuel i : ℕ) (n : ℤ), (i : ℤ) + n < 0 → downLoop fuel i n = none := by
  intro fuel
  induction fuel with
  | zero => intros; rfl
  | succ f ih =>
    intro i n h
    rw [downLoop, if_pos (by omega), dec]
    split
    · simp only [Option.bind_eq_bind, Option.bind_some]
      exact ih _ _ (by omega)
    · rfl

/-- **C114.**  `advance(it, n)` moves by `n` elements, forwards or backwards, and is undefined exactly when that leaves the sequence — or when `n`
is negative and the iterator cannot go back. -/
theorem c114_advance (c : Cat) (l : List α) (i : ℕ) (n : ℤ) (hi : i ≤ l.length) :
    (c = .input → 0 ≤ n) → Moves l i n (advance c l.length i n) := by
  intro hc
  unfold Moves
  have up : 0 ≤ n → upLoop l.length (l.length + 1) i n =
      if 0 ≤ (i : ℤ) + n ∧ (i : ℤ) + n ≤ l.length then some ((i : ℤ) + n).toNat else none := by
    intro h
    split
    · obtain ⟨k, rfl⟩ := Int.eq_ofNat_of_zero_le h
      rw [upLoop_ok l.length k i _ (by omega) (by omega)]
      congr 1
    · exact upLoop_none _ _ _ _ (by omega) hi
  cases c
  · exact up (hc rfl)
  · simp only [advance]
    by_cases h : n ≥ 0
    · rw [if_pos h]
      exact up h
    · rw [if_neg h]
      split
      · obtain ⟨k, hk⟩ := Int.eq_ofNat_of_zero_le (show 0 ≤ -n by omega)
        obtain rfl : n = -(k : ℤ) := by omega
        rw [downLoop_ok k i _ (by omega) (by omega)]
        congr 1
        omega
      · exact downLoop_none _ _ _ (by omega)
  · rfl

/-- **C114.** -/
theorem c114_advance_input_back (len i : ℕ) (n : ℤ) (hi : i ≤ len) (hn : n < 0) : advance .input len i n = none :=
  upLoop_none _ _ _ _ (Or.inl hn) hi

theorem mirror_get (l : List α) (r : ℕ) : deref l.reverse (mirror l r) = rderef l r ∨ l.length < r := by
  by_cases h : l.length < r
  · exact Or.inr h
  · refine Or.inl ?_
    unfold deref rderef dec mirror
    by_cases h0 : 0 < r
    · rw [if_pos h0, List.getElem?_reverse (by omega)]
      simp only [Option.bind_eq_bind, Option.bind_some, deref]
      congr 1
      omega
    · rw [if_neg h0, List.getElem?_eq_none (by rw [List.length_reverse]; omega)]
      rfl

/-- **C114.**  A reverse iterator into `l` does for every operator what an iterator into the reversed list does: `rbegin` is its beginning,
`rend` its end; reading, `++`, `--`, the same after the expression, `+=`, `-=`, `[]`, difference and the six comparisons. -/
theorem c114_reverse (l : List α) (r s : ℕ) (hr : r ≤ l.length) (hs : s ≤ l.length) (n : ℤ) :
    mirror l (rbegin l) = 0 ∧ mirror l rend = l.reverse.length ∧
    rderef l r = deref l.reverse (mirror l r) ∧
    (rinc r).map (mirror l) = inc l.reverse.length (mirror l r) ∧
    (rdec l.length r).map (mirror l) = dec (mirror l r) ∧
    (rpostInc r).map (fun p => (mirror l p.1, mirror l p.2)) = (inc l.reverse.length (mirror l r)).map (fun i => (mirror l r, i)) ∧
    (rpostDec l.length r).map (fun p => (mirror l p.1, mirror l p.2)) = (dec (mirror l r)).map (fun i => (mirror l r, i)) ∧
    Moves l.reverse (mirror l r) n ((radd l.length r n).map (mirror l)) ∧
    Moves l.reverse (mirror l r) (-n) ((rsub l.length r n).map (mirror l)) ∧
    rindex l r n = (if 0 ≤ (mirror l r : ℤ) + n then deref l.reverse ((mirror l r : ℤ) + n).toNat else none) ∧
    rdiff r s = (mirror l r : ℤ) - mirror l s ∧
    rlt r s = decide (mirror l r < mirror l s) ∧ rgt r s = decide (mirror l r > mirror l s) ∧ rle r s = decide (mirror l r ≤ mirror l s) ∧
    rge r s = decide (mirror l r ≥ mirror l s) ∧ req r s = decide (mirror l r = mirror l s) ∧ rne r s = decide (mirror l r ≠ mirror l s) := by
  have hd : ∀ r ≤ l.length, rderef l r = deref l.reverse (mirror l r) := fun r hr =>
    ((mirror_get l r).resolve_right (by omega)).symm
  have ha : ∀ n : ℤ, Moves l.reverse (mirror l r) n ((add l.length r (-n)).map (mirror l)) := by
    intro n
    unfold Moves add mirror
    rw [List.length_reverse]
    by_cases h : 0 ≤ (r : ℤ) + -n ∧ (r : ℤ) + -n ≤ l.length
    · rw [if_pos h, if_pos (by omega), Option.map_some]
      congr 1
      omega
    · rw [if_neg h, if_neg (by omega)]
      rfl
  refine ⟨?_, ?_, hd r hr, ?_, ?_, ?_, ?_, ha n, ?_, ?_, ?_, ?_, ?_, ?_, ?_, ?_, ?_⟩
  · unfold mirror rbegin; omega
  · unfold mirror rend; rw [List.length_reverse]; omega
  · unfold rinc dec inc mirror
    rw [List.length_reverse]
    by_cases h : 0 < r
    · rw [if_pos h, if_pos (by omega), Option.map_some]; congr 1; omega
    · rw [if_neg h, if_neg (by omega)]; rfl
  · unfold rdec dec inc mirror
    by_cases h : r < l.length
    · rw [if_pos h, if_pos (by omega), Option.map_some]; congr 1
    · rw [if_neg h, if_neg (by omega)]; rfl
  · unfold rpostInc dec inc mirror
    rw [List.length_reverse]
    by_cases h : 0 < r
    · rw [if_pos h, if_pos (by omega)]
      simp only [Option.bind_eq_bind, Option.bind_some, Option.map_some]
      congr 2
      omega
    · rw [if_neg h, if_neg (by omega)]; rfl
  · unfold rpostDec dec inc mirror
    by_cases h : r < l.length
    · rw [if_pos h, if_pos (by omega)]
      simp only [Option.bind_eq_bind, Option.bind_some, Option.map_some]
      congr 2
    · rw [if_neg h, if_neg (by omega)]; rfl
  · have := ha (-n)
    rw [Int.neg_neg] at this
    exact this
  · unfold rindex radd add
    by_cases h : 0 ≤ (r : ℤ) + -n ∧ (r : ℤ) + -n ≤ l.length
    · rw [if_pos h]
      simp only [Option.bind_eq_bind, Option.bind_some]
      rw [hd _ (by omega)]
      unfold mirror
      rw [if_pos (by omega)]
      congr 1
      omega
    · rw [if_neg h]
      split
      · unfold deref mirror
        unfold mirror at *
        rw [List.getElem?_eq_none (by rw [List.length_reverse]; omega)]
        rfl
      · rfl
  · unfold rdiff mirror; omega
  · unfold rlt mirror; exact decide_eq_decide.2 (by omega)
  · unfold rgt rlt mirror; exact decide_eq_decide.2 (by omega)
  · unfold rle rlt mirror; rw [← decide_not]; exact decide_eq_decide.2 (by omega)
  · unfold rge rlt mirror; rw [← decide_not]; exact decide_eq_decide.2 (by omega)
  · unfold req mirror; rw [Bool.eq_iff_iff, beq_iff_eq, decide_eq_true_iff]; omega
  · unfold rne req mirror; rw [Bool.eq_iff_iff, Bool.not_eq_true', beq_eq_false_iff_ne, decide_eq_true_iff]; omega

theorem readBack_ok (l : List α) : ∀ (r fuel : ℕ), r ≤ l.length → r < fuel → readBack l fuel r = some (l.take r).reverse := by
  intro r
  induction r with
  | zero =>
    intro fuel h hf
    obtain ⟨f, rfl⟩ : ∃ f, fuel = f + 1 := ⟨fuel - 1, by omega⟩
    rfl
  | succ r ih =>
    intro fuel h hf
    obtain ⟨f, rfl⟩ : ∃ f, fuel = f + 1 := ⟨fuel - 1, by omega⟩
    rw [readBack, if_pos (show rne (r + 1) rend = true by simp [rne, req, rend])]
    have e : rderef l (r + 1) = some l[r] := by
      unfold rderef dec deref
      rw [if_pos (by omega)]
      simp
    rw [e]
    simp only [Option.bind_eq_bind, Option.bind_some, rinc, dec]
    rw [if_pos (by omega)]
    simp only [Option.bind_some, Nat.add_sub_cancel]
    rw [ih f (by omega) (by omega)]
    simp only [Option.bind_some]
    rw [List.take_succ_eq_append_getElem (by omega), List.reverse_append]
    rfl

/-- **C114.**  The loop from `rbegin()` to `rend()` ends and reads every element once, the last first. -/
theorem c114_read_back (l : List α) : readBack l (l.length + 1) (rbegin l) = some l.reverse := by
  have := readBack_ok l l.length (l.length + 1) (Nat.le_refl _) (by omega)
  rw [List.take_length] at this
  exact this

example : distance .input 5 1 4 = some 3 := c114_distance .input 5 1 4 (by omega) (by omega)
example : readBack [1, 2, 3] 4 (rbegin [1, 2, 3]) = some [3, 2, 1] := c114_read_back _

end Verif.Iterators
