import Verif.Numeric
import Verif.Props.Heap
import Mathlib.Tactic.Abel
import Mathlib.Logic.Function.Iterate
import Mathlib.Algebra.BigOperators.Group.List.Basic

/-!
# C86 The numeric algorithms compute the sums, differences and fills they name, in place or not
-/

namespace Verif.Numeric

open Verif.Sort

variable {α β : Type}

/-- **C86 (accumulate).**  `accumulate` folds the operation over the range from the left, for any operation and range. -/
theorem c86_accumulate (op : β → α → β) (a : List α) (first last : ℕ) (h : first ≤ last) (hl : last ≤ a.length) (init : β) :
    accumulate op a last (last - first + 1) first init = some (((a.drop first).take (last - first)).foldl op init) := by
  obtain ⟨n, hn⟩ : ∃ n, n = last - first := ⟨_, rfl⟩
  rw [← hn]
  induction n generalizing first init with
  | zero => unfold accumulate; rw [if_pos (by omega)]; simp
  | succ n ih =>
    unfold accumulate
    rw [if_neg (by omega), List.getElem?_eq_getElem (show first < a.length by omega)]
    show accumulate op a last (n + 1) (first + 1) _ = _
    rw [ih (first + 1) (by omega) _ (by omega), List.drop_eq_getElem_cons (show first < a.length by omega), List.take_succ_cons, List.foldl_cons]

/-- **C86 (accumulate with `+`).**  With an associative and commutative addition it is `init` plus the sum of the range. -/
theorem c86_sum [AddCommMonoid α] (a : List α) (first last : ℕ) (h : first ≤ last) (hl : last ≤ a.length) (init : α) :
    accumulate (fun s x => s + x) a last (last - first + 1) first init = some (init + ((a.drop first).take (last - first)).sum) := by
  rw [c86_accumulate _ a first last h hl]
  congr 1
  generalize (a.drop first).take (last - first) = l
  induction l generalizing init with
  | nil => simp
  | cons x l ih => rw [List.foldl_cons, ih, List.sum_cons, add_assoc]

/-- **C86 (inner product).**  `inner_product` folds `op1` over the values `op2 xᵢ yᵢ` of the pairs of the two ranges, from the left. -/
theorem c86_inner_product {γ δ : Type} (op1 : β → δ → β) (op2 : α → γ → δ) (a : List α) (b : List γ) (f1 l1 f2 : ℕ) (h : f1 ≤ l1) (hl : l1 ≤ a.length)
    (hb : f2 + (l1 - f1) ≤ b.length) (init : β) :
    innerProduct op1 op2 a b l1 (l1 - f1 + 1) f1 f2 init
      = some ((List.zipWith op2 ((a.drop f1).take (l1 - f1)) ((b.drop f2).take (l1 - f1))).foldl op1 init) := by
  obtain ⟨n, hn⟩ : ∃ n, n = l1 - f1 := ⟨_, rfl⟩
  rw [← hn] at hb ⊢
  induction n generalizing f1 f2 init with
  | zero => unfold innerProduct; rw [if_pos (by omega)]; simp
  | succ n ih =>
    unfold innerProduct
    rw [if_neg (by omega), List.getElem?_eq_getElem (show f1 < a.length by omega), List.getElem?_eq_getElem (show f2 < b.length by omega)]
    show innerProduct op1 op2 a b l1 (n + 1) (f1 + 1) (f2 + 1) _ = _
    rw [ih (f1 + 1) (f2 + 1) (by omega) _ (by omega) (by omega), List.drop_eq_getElem_cons (show f1 < a.length by omega), List.take_succ_cons,
      List.drop_eq_getElem_cons (show f2 < b.length by omega), List.take_succ_cons, List.zipWith_cons_cons, List.foldl_cons]

/-- **C86 (iota).**  `iota` fills exactly the range with `value`, `++value`, … and touches nothing else. -/
theorem c86_iota (inc : α → α) (a : List α) (first last : ℕ) (h : first ≤ last) (hl : last ≤ a.length) (value : α) :
    ∃ a', iota inc last (last - first + 1) a first value = some a' ∧ a'.length = a.length
      ∧ (∀ k, first + k < last → a'[first + k]? = some (inc^[k] value))
      ∧ ∀ j, j < first ∨ last ≤ j → a'[j]? = a[j]? := by
  obtain ⟨n, hn⟩ : ∃ n, n = last - first := ⟨_, rfl⟩
  rw [← hn]
  induction n generalizing first a value with
  | zero =>
    unfold iota; rw [if_pos (by omega)]
    exact ⟨a, rfl, rfl, fun k hk => by omega, fun _ _ => rfl⟩
  | succ n ih =>
    unfold iota
    rw [if_neg (by omega), wr_eq (show first < a.length by omega)]
    obtain ⟨a', e1, e2, e3, e4⟩ := ih (a.set first value) (first + 1) (by omega) (by rw [List.length_set]; exact hl) (inc value) (by omega)
    refine ⟨a', e1, by rw [e2, List.length_set], fun k hk => ?_, fun j hj => ?_⟩
    · cases k with
      | zero =>
        show a'[first]? = some value
        rw [e4 first (Or.inl (by omega)), get_set _ _ _ _ (by omega), if_pos rfl]
      | succ k =>
        have := e3 k (by omega)
        rw [show first + (k + 1) = first + 1 + k by omega, this, Function.iterate_succ_apply]
    · rw [e4 j (by omega), get_set _ _ _ _ (by omega), if_neg (by omega)]

/-- the loop of `adjacent_difference`, after `k` rounds -/
theorem diffLoop_ok (op : α → α → α) (a0 : List α) (f l r : ℕ) (hl : l ≤ a0.length) (hr : r + (l - f) ≤ a0.length) (hov : r ≤ f ∨ l ≤ r) :
    ∀ (n k : ℕ) (a : List α) (value : α), f + k + n = l → 0 < n → a.length = a0.length → a0[f + k]? = some value →
      (∀ j, j < r ∨ r + k < j → a[j]? = a0[j]?) →
      ∃ a', diffLoop op l n a (f + k) (r + k) value = some (a', r + (l - f)) ∧ a'.length = a0.length
        ∧ (∀ i, i ≤ k → a'[r + i]? = a[r + i]?)
        ∧ (∀ i x y, k ≤ i → f + i + 1 < l → a0[f + i]? = some y → a0[f + i + 1]? = some x → a'[r + i + 1]? = some (op x y))
        ∧ ∀ j, j < r ∨ r + (l - f) ≤ j → a'[j]? = a0[j]? := by
  intro n
  induction n with
  | zero => intro k a value _ h0; omega
  | succ n ih =>
    intro k a value hk _ hlen hv hfr
    unfold diffLoop
    by_cases h1 : f + k + 1 = l
    · rw [if_pos h1]
      refine ⟨a, by rw [show r + k + 1 = r + (l - f) by omega], hlen, fun _ _ => rfl, fun i x y hi hi2 => by omega, fun j hj => hfr j (by omega)⟩
    · rw [if_neg h1]
      have hin : f + k + 1 < a0.length := by omega
      have hread : a[f + k + 1]? = some a0[f + k + 1] := by
        rw [hfr (f + k + 1) (by omega), List.getElem?_eq_getElem hin]
      rw [hread]
      show ∃ a', (wr a (r + k + 1) (op a0[f + k + 1] value)).bind _ = _ ∧ _
      have hw : r + k + 1 < a.length := by omega
      rw [wr_eq hw]
      obtain ⟨a', e1, e2, e3, e4, e5⟩ := ih (k + 1) (a.set (r + k + 1) (op a0[f + k + 1] value)) a0[f + k + 1] (by omega) (by omega)
        (by rw [List.length_set, hlen]) (by rw [show f + (k + 1) = f + k + 1 by omega, List.getElem?_eq_getElem hin])
        (fun j hj => by rw [get_set _ _ _ _ hw, if_neg (by omega)]; exact hfr j (by omega))
      refine ⟨a', e1, e2, fun i hi => ?_, fun i x y hi hi2 hy hx => ?_, e5⟩
      · rw [e3 i (by omega), get_set _ _ _ _ hw, if_neg (by omega)]
      · by_cases hik : i = k
        · subst hik
          rw [hv] at hy
          obtain rfl := Option.some.inj hy
          rw [List.getElem?_eq_getElem hin] at hx
          obtain rfl := Option.some.inj hx
          rw [show r + i + 1 = r + (i + 1) by omega, e3 (i + 1) (by omega), get_set _ _ _ _ hw, if_pos (by omega)]
        · exact e4 i x y (by omega) hi2 hy hx

/-- **C86 (adjacent_difference).**  For every array, range and output position that lies at or before the start of the range or at or after its end (so also in place): the run stays inside the
array, returns the end of the output, leaves everything else as it was, and puts the first element first and after it, for each pair of neighbours of the *original* range, the operation applied to
the later and the earlier one. -/
theorem c86_adjacent_difference (op : α → α → α) (a : List α) (first last result : ℕ) (h : first < last) (hl : last ≤ a.length) (hr : result + (last - first) ≤ a.length)
    (hov : result ≤ first ∨ last ≤ result) :
    ∃ a', adjacentDifference op a first last result = some (a', result + (last - first)) ∧ a'.length = a.length
      ∧ a'[result]? = a[first]?
      ∧ (∀ i x y, first + i + 1 < last → a[first + i]? = some y → a[first + i + 1]? = some x → a'[result + i + 1]? = some (op x y))
      ∧ ∀ j, j < result ∨ result + (last - first) ≤ j → a'[j]? = a[j]? := by
  unfold adjacentDifference
  have hf : first < a.length := by omega
  have hw : result < a.length := by omega
  rw [if_neg (by omega), List.getElem?_eq_getElem hf]
  show ∃ a', (wr a result a[first]).bind _ = _ ∧ _
  rw [wr_eq hw]
  have hv : (a.set result a[first])[first]? = some a[first] := by
    rw [get_set _ _ _ _ hw]
    split_ifs with h1
    · rfl
    · exact List.getElem?_eq_getElem hf
  show ∃ a', ((a.set result a[first])[first]?).bind _ = _ ∧ _
  rw [hv]
  obtain ⟨a', e1, e2, e3, e4, e5⟩ := diffLoop_ok op a first last result hl hr hov (last - first) 0 (a.set result a[first]) a[first] (by omega) (by omega)
    (by rw [List.length_set]) (List.getElem?_eq_getElem hf) (fun j hj => by rw [get_set _ _ _ _ hw, if_neg (by omega)])
  refine ⟨a', e1, e2, ?_, fun i x y => e4 i x y (by omega), e5⟩
  have := e3 0 (Nat.le_refl _)
  rw [show result + 0 = result by omega] at this
  rw [this, get_set _ _ _ _ hw, if_pos rfl]

theorem sumLoop_ok (op : α → α → α) (a0 : List α) (f l r : ℕ) (x0 : α) (hl : l ≤ a0.length) (hr : r + (l - f) ≤ a0.length) (hov : r ≤ f ∨ l ≤ r) :
    ∀ (n k : ℕ) (a : List α) (value : α), f + k + n = l → 0 < n → a.length = a0.length → value = ((a0.drop (f + 1)).take k).foldl op x0 →
      (∀ j, j < r ∨ r + k < j → a[j]? = a0[j]?) →
      ∃ a', sumLoop op l n a (f + k) (r + k) value = some (a', r + (l - f)) ∧ a'.length = a0.length
        ∧ (∀ i, i ≤ k → a'[r + i]? = a[r + i]?)
        ∧ (∀ i, k < i → f + i < l → a'[r + i]? = some (((a0.drop (f + 1)).take i).foldl op x0))
        ∧ ∀ j, j < r ∨ r + (l - f) ≤ j → a'[j]? = a0[j]? := by
  intro n
  induction n with
  | zero => intro k a value _ h0; omega
  | succ n ih =>
    intro k a value hk _ hlen hv hfr
    unfold sumLoop
    by_cases h1 : f + k + 1 = l
    · rw [if_pos h1]
      refine ⟨a, by rw [show r + k + 1 = r + (l - f) by omega], hlen, fun _ _ => rfl, fun i hi hi2 => by omega, fun j hj => hfr j (by omega)⟩
    · rw [if_neg h1]
      have hin : f + k + 1 < a0.length := by omega
      have hread : a[f + k + 1]? = some a0[f + k + 1] := by
        rw [hfr (f + k + 1) (by omega), List.getElem?_eq_getElem hin]
      rw [hread]
      show ∃ a', (wr a (r + k + 1) (op value a0[f + k + 1])).bind _ = _ ∧ _
      have hw : r + k + 1 < a.length := by omega
      rw [wr_eq hw]
      have hstep : op value a0[f + k + 1] = ((a0.drop (f + 1)).take (k + 1)).foldl op x0 := by
        have hk' : k < (a0.drop (f + 1)).length := by rw [List.length_drop]; omega
        rw [List.take_succ_eq_append_getElem hk', List.foldl_append, ← hv, List.foldl_cons, List.foldl_nil, List.getElem_drop]
        congr 2; omega
      obtain ⟨a', e1, e2, e3, e4, e5⟩ := ih (k + 1) (a.set (r + k + 1) (op value a0[f + k + 1])) (op value a0[f + k + 1]) (by omega) (by omega)
        (by rw [List.length_set, hlen]) hstep
        (fun j hj => by rw [get_set _ _ _ _ hw, if_neg (by omega)]; exact hfr j (by omega))
      refine ⟨a', e1, e2, fun i hi => ?_, fun i hi hi2 => ?_, e5⟩
      · rw [e3 i (by omega), get_set _ _ _ _ hw, if_neg (by omega)]
      · by_cases hik : i = k + 1
        · subst hik
          rw [e3 (k + 1) (Nat.le_refl _), get_set _ _ _ _ hw, if_pos (by omega), hstep]
        · exact e4 i (by omega) hi2

/-- **C86 (partial_sum).**  Under the same conditions (so also in place) the `i`-th element of the output of `partial_sum` is the operation folded from the left over the first `i + 1` elements of the
original range; the run stays inside the array, returns the end of the output and leaves everything else as it was. -/
theorem c86_partial_sum (op : α → α → α) (a : List α) (first last result : ℕ) (h : first < last) (hl : last ≤ a.length) (hr : result + (last - first) ≤ a.length)
    (hov : result ≤ first ∨ last ≤ result) :
    ∃ a' x0, partialSum op a first last result = some (a', result + (last - first)) ∧ a'.length = a.length ∧ a[first]? = some x0
      ∧ (∀ i, first + i < last → a'[result + i]? = some (((a.drop (first + 1)).take i).foldl op x0))
      ∧ ∀ j, j < result ∨ result + (last - first) ≤ j → a'[j]? = a[j]? := by
  unfold partialSum
  have hf : first < a.length := by omega
  have hw : result < a.length := by omega
  rw [if_neg (by omega), List.getElem?_eq_getElem hf]
  show ∃ a' x0, (wr a result a[first]).bind _ = _ ∧ _
  rw [wr_eq hw]
  have hv : (a.set result a[first])[first]? = some a[first] := by
    rw [get_set _ _ _ _ hw]
    split_ifs with h1
    · rfl
    · exact List.getElem?_eq_getElem hf
  show ∃ a' x0, ((a.set result a[first])[first]?).bind _ = _ ∧ _
  rw [hv]
  obtain ⟨a', e1, e2, e3, e4, e5⟩ := sumLoop_ok op a first last result a[first] hl hr hov (last - first) 0 (a.set result a[first]) a[first] (by omega) (by omega)
    (by rw [List.length_set]) (by simp) (fun j hj => by rw [get_set _ _ _ _ hw, if_neg (by omega)])
  refine ⟨a', a[first], e1, e2, rfl, fun i hi => ?_, e5⟩
  by_cases hi0 : i = 0
  · subst hi0
    have := e3 0 (Nat.le_refl _)
    rw [show result + 0 = result by omega] at this ⊢
    rw [this, get_set _ _ _ _ hw, if_pos rfl]; simp
  · exact e4 i (by omega) hi

/-- **C86 (empty range).**  An empty range is left alone and the output position returned. -/
theorem c86_empty (op : α → α → α) (a : List α) (first result : ℕ) :
    adjacentDifference op a first first result = some (a, result) ∧ partialSum op a first first result = some (a, result) := by
  unfold adjacentDifference partialSum
  rw [if_pos rfl, if_pos rfl]
  exact ⟨rfl, rfl⟩

/-- **C86 (inverse).**  In place, the sums of the differences are the original numbers. -/
theorem c86_inverse [AddCommGroup α] (a : List α) (first last : ℕ) (h : first < last) (hl : last ≤ a.length) :
    ∃ a', adjacentDifference (fun x y => x - y) a first last first = some (a', last) ∧ partialSum (fun x y => x + y) a' first last first = some (a, last) := by
  obtain ⟨a1, e1, e2, e3, e4, e5⟩ := c86_adjacent_difference (fun x y => x - y) a first last first h hl (by omega) (Or.inl (Nat.le_refl _))
  obtain ⟨a2, x0, k1, k2, k3, k4, k5⟩ := c86_partial_sum (fun x y => x + y) a1 first last first h (by omega) (by omega) (Or.inl (Nat.le_refl _))
  have hend : first + (last - first) = last := by omega
  rw [hend] at e1 k1 e5 k5
  refine ⟨a1, e1, ?_⟩
  have hx : ∀ i, first + i < last → a2[first + i]? = a[first + i]? := by
    intro i
    induction i with
    | zero =>
      intro hi
      rw [k4 0 hi]
      show some x0 = a[first]?
      rw [← e3, k3]
    | succ i ih =>
      intro hi
      have h1 := ih (by omega)
      rw [k4 i (by omega)] at h1
      have hy := List.getElem?_eq_getElem (show first + i < a.length by omega)
      have hx := List.getElem?_eq_getElem (show first + i + 1 < a.length by omega)
      have h2 := e4 i _ _ (by omega) hy hx
      rw [hy] at h1
      have h1' := Option.some.inj h1
      have hlen : i < (a1.drop (first + 1)).length := by rw [List.length_drop]; omega
      have hget : (a1.drop (first + 1))[i] = a[first + i + 1] - a[first + i] := by
        have : (a1.drop (first + 1))[i]? = a1[first + i + 1]? := by rw [List.getElem?_drop]; congr 1; omega
        rw [h2, List.getElem?_eq_getElem hlen] at this
        exact Option.some.inj this
      rw [k4 (i + 1) hi, List.take_succ_eq_append_getElem hlen, List.foldl_append, h1', List.foldl_cons, List.foldl_nil, hget, show first + (i + 1) = first + i + 1 by omega, hx]
      congr 1; abel
  have : a2 = a := by
    apply List.ext_getElem?
    intro j
    by_cases hj : first ≤ j ∧ j < last
    · have := hx (j - first) (by omega)
      rw [show first + (j - first) = j by omega] at this
      exact this
    · rw [k5 j (by omega), e5 j (by omega)]
  rw [this] at k1
  exact k1

/-! ## Concrete cases -/

example : adjacentDifference (fun x y : ℤ => x - y) [7, 2, 5, 11, 4, 0] 1 5 0 = some ([2, 3, 6, -7, 4, 0], 4) := by decide
example : partialSum (fun x y : ℤ => x + y) [7, 2, 5, 11, 4, 0] 1 5 1 = some ([7, 2, 7, 18, 22, 0], 5) := by decide
example : accumulate (fun s x : ℤ => s + x) [7, 2, 5, 11] 4 4 1 100 = some 118 := by decide
example : innerProduct (fun s x : ℤ => s + x) (fun x y : ℤ => x * y) [1, 2, 3] [9, 4, 5, 6] 3 4 0 1 10 = some 42 := by decide
example : iota (fun x : ℤ => x + 1) 3 3 [9, 9, 9, 9] 1 5 = some [9, 5, 6, 9] := by decide

end Verif.Numeric
