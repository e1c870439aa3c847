import Verif.RangeAlgo
import Verif.Props.Heap
import Verif.Props.Sort
import Mathlib.Tactic.SplitIfs
/-!
# C105 — scanning, transforming, shuffling and partially sorting ranges
-/

namespace Verif.RangeAlgo
open Verif Verif.Sort

variable {α : Type} {lt : α → α → Bool}

theorem bindS {β γ : Type} {x : Option β} {b : β} {f : β → Option γ} (h : x = some b) : (x >>= f) = f b := by rw [h]; rfl

theorem sne {a : List α} {i j : ℕ} {v : α} (h : i ≠ j) : (a.set i v)[j]? = a[j]? := by rw [List.getElem?_set, if_neg h]

theorem sself {a : List α} {i : ℕ} {v : α} (h : i < a.length) : (a.set i v)[i]? = some v := by
  rw [List.getElem?_set, if_pos rfl, if_pos h]

/-! ## questions about a range -/

theorem sortedLoop_ok (a : List α) (last : ℕ) (hl : last ≤ a.length) : ∀ (k fuel first : ℕ), k < fuel → first + 1 + k = last →
    ∃ b, sortedLoop lt a last fuel first (first + 1) = some b ∧ (b = true ↔ ∀ i, first ≤ i → i + 1 < last → Ge lt a (i + 1) i) := by
  intro k
  induction k with
  | zero =>
    intro fuel first hf hk
    obtain ⟨fuel, rfl⟩ := Nat.exists_eq_succ_of_ne_zero (show fuel ≠ 0 by omega)
    refine ⟨true, ?_, fun _ i h1 h2 => by omega, fun _ => rfl⟩
    unfold sortedLoop
    rw [if_neg (by omega)]
  | succ k ih =>
    intro fuel first hf hk
    obtain ⟨fuel, rfl⟩ := Nat.exists_eq_succ_of_ne_zero (show fuel ≠ 0 by omega)
    have hx := get_eq (show first + 1 < a.length by omega)
    have hy := get_eq (show first < a.length by omega)
    generalize a[first + 1] = x at hx
    generalize a[first] = y at hy
    unfold sortedLoop
    rw [if_pos (by omega), bindS hx, bindS hy]
    by_cases h : lt x y = true
    · rw [if_pos h]
      refine ⟨false, rfl, fun hc => (by cases hc), fun hc => ?_⟩
      have := hc first (Nat.le_refl _) (by omega) x y hx hy
      rw [h] at this; cases this
    · rw [if_neg h]
      obtain ⟨b, e1, e2⟩ := ih fuel (first + 1) (by omega) (by omega)
      refine ⟨b, e1, e2.trans ⟨fun hc i h1 h2 => ?_, fun hc i h1 h2 => hc i (by omega) h2⟩⟩
      by_cases e : i = first
      · subst e
        intro u w hu hw
        rw [hx] at hu; rw [hy] at hw
        cases hu; cases hw
        simpa using h
      · exact hc i (by omega) h2

/-- **C105.** `is_sorted` answers whether no element comes before an earlier one. -/
theorem c105_is_sorted (hs : StrictWeak lt) (a : List α) (first last : ℕ) (h : first ≤ last) (hl : last ≤ a.length) :
    ∃ b, isSorted lt a first last = some b ∧ (b = true ↔ SortedOn lt a first last) := by
  unfold isSorted
  by_cases e : first = last
  · rw [if_pos e]
    exact ⟨true, rfl, fun _ i j h1 h2 h3 => by omega, fun _ => rfl⟩
  rw [if_neg e]
  obtain ⟨b, e1, e2⟩ := sortedLoop_ok (lt := lt) a last hl (last - first - 1) (last - first + 1) first (by omega) (by omega)
  refine ⟨b, e1, e2.trans ⟨fun hc => ?_, fun hc i h1 h2 x y hx hy => hc i (i + 1) h1 (by omega) h2 y x hy hx⟩⟩
  intro i j h1 h2 h3
  obtain ⟨d, rfl⟩ := Nat.exists_eq_add_of_lt h2
  induction d with
  | zero => intro x y hx hy; exact hc i h1 (by omega) y x hy hx
  | succ d ih =>
    intro x y hx hy
    have hm := get_eq (show i + d + 1 < a.length by omega)
    exact ge_trans hs (hc (i + d + 1) (by omega) (by omega) y _ hy hm) (ih (by omega) (by omega) x _ hx hm)

theorem heapLoop_ok (a : List α) (f n : ℕ) (hl : f + n ≤ a.length) : ∀ (k fuel child : ℕ), k < fuel → 1 ≤ child → n ≤ child + k →
    ∃ b, heapLoop lt a f n fuel ((child - 1) / 2) child = some b ∧ (b = true ↔ ∀ i, child ≤ i → i < n → Ge lt a (f + (i - 1) / 2) (f + i)) := by
  intro k
  induction k with
  | zero =>
    intro fuel child hf hc hk
    obtain ⟨fuel, rfl⟩ := Nat.exists_eq_succ_of_ne_zero (show fuel ≠ 0 by omega)
    refine ⟨true, ?_, fun _ i h1 h2 => by omega, fun _ => rfl⟩
    unfold heapLoop
    rw [if_neg (by omega)]
  | succ k ih =>
    intro fuel child hf hc hk
    obtain ⟨fuel, rfl⟩ := Nat.exists_eq_succ_of_ne_zero (show fuel ≠ 0 by omega)
    unfold heapLoop
    by_cases hn : child < n
    · rw [if_pos hn]
      have hx := get_eq (show f + (child - 1) / 2 < a.length by omega)
      have hy := get_eq (show f + child < a.length by omega)
      generalize a[f + (child - 1) / 2] = x at hx
      generalize a[f + child] = y at hy
      rw [bindS hx, bindS hy]
      by_cases h : lt x y = true
      · rw [if_pos h]
        refine ⟨false, rfl, fun hc => (by cases hc), fun hc => ?_⟩
        have := hc child (Nat.le_refl _) hn x y hx hy
        rw [h] at this; cases this
      · rw [if_neg h]
        obtain ⟨b, e1, e2⟩ := ih fuel (child + 1) (by omega) (by omega) (by omega)
        have ep : (if child % 2 = 0 then (child - 1) / 2 + 1 else (child - 1) / 2) = (child + 1 - 1) / 2 := by split_ifs <;> omega
        rw [ep]
        refine ⟨b, e1, e2.trans ⟨fun hc i h1 h2 => ?_, fun hc i h1 h2 => hc i (by omega) h2⟩⟩
        by_cases e : i = child
        · subst e
          intro u w hu hw
          rw [hx] at hu; rw [hy] at hw
          cases hu; cases hw
          simpa using h
        · exact hc i (by omega) h2
    · rw [if_neg hn]
      exact ⟨true, rfl, fun _ i h1 h2 => by omega, fun _ => rfl⟩

/-- **C105.** `is_heap` answers whether no element is before one of its two children. -/
theorem c105_is_heap (a : List α) (first last : ℕ) (h : first ≤ last) (hl : last ≤ a.length) :
    ∃ b, isHeap lt a first last = some b ∧ (b = true ↔ ∀ i c, first + i < last → c = 2 * i + 1 ∨ c = 2 * i + 2 → first + c < last →
      ∀ x y, a[first + i]? = some x → a[first + c]? = some y → lt x y = false) := by
  obtain ⟨b, e1, e2⟩ := heapLoop_ok (lt := lt) a first (last - first) (by omega) (last - first) (last - first + 1) 1 (by omega) (by omega) (by omega)
  refine ⟨b, e1, e2.trans ⟨fun hc i c h1 h2 h3 => ?_, fun hc i h1 h2 => hc ((i - 1) / 2) i (by omega) (by omega) (by omega)⟩⟩
  have := hc c (by omega) (by omega)
  rw [show (c - 1) / 2 = i by omega] at this
  exact this

theorem maxLoop_ok (hs : StrictWeak lt) (a : List α) (f last : ℕ) (hl : last ≤ a.length) : ∀ (k fuel first r : ℕ) (m : α), k < fuel → first + 1 + k = last →
    f ≤ r → r ≤ first → a[r]? = some m → (∀ i x, f ≤ i → i ≤ first → a[i]? = some x → lt m x = false) → (∀ i x, f ≤ i → i < r → a[i]? = some x → lt x m = true) →
    ∃ q m', maxLoop lt a last fuel first r = some q ∧ f ≤ q ∧ q < last ∧ a[q]? = some m' ∧
      (∀ i x, f ≤ i → i < last → a[i]? = some x → lt m' x = false) ∧ (∀ i x, f ≤ i → i < q → a[i]? = some x → lt x m' = true) := by
  intro k
  induction k with
  | zero =>
    intro fuel first r m hf hk h1 h2 h3 h4 h5
    obtain ⟨fuel, rfl⟩ := Nat.exists_eq_succ_of_ne_zero (show fuel ≠ 0 by omega)
    refine ⟨r, m, ?_, h1, by omega, h3, fun i x g1 g2 => h4 i x g1 (by omega), h5⟩
    unfold maxLoop
    rw [if_neg (by omega)]
  | succ k ih =>
    intro fuel first r m hf hk h1 h2 h3 h4 h5
    obtain ⟨fuel, rfl⟩ := Nat.exists_eq_succ_of_ne_zero (show fuel ≠ 0 by omega)
    have hy := get_eq (show first + 1 < a.length by omega)
    generalize a[first + 1] = y at hy
    have e : maxLoop lt a last fuel.succ first r = maxLoop lt a last fuel (first + 1) (if lt m y then first + 1 else r) := by
      conv_lhs => unfold maxLoop
      rw [if_pos (by omega), bindS h3, bindS hy]
    rw [e]
    by_cases h : lt m y = true
    · rw [if_pos h]
      refine ih fuel (first + 1) (first + 1) y (by omega) (by omega) (by omega) (by omega) hy (fun i x g1 g2 hx => ?_) (fun i x g1 g2 hx => ?_)
      · by_cases e : i = first + 1
        · subst e; rw [hy] at hx; cases hx; exact irrefl' hs _
        · exact ge_trans hs (hs.asymm _ _ h) (h4 i x g1 (by omega) hx)
      · have g3 := h4 i x g1 (by omega) hx
        rcases hs.trans_neg m x y h with g | g
        · rw [g3] at g; cases g
        · exact g
    · rw [if_neg h]
      refine ih fuel (first + 1) r m (by omega) (by omega) h1 (by omega) h3 (fun i x g1 g2 hx => ?_) h5
      by_cases e : i = first + 1
      · subst e; rw [hy] at hx; cases hx; simpa using h
      · exact h4 i x g1 (by omega) hx

/-- **C105.** `max_element` finds the first of the largest elements. -/
theorem c105_max_element (hs : StrictWeak lt) (a : List α) (first last : ℕ) (h : first < last) (hl : last ≤ a.length) :
    ∃ r m, maxElement lt a first last = some r ∧ first ≤ r ∧ r < last ∧ a[r]? = some m ∧
      (∀ i x, first ≤ i → i < last → a[i]? = some x → lt m x = false) ∧ (∀ i x, first ≤ i → i < r → a[i]? = some x → lt x m = true) := by
  unfold maxElement
  rw [if_neg (by omega)]
  have hx := get_eq (show first < a.length by omega)
  refine maxLoop_ok hs a first last hl (last - first - 1) (last - first + 1) first first _ (by omega) (by omega) (Nat.le_refl _) (Nat.le_refl _) hx ?_ (fun i x h1 h2 => by omega)
  intro i x h1 h2 h3
  have e : i = first := by omega
  subst e
  rw [hx] at h3; cases h3
  exact irrefl' hs _

theorem minLoop_eq (a : List α) (last : ℕ) : ∀ (fuel first r : ℕ), minLoop lt a last fuel first r = maxLoop (fun x y => lt y x) a last fuel first r := by
  intro fuel
  induction fuel with
  | zero => intro first r; rfl
  | succ fuel ih =>
    intro first r
    unfold minLoop maxLoop
    by_cases h : first + 1 ≠ last
    · rw [if_pos h, if_pos h]
      simp only [ih]
      cases a[first + 1]? <;> cases a[r]? <;> rfl
    · rw [if_neg h, if_neg h]

/-- **C105.** `min_elememt` finds the first of the smallest elements. -/
theorem c105_min_element (hs : StrictWeak lt) (a : List α) (first last : ℕ) (h : first < last) (hl : last ≤ a.length) :
    ∃ r m, minElement lt a first last = some r ∧ first ≤ r ∧ r < last ∧ a[r]? = some m ∧
      (∀ i x, first ≤ i → i < last → a[i]? = some x → lt x m = false) ∧ (∀ i x, first ≤ i → i < r → a[i]? = some x → lt m x = true) := by
  have hs' : StrictWeak (fun x y => lt y x) := ⟨fun x y => hs.asymm y x, fun x y z hxz => (hs.trans_neg z y x hxz).symm⟩
  have e : minElement lt a first last = maxElement (fun x y => lt y x) a first last := by
    unfold minElement maxElement
    rw [minLoop_eq]
  rw [e]
  exact c105_max_element hs' a first last h hl

theorem anyLoop_ok (eq : α → α → Bool) (x : α) (b : List α) (last2 : ℕ) (hl : last2 ≤ b.length) : ∀ (k fuel i : ℕ), k < fuel → i + k = last2 →
    ∃ r, anyLoop eq x b last2 fuel i = some r ∧ (r = true ↔ ∃ j y, i ≤ j ∧ j < last2 ∧ b[j]? = some y ∧ eq x y = true) := by
  intro k
  induction k with
  | zero =>
    intro fuel i hf hk
    obtain ⟨fuel, rfl⟩ := Nat.exists_eq_succ_of_ne_zero (show fuel ≠ 0 by omega)
    unfold anyLoop
    rw [if_neg (by omega)]
    exact ⟨false, rfl, fun h => (by cases h), fun ⟨j, y, h1, h2, _⟩ => by omega⟩
  | succ k ih =>
    intro fuel i hf hk
    obtain ⟨fuel, rfl⟩ := Nat.exists_eq_succ_of_ne_zero (show fuel ≠ 0 by omega)
    have hy := get_eq (show i < b.length by omega)
    generalize b[i] = y at hy
    unfold anyLoop
    rw [if_pos (by omega), bindS hy]
    by_cases h : eq x y = true
    · rw [if_pos h]
      exact ⟨true, rfl, fun _ => ⟨i, y, Nat.le_refl _, by omega, hy, h⟩, fun _ => rfl⟩
    · rw [if_neg h]
      obtain ⟨r, e1, e2⟩ := ih fuel (i + 1) (by omega) (by omega)
      refine ⟨r, e1, e2.trans ⟨fun ⟨j, z, h1, h2, h3, h4⟩ => ⟨j, z, by omega, h2, h3, h4⟩, fun ⟨j, z, h1, h2, h3, h4⟩ => ⟨j, z, ?_, h2, h3, h4⟩⟩⟩
      by_contra hc
      have e : j = i := by omega
      subst e
      rw [hy] at h3; cases h3
      exact h h4

/-- **C105.** `find_first_of` finds the first element that matches one of the others. -/
theorem c105_find_first_of (eq : α → α → Bool) (a b : List α) (first1 last1 first2 last2 : ℕ) (h1 : first1 ≤ last1) (hl1 : last1 ≤ a.length)
    (h2 : first2 ≤ last2) (hl2 : last2 ≤ b.length) :
    ∃ r, findFirstOf eq a last1 b first2 last2 (last1 - first1 + 1) first1 = some r ∧ first1 ≤ r ∧ r ≤ last1 ∧
      (r < last1 → ∃ x j y, a[r]? = some x ∧ first2 ≤ j ∧ j < last2 ∧ b[j]? = some y ∧ eq x y = true) ∧
      (∀ i x, first1 ≤ i → i < r → a[i]? = some x → ∀ j y, first2 ≤ j → j < last2 → b[j]? = some y → eq x y = false) := by
  generalize hk : last1 - first1 = k
  induction k generalizing first1 with
  | zero =>
    unfold findFirstOf
    rw [if_neg (by omega)]
    exact ⟨last1, rfl, h1, Nat.le_refl _, fun h => by omega, fun i x g1 g2 => by omega⟩
  | succ k ih =>
    have hx := get_eq (show first1 < a.length by omega)
    generalize a[first1] = x at hx
    unfold findFirstOf
    obtain ⟨r, e1, e2⟩ := anyLoop_ok eq x b last2 hl2 (last2 - first2) (last2 - first2 + 1) first2 (by omega) (by omega)
    rw [if_pos (by omega), bindS hx, bindS e1]
    by_cases h : r = true
    · rw [if_pos h]
      obtain ⟨j, y, g1, g2, g3, g4⟩ := e2.1 h
      exact ⟨first1, rfl, Nat.le_refl _, h1, fun _ => ⟨x, j, y, hx, g1, g2, g3, g4⟩, fun i x g1 g2 => by omega⟩
    · rw [if_neg h]
      obtain ⟨q, f1, f2, f3, f4, f5⟩ := ih (first1 + 1) (by clear ih e2; omega) (by clear ih e2; omega)
      refine ⟨q, f1, by omega, f3, f4, fun i z g1 g2 hz => ?_⟩
      by_cases e : i = first1
      · subst e
        rw [hx] at hz; cases hz
        intro j y g3 g4 g5
        by_contra hc
        exact h (e2.2 ⟨j, y, g3, g4, g5, by simpa using hc⟩)
      · exact f5 i z (by omega) g2 hz

/-! ## changing a range -/

/-- **C105.** `transform` (and `replace_copy`, `replace_copy_if`) put the images of the elements at the result, also if the result
begins before or at the source in the same array; nothing else changes; the end of the result is returned. -/
theorem c105_transform (op : α → α) (a : List α) (first n result : ℕ) (hl : first + n ≤ a.length) (hr : result + n ≤ a.length)
    (ho : result ≤ first ∨ first + n ≤ result) :
    ∃ a', transform op (first + n) (n + 1) a first result = some (a', result + n) ∧ a'.length = a.length ∧
      ∀ i, a'[i]? = if result ≤ i ∧ i < result + n then (a[first + (i - result)]?).map op else a[i]? := by
  induction n generalizing a first result with
  | zero =>
    refine ⟨a, ?_, rfl, fun i => by rw [if_neg (by omega)]⟩
    unfold transform
    rw [if_neg (by omega)]; rfl
  | succ n ih =>
    have hx := get_eq (show first < a.length by omega)
    generalize a[first] = x at hx
    unfold transform
    rw [if_pos (by omega), bindS hx, bindS (wr_eq (show result < a.length by omega) (op x))]
    obtain ⟨a', e1, e2, e3⟩ := ih (a.set result (op x)) (first + 1) (result + 1) (by rw [List.length_set]; omega) (by rw [List.length_set]; omega) (by omega)
    rw [show first + 1 + n = first + (n + 1) by omega, show result + 1 + n = result + (n + 1) by omega] at e1
    refine ⟨a', e1, by rw [e2, List.length_set], fun i => ?_⟩
    rw [e3]
    by_cases h1 : result + 1 ≤ i ∧ i < result + 1 + n
    · rw [if_pos h1, if_pos (by omega), sne (by omega), show first + 1 + (i - (result + 1)) = first + (i - result) by omega]
    · rw [if_neg h1]
      by_cases h2 : result = i
      · subst h2
        rw [sself (by omega), if_pos (by omega), Nat.sub_self, Nat.add_zero, hx]; rfl
      · rw [sne h2, if_neg (by omega)]

/-- **C105.** `transform` of two ranges. -/
theorem c105_transform2 (op : α → α → α) (a : List α) (f1 f2 n result : ℕ) (hl1 : f1 + n ≤ a.length) (hl2 : f2 + n ≤ a.length) (hr : result + n ≤ a.length)
    (ho1 : result ≤ f1 ∨ f1 + n ≤ result) (ho2 : result ≤ f2 ∨ f2 + n ≤ result) :
    ∃ a', transform2 op (f1 + n) (n + 1) a f1 f2 result = some (a', result + n) ∧ a'.length = a.length ∧
      ∀ i, a'[i]? = if result ≤ i ∧ i < result + n then (a[f1 + (i - result)]?).bind fun x => (a[f2 + (i - result)]?).map (op x) else a[i]? := by
  induction n generalizing a f1 f2 result with
  | zero =>
    refine ⟨a, ?_, rfl, fun i => by rw [if_neg (by omega)]⟩
    unfold transform2
    rw [if_neg (by omega)]; rfl
  | succ n ih =>
    have hx := get_eq (show f1 < a.length by omega)
    generalize a[f1] = x at hx
    have hy := get_eq (show f2 < a.length by omega)
    generalize a[f2] = y at hy
    unfold transform2
    rw [if_pos (by omega), bindS hx, bindS hy, bindS (wr_eq (show result < a.length by omega) (op x y))]
    obtain ⟨a', e1, e2, e3⟩ := ih (a.set result (op x y)) (f1 + 1) (f2 + 1) (result + 1) (by rw [List.length_set]; omega) (by rw [List.length_set]; omega)
      (by rw [List.length_set]; omega) (by omega) (by omega)
    rw [show f1 + 1 + n = f1 + (n + 1) by omega, show result + 1 + n = result + (n + 1) by omega] at e1
    refine ⟨a', e1, by rw [e2, List.length_set], fun i => ?_⟩
    rw [e3]
    by_cases h1 : result + 1 ≤ i ∧ i < result + 1 + n
    · rw [if_pos h1, if_pos (by omega), sne (by omega)]
      have e4 : (a.set result (op x y))[f2 + 1 + (i - (result + 1))]? = a[f2 + 1 + (i - (result + 1))]? := sne (by omega)
      rw [e4, show f1 + 1 + (i - (result + 1)) = f1 + (i - result) by omega, show f2 + 1 + (i - (result + 1)) = f2 + (i - result) by omega]
    · rw [if_neg h1]
      by_cases h2 : result = i
      · subst h2
        rw [sself (by omega), if_pos (by omega), Nat.sub_self, Nat.add_zero, Nat.add_zero, hx, hy]; rfl
      · rw [sne h2, if_neg (by omega)]

/-- **C105.** `replace_if` and `replace` change exactly the elements meant. -/
theorem c105_replace (p : α → Bool) (v : α) (a : List α) (first n : ℕ) (hl : first + n ≤ a.length) :
    ∃ a', replaceIf p v (first + n) (n + 1) a first = some a' ∧ a'.length = a.length ∧
      ∀ i, a'[i]? = if first ≤ i ∧ i < first + n then (a[i]?).map (fun x => if p x then v else x) else a[i]? := by
  induction n generalizing a first with
  | zero =>
    refine ⟨a, ?_, rfl, fun i => by rw [if_neg (by omega)]⟩
    unfold replaceIf
    rw [if_neg (by omega)]
  | succ n ih =>
    have hx := get_eq (show first < a.length by omega)
    generalize a[first] = x at hx
    unfold replaceIf
    rw [if_pos (by omega), bindS hx]
    by_cases h : p x = true
    · rw [if_pos h, bindS (wr_eq (show first < a.length by omega) v)]
      obtain ⟨a', e1, e2, e3⟩ := ih (a.set first v) (first + 1) (by rw [List.length_set]; omega)
      rw [show first + 1 + n = first + (n + 1) by omega] at e1
      refine ⟨a', e1, by rw [e2, List.length_set], fun i => ?_⟩
      rw [e3]
      by_cases h2 : first = i
      · subst h2
        rw [if_neg (by omega), sself (by omega), if_pos (by omega), hx, Option.map_some, if_pos h]
      · rw [sne h2]
        by_cases h1 : first + 1 ≤ i ∧ i < first + 1 + n
        · rw [if_pos h1, if_pos (by omega)]
        · rw [if_neg h1, if_neg (by omega)]
    · rw [if_neg h]
      obtain ⟨a', e1, e2, e3⟩ := ih a (first + 1) (by omega)
      rw [show first + 1 + n = first + (n + 1) by omega] at e1
      refine ⟨a', e1, e2, fun i => ?_⟩
      rw [e3]
      by_cases h2 : first = i
      · subst h2
        rw [if_neg (by omega), if_pos (by omega), hx, Option.map_some, if_neg h]
      · by_cases h1 : first + 1 ≤ i ∧ i < first + 1 + n
        · rw [if_pos h1, if_pos (by omega)]
        · rw [if_neg h1, if_neg (by omega)]

/-- **C105.** `reverse_copy` puts the elements in reversed order at a result outside the source. -/
theorem c105_reverse_copy (a : List α) (first n result : ℕ) (hl : first + n ≤ a.length) (hr : result + n ≤ a.length)
    (ho : result + n ≤ first ∨ first + n ≤ result) :
    ∃ a', reverseCopy first (n + 1) a (first + n) result = some (a', result + n) ∧ a'.length = a.length ∧
      ∀ i, a'[i]? = if result ≤ i ∧ i < result + n then a[first + n - 1 - (i - result)]? else a[i]? := by
  induction n generalizing a result with
  | zero =>
    refine ⟨a, ?_, rfl, fun i => by rw [if_neg (by omega)]⟩
    unfold reverseCopy
    rw [if_neg (by omega)]; rfl
  | succ n ih =>
    have hx := get_eq (show first + (n + 1) - 1 < a.length by omega)
    generalize a[first + (n + 1) - 1] = x at hx
    unfold reverseCopy
    rw [if_pos (by omega), if_neg (by omega), bindS hx, bindS (wr_eq (show result < a.length by omega) x)]
    obtain ⟨a', e1, e2, e3⟩ := ih (a.set result x) (result + 1) (by rw [List.length_set]; omega) (by rw [List.length_set]; omega) (by omega)
    rw [show result + 1 + n = result + (n + 1) by omega] at e1
    rw [show first + (n + 1) - 1 = first + n by omega] at hx ⊢
    refine ⟨a', e1, by rw [e2, List.length_set], fun i => ?_⟩
    rw [e3]
    by_cases h1 : result + 1 ≤ i ∧ i < result + 1 + n
    · rw [if_pos h1, if_pos (by omega), sne (by omega), show first + n - 1 - (i - (result + 1)) = first + n - (i - result) by omega]
    · rw [if_neg h1]
      by_cases h2 : result = i
      · subst h2
        rw [sself (by omega), if_pos (by omega), Nat.sub_self, Nat.sub_zero, hx]
      · rw [sne h2, if_neg (by omega)]

/-- **C105.** `generate` calls the generator once for every element, in order. -/
theorem c105_generate (gen : ℕ → α) (a : List α) (first n k : ℕ) (hl : first + n ≤ a.length) :
    ∃ a', generate gen (first + n) (n + 1) a first k = some a' ∧ a'.length = a.length ∧
      ∀ i, a'[i]? = if first ≤ i ∧ i < first + n then some (gen (k + (i - first))) else a[i]? := by
  induction n generalizing a first k with
  | zero =>
    refine ⟨a, ?_, rfl, fun i => by rw [if_neg (by omega)]⟩
    unfold generate
    rw [if_neg (by omega)]
  | succ n ih =>
    unfold generate
    rw [if_pos (by omega), bindS (wr_eq (show first < a.length by omega) (gen k))]
    obtain ⟨a', e1, e2, e3⟩ := ih (a.set first (gen k)) (first + 1) (k + 1) (by rw [List.length_set]; omega)
    rw [show first + 1 + n = first + (n + 1) by omega] at e1
    refine ⟨a', e1, by rw [e2, List.length_set], fun i => ?_⟩
    rw [e3]
    by_cases h1 : first + 1 ≤ i ∧ i < first + 1 + n
    · rw [if_pos h1, if_pos (by omega), show k + 1 + (i - (first + 1)) = k + (i - first) by omega]
    · rw [if_neg h1]
      by_cases h2 : first = i
      · subst h2
        rw [sself (by omega), if_pos (by omega), Nat.sub_self, Nat.add_zero]
      · rw [sne h2, if_neg (by omega)]

/-! ## concrete cases -/

example : isSorted (fun x y : ℕ => decide (x < y)) [9, 1, 3, 3, 8, 2] 1 5 = some true ∧ isSorted (fun x y : ℕ => decide (x < y)) [9, 1, 3, 3, 8, 2] 1 6 = some false := by decide
example : isHeap (fun x y : ℕ => decide (x < y)) [0, 9, 8, 7, 3, 8, 2] 1 7 = some true ∧ isHeap (fun x y : ℕ => decide (x < y)) [9, 8, 7, 3, 8, 8] 0 6 = some false := by decide
example : maxElement (fun x y : ℕ => decide (x < y)) [9, 1, 3, 8, 8, 2] 1 6 = some 3 ∧ minElement (fun x y : ℕ => decide (x < y)) [0, 5, 3, 8, 3, 4] 1 6 = some 2 := by decide
example : findFirstOf (fun x y : ℕ => x == y) [9, 1, 3, 8, 8, 2] 6 [0, 2, 8] 0 3 7 0 = some 3 := by decide
example : transform (fun x : ℕ => x * x) 5 4 [1, 2, 3, 4, 5] 2 1 = some ([1, 9, 16, 25, 5], 4) := by decide
example : reverseCopy 0 4 [1, 2, 3, 0, 0, 0, 7] 3 3 = some ([1, 2, 3, 3, 2, 1, 7], 6) := by decide
example : replaceIf (fun x : ℕ => x == 3) 0 4 5 [3, 1, 3, 3, 3] 0 = some [0, 1, 0, 0, 3] := by decide

end Verif.RangeAlgo
