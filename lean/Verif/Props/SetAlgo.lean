import Verif.SetAlgo
import Verif.OrderSpec
import Mathlib.Data.List.Basic
import Mathlib.Tactic.Common

/-! # C48: set operations on sorted ranges -/

namespace Verif.SetAlgo
open Verif

variable {α : Type} {lt : α → α → Bool}

/-- the elements of `l` equivalent to `v` (neither before nor after it), in order -/
def copies (lt : α → α → Bool) (v : α) (l : List α) : List α := l.filter (fun x => !lt x v && !lt v x)

theorem copies_nil (v : α) : copies lt v [] = [] := rfl

theorem copies_cons (v a : α) (l : List α) :
    copies lt v (a :: l) = if lt a v = false ∧ lt v a = false then a :: copies lt v l else copies lt v l := by
  unfold copies
  rw [List.filter_cons]
  by_cases h1 : lt a v <;> by_cases h2 : lt v a <;> simp [h1, h2]

/-- elements before the head of a sorted list are not equivalent to any of its elements -/
theorem copies_lt (hs : StrictWeak lt) {a b v : α} {l : List α} (h : Sorted lt (b :: l)) (hab : lt a b = true) (h1 : lt a v = false) :
    copies lt v (b :: l) = [] := by
  unfold copies
  rw [List.filter_eq_nil_iff]
  intro y hy
  have hay : lt a y = true := by
    rcases List.mem_cons.mp hy with rfl | hy
    · exact hab
    · have := (List.pairwise_cons.mp h).1 y hy
      rcases hs.trans_neg a y b hab with h' | h'
      · exact h'
      · simp_all
  rcases hs.trans_neg a v y hay with h' | h' <;> simp_all

theorem eqv_trans (hs : StrictWeak lt) {a b v : α} (h1 : lt a b = false) (h2 : lt b a = false) :
    (lt a v = false ∧ lt v a = false) ↔ (lt b v = false ∧ lt v b = false) := by
  constructor
  · rintro ⟨h3, h4⟩
    constructor
    · by_contra h
      rcases hs.trans_neg b a v (by simpa using h) with h' | h' <;> simp_all
    · by_contra h
      rcases hs.trans_neg v a b (by simpa using h) with h' | h' <;> simp_all
  · rintro ⟨h3, h4⟩
    constructor
    · by_contra h
      rcases hs.trans_neg a b v (by simpa using h) with h' | h' <;> simp_all
    · by_contra h
      rcases hs.trans_neg v b a (by simpa using h) with h' | h' <;> simp_all

theorem head_le {a : α} {l : List α} (h : Sorted lt (a :: l)) : ∀ y ∈ l, lt y a = false := (List.pairwise_cons.mp h).1
theorem tail_sorted {a : α} {l : List α} (h : Sorted lt (a :: l)) : Sorted lt l := (List.pairwise_cons.mp h).2

theorem le_trans' (hs : StrictWeak lt) {a b c : α} (h1 : lt b a = false) (h2 : lt c b = false) : lt c a = false := by
  by_contra h
  rcases hs.trans_neg c b a (by simpa using h) with h' | h' <;> simp_all

theorem le_of_lt' (hs : StrictWeak lt) {a b : α} {l : List α} (hab : lt a b = true) (h : Sorted lt (b :: l)) :
    ∀ y ∈ b :: l, lt y a = false := by
  intro y hy
  rcases List.mem_cons.mp hy with rfl | hy
  · exact hs.asymm _ _ hab
  · exact le_trans' hs (hs.asymm _ _ hab) (head_le h y hy)

/-- C48: `set_union` of sorted ranges is sorted, and of a value occurring `m` times in the first and `n` times in the second range
it has the `m` copies of the first followed by the last `n - m` copies of the second -/
theorem c48_union (hs : StrictWeak lt) (l1 l2 : List α) (h1 : Sorted lt l1) (h2 : Sorted lt l2) :
    Sorted lt (setUnion lt l1 l2) ∧
      ∀ v, copies lt v (setUnion lt l1 l2) = copies lt v l1 ++ (copies lt v l2).drop (copies lt v l1).length := by
  have hm : ∀ (l1 l2 : List α), Sorted lt l1 → Sorted lt l2 → (∀ x ∈ setUnion lt l1 l2, x ∈ l1 ∨ x ∈ l2) ∧ Sorted lt (setUnion lt l1 l2) ∧
      ∀ v, copies lt v (setUnion lt l1 l2) = copies lt v l1 ++ (copies lt v l2).drop (copies lt v l1).length := by
    intro l1 l2
    induction l1, l2 using setUnion.induct lt with
    | case1 l2 => intro _ h2; refine ⟨?_, ?_, ?_⟩ <;> simp [setUnion, copies_nil, h2]
    | case2 l1 hne => intro h1 _; cases l1 <;> refine ⟨?_, ?_, ?_⟩ <;> simp_all [setUnion, copies_nil]
    | case3 a l1 b l2 hab ih =>
      intro h1 h2
      obtain ⟨i1, i2, i3⟩ := ih (tail_sorted h1) h2
      rw [setUnion, if_pos hab]
      refine ⟨?_, ?_, ?_⟩
      · intro x hx
        rcases List.mem_cons.mp hx with rfl | hx
        · simp
        · rcases i1 x hx with h | h <;> simp_all
      · refine List.pairwise_cons.mpr ⟨?_, i2⟩
        intro y hy
        rcases i1 y hy with h | h
        · exact head_le h1 y h
        · exact le_of_lt' hs hab h2 y h
      · intro v
        rw [copies_cons v a, copies_cons v a, i3]
        by_cases hv : lt a v = false ∧ lt v a = false
        · rw [if_pos hv, if_pos hv, copies_lt hs h2 hab hv.1]; simp
        · rw [if_neg hv, if_neg hv]
    | case4 a l1 b l2 hab hba ih =>
      intro h1 h2
      obtain ⟨i1, i2, i3⟩ := ih h1 (tail_sorted h2)
      rw [setUnion, if_neg hab, if_pos hba]
      refine ⟨?_, ?_, ?_⟩
      · intro x hx
        rcases List.mem_cons.mp hx with rfl | hx
        · simp
        · rcases i1 x hx with h | h <;> simp_all
      · refine List.pairwise_cons.mpr ⟨?_, i2⟩
        intro y hy
        rcases i1 y hy with h | h
        · exact le_of_lt' hs hba h1 y h
        · exact head_le h2 y h
      · intro v
        rw [copies_cons v b, copies_cons v b, i3]
        by_cases hv : lt b v = false ∧ lt v b = false
        · rw [if_pos hv, if_pos hv, copies_lt hs h1 hba hv.1]; simp
        · rw [if_neg hv, if_neg hv]
    | case5 a l1 b l2 hab hba ih =>
      intro h1 h2
      obtain ⟨i1, i2, i3⟩ := ih (tail_sorted h1) (tail_sorted h2)
      have hab' : lt a b = false := by simpa using hab
      have hba' : lt b a = false := by simpa using hba
      rw [setUnion, if_neg hab, if_neg hba]
      refine ⟨?_, ?_, ?_⟩
      · intro x hx
        rcases List.mem_cons.mp hx with rfl | hx
        · simp
        · rcases i1 x hx with h | h <;> simp_all
      · refine List.pairwise_cons.mpr ⟨?_, i2⟩
        intro y hy
        rcases i1 y hy with h | h
        · exact head_le h1 y h
        · exact le_trans' hs hba' (head_le h2 y h)
      · intro v
        rw [copies_cons v a, copies_cons v a, copies_cons v b, i3]
        by_cases hv : lt a v = false ∧ lt v a = false
        · rw [if_pos hv, if_pos hv, if_pos ((eqv_trans hs hab' hba').mp hv)]; simp
        · rw [if_neg hv, if_neg hv, if_neg (fun h => hv ((eqv_trans hs hab' hba').mpr h))]
  exact (hm l1 l2 h1 h2).2

/-- C48: `set_intersection` keeps, of a value occurring `m` and `n` times, the first `min m n` copies of the first range -/
theorem c48_intersection (hs : StrictWeak lt) (l1 l2 : List α) (h1 : Sorted lt l1) (h2 : Sorted lt l2) :
    Sorted lt (setIntersection lt l1 l2) ∧
      ∀ v, copies lt v (setIntersection lt l1 l2) = (copies lt v l1).take (copies lt v l2).length := by
  have hm : ∀ (l1 l2 : List α), Sorted lt l1 → Sorted lt l2 → (∀ x ∈ setIntersection lt l1 l2, x ∈ l1) ∧ Sorted lt (setIntersection lt l1 l2) ∧
      ∀ v, copies lt v (setIntersection lt l1 l2) = (copies lt v l1).take (copies lt v l2).length := by
    intro l1 l2
    induction l1, l2 using setIntersection.induct lt with
    | case1 l2 => intro _ h2; refine ⟨?_, ?_, ?_⟩ <;> simp [setIntersection, copies_nil, Sorted]
    | case2 l1 hne => intro h1 _; cases l1 <;> refine ⟨?_, ?_, ?_⟩ <;> simp_all [setIntersection, copies_nil, Sorted]
    | case3 a l1 b l2 hab ih =>
      intro h1 h2
      obtain ⟨i1, i2, i3⟩ := ih (tail_sorted h1) h2
      rw [setIntersection, if_pos hab]
      refine ⟨fun x hx => List.mem_cons_of_mem _ (i1 x hx), i2, ?_⟩
      intro v
      rw [copies_cons v a, i3]
      by_cases hv : lt a v = false ∧ lt v a = false
      · rw [if_pos hv, copies_lt hs h2 hab hv.1]; simp
      · rw [if_neg hv]
    | case4 a l1 b l2 hab hba ih =>
      intro h1 h2
      obtain ⟨i1, i2, i3⟩ := ih h1 (tail_sorted h2)
      rw [setIntersection, if_neg hab, if_pos hba]
      refine ⟨i1, i2, ?_⟩
      intro v
      rw [copies_cons v b, i3]
      by_cases hv : lt b v = false ∧ lt v b = false
      · rw [if_pos hv, copies_lt hs h1 hba hv.1]; simp
      · rw [if_neg hv]
    | case5 a l1 b l2 hab hba ih =>
      intro h1 h2
      obtain ⟨i1, i2, i3⟩ := ih (tail_sorted h1) (tail_sorted h2)
      have hab' : lt a b = false := by simpa using hab
      have hba' : lt b a = false := by simpa using hba
      rw [setIntersection, if_neg hab, if_neg hba]
      refine ⟨?_, List.pairwise_cons.mpr ⟨fun y hy => head_le h1 y (i1 y hy), i2⟩, ?_⟩
      · intro x hx
        rcases List.mem_cons.mp hx with rfl | hx
        · simp
        · exact List.mem_cons_of_mem _ (i1 x hx)
      · intro v
        rw [copies_cons v a, copies_cons v a, copies_cons v b, i3]
        by_cases hv : lt a v = false ∧ lt v a = false
        · rw [if_pos hv, if_pos hv, if_pos ((eqv_trans hs hab' hba').mp hv)]; simp
        · rw [if_neg hv, if_neg hv, if_neg (fun h => hv ((eqv_trans hs hab' hba').mpr h))]
  exact (hm l1 l2 h1 h2).2

/-- C48: `set_difference` keeps, of a value occurring `m` and `n` times, the last `m - n` copies of the first range -/
theorem c48_difference (hs : StrictWeak lt) (l1 l2 : List α) (h1 : Sorted lt l1) (h2 : Sorted lt l2) :
    Sorted lt (setDifference lt l1 l2) ∧
      ∀ v, copies lt v (setDifference lt l1 l2) = (copies lt v l1).drop (copies lt v l2).length := by
  have hm : ∀ (l1 l2 : List α), Sorted lt l1 → Sorted lt l2 → (∀ x ∈ setDifference lt l1 l2, x ∈ l1) ∧ Sorted lt (setDifference lt l1 l2) ∧
      ∀ v, copies lt v (setDifference lt l1 l2) = (copies lt v l1).drop (copies lt v l2).length := by
    intro l1 l2
    induction l1, l2 using setDifference.induct lt with
    | case1 l2 => intro _ h2; refine ⟨?_, ?_, ?_⟩ <;> simp [setDifference, copies_nil, Sorted]
    | case2 l1 hne => intro h1 _; cases l1 <;> refine ⟨?_, ?_, ?_⟩ <;> simp_all [setDifference, copies_nil]
    | case3 a l1 b l2 hab ih =>
      intro h1 h2
      obtain ⟨i1, i2, i3⟩ := ih (tail_sorted h1) h2
      rw [setDifference, if_pos hab]
      refine ⟨?_, List.pairwise_cons.mpr ⟨fun y hy => head_le h1 y (i1 y hy), i2⟩, ?_⟩
      · intro x hx
        rcases List.mem_cons.mp hx with rfl | hx
        · simp
        · exact List.mem_cons_of_mem _ (i1 x hx)
      · intro v
        rw [copies_cons v a, copies_cons v a, i3]
        by_cases hv : lt a v = false ∧ lt v a = false
        · rw [if_pos hv, if_pos hv, copies_lt hs h2 hab hv.1]; simp
        · rw [if_neg hv, if_neg hv]
    | case4 a l1 b l2 hab hba ih =>
      intro h1 h2
      obtain ⟨i1, i2, i3⟩ := ih h1 (tail_sorted h2)
      rw [setDifference, if_neg hab, if_pos hba]
      refine ⟨i1, i2, ?_⟩
      intro v
      rw [copies_cons v b, i3]
      by_cases hv : lt b v = false ∧ lt v b = false
      · rw [if_pos hv, copies_lt hs h1 hba hv.1]; simp
      · rw [if_neg hv]
    | case5 a l1 b l2 hab hba ih =>
      intro h1 h2
      obtain ⟨i1, i2, i3⟩ := ih (tail_sorted h1) (tail_sorted h2)
      have hab' : lt a b = false := by simpa using hab
      have hba' : lt b a = false := by simpa using hba
      rw [setDifference, if_neg hab, if_neg hba]
      refine ⟨fun x hx => List.mem_cons_of_mem _ (i1 x hx), i2, ?_⟩
      intro v
      rw [copies_cons v a, copies_cons v b, i3]
      by_cases hv : lt a v = false ∧ lt v a = false
      · rw [if_pos hv, if_pos ((eqv_trans hs hab' hba').mp hv)]; simp
      · rw [if_neg hv, if_neg (fun h => hv ((eqv_trans hs hab' hba').mpr h))]
  exact (hm l1 l2 h1 h2).2

/-- C48: `set_symmetric_difference` keeps, of a value occurring `m` and `n` times, the last `m - n` copies of the first range or the
last `n - m` copies of the second -/
theorem c48_symmetric_difference (hs : StrictWeak lt) (l1 l2 : List α) (h1 : Sorted lt l1) (h2 : Sorted lt l2) :
    Sorted lt (setSymmetricDifference lt l1 l2) ∧ ∀ v, copies lt v (setSymmetricDifference lt l1 l2) =
      (copies lt v l1).drop (copies lt v l2).length ++ (copies lt v l2).drop (copies lt v l1).length := by
  have hm : ∀ (l1 l2 : List α), Sorted lt l1 → Sorted lt l2 → (∀ x ∈ setSymmetricDifference lt l1 l2, x ∈ l1 ∨ x ∈ l2) ∧
      Sorted lt (setSymmetricDifference lt l1 l2) ∧ ∀ v, copies lt v (setSymmetricDifference lt l1 l2) =
      (copies lt v l1).drop (copies lt v l2).length ++ (copies lt v l2).drop (copies lt v l1).length := by
    intro l1 l2
    induction l1, l2 using setSymmetricDifference.induct lt with
    | case1 l2 => intro _ h2; refine ⟨?_, ?_, ?_⟩ <;> simp [setSymmetricDifference, copies_nil, h2]
    | case2 l1 hne => intro h1 _; cases l1 <;> refine ⟨?_, ?_, ?_⟩ <;> simp_all [setSymmetricDifference, copies_nil]
    | case3 a l1 b l2 hab ih =>
      intro h1 h2
      obtain ⟨i1, i2, i3⟩ := ih (tail_sorted h1) h2
      rw [setSymmetricDifference, if_pos hab]
      refine ⟨?_, ?_, ?_⟩
      · intro x hx
        rcases List.mem_cons.mp hx with rfl | hx
        · simp
        · rcases i1 x hx with h | h <;> simp_all
      · refine List.pairwise_cons.mpr ⟨?_, i2⟩
        intro y hy
        rcases i1 y hy with h | h
        · exact head_le h1 y h
        · exact le_of_lt' hs hab h2 y h
      · intro v
        rw [copies_cons v a, copies_cons v a, i3]
        by_cases hv : lt a v = false ∧ lt v a = false
        · rw [if_pos hv, if_pos hv, copies_lt hs h2 hab hv.1]; simp
        · rw [if_neg hv, if_neg hv]
    | case4 a l1 b l2 hab hba ih =>
      intro h1 h2
      obtain ⟨i1, i2, i3⟩ := ih h1 (tail_sorted h2)
      rw [setSymmetricDifference, if_neg hab, if_pos hba]
      refine ⟨?_, ?_, ?_⟩
      · intro x hx
        rcases List.mem_cons.mp hx with rfl | hx
        · simp
        · rcases i1 x hx with h | h <;> simp_all
      · refine List.pairwise_cons.mpr ⟨?_, i2⟩
        intro y hy
        rcases i1 y hy with h | h
        · exact le_of_lt' hs hba h1 y h
        · exact head_le h2 y h
      · intro v
        rw [copies_cons v b, copies_cons v b, i3]
        by_cases hv : lt b v = false ∧ lt v b = false
        · rw [if_pos hv, if_pos hv, copies_lt hs h1 hba hv.1]; simp
        · rw [if_neg hv, if_neg hv]
    | case5 a l1 b l2 hab hba ih =>
      intro h1 h2
      obtain ⟨i1, i2, i3⟩ := ih (tail_sorted h1) (tail_sorted h2)
      have hab' : lt a b = false := by simpa using hab
      have hba' : lt b a = false := by simpa using hba
      rw [setSymmetricDifference, if_neg hab, if_neg hba]
      refine ⟨?_, i2, ?_⟩
      · intro x hx
        rcases i1 x hx with h | h <;> simp_all
      · intro v
        rw [copies_cons v a, copies_cons v b, i3]
        by_cases hv : lt a v = false ∧ lt v a = false
        · rw [if_pos hv, if_pos ((eqv_trans hs hab' hba').mp hv)]; simp
        · rw [if_neg hv, if_neg (fun h => hv ((eqv_trans hs hab' hba').mpr h))]
  exact (hm l1 l2 h1 h2).2

/-- C48: `merge` is a sorted arrangement of both ranges that keeps equivalent elements in order, those of the first range first -/
theorem c48_merge (hs : StrictWeak lt) (l1 l2 : List α) (h1 : Sorted lt l1) (h2 : Sorted lt l2) :
    Sorted lt (merge lt l1 l2) ∧ (merge lt l1 l2).Perm (l1 ++ l2) ∧ ∀ v, copies lt v (merge lt l1 l2) = copies lt v l1 ++ copies lt v l2 := by
  induction l1, l2 using merge.induct lt with
  | case1 l2 => refine ⟨?_, ?_, ?_⟩ <;> simp [merge, copies_nil, h2]
  | case2 l1 hne => cases l1 <;> refine ⟨?_, ?_, ?_⟩ <;> simp_all [merge, copies_nil]
  | case3 a l1 b l2 hba ih =>
    obtain ⟨i1, i2, i3⟩ := ih h1 (tail_sorted h2)
    rw [merge, if_pos hba]
    refine ⟨?_, ?_, ?_⟩
    · refine List.pairwise_cons.mpr ⟨?_, i1⟩
      intro y hy
      rcases List.mem_append.mp (i2.subset hy) with h | h
      · exact le_of_lt' hs hba h1 y h
      · exact head_le h2 y h
    · exact (i2.cons b).trans (List.perm_middle (l₁ := a :: l1)).symm
    · intro v
      rw [copies_cons v b, copies_cons v b, i3]
      by_cases hv : lt b v = false ∧ lt v b = false
      · rw [if_pos hv, if_pos hv, copies_lt hs h1 hba hv.1]; simp
      · rw [if_neg hv, if_neg hv]
  | case4 a l1 b l2 hba ih =>
    obtain ⟨i1, i2, i3⟩ := ih (tail_sorted h1) h2
    have hba' : lt b a = false := by simpa using hba
    rw [merge, if_neg hba]
    refine ⟨?_, i2.cons a, ?_⟩
    · refine List.pairwise_cons.mpr ⟨?_, i1⟩
      intro y hy
      rcases List.mem_append.mp (i2.subset hy) with h | h
      · exact head_le h1 y h
      · rcases List.mem_cons.mp h with rfl | h
        · exact hba'
        · exact le_trans' hs hba' (head_le h2 y h)
    · intro v
      rw [copies_cons v a, copies_cons v a, i3]
      by_cases hv : lt a v = false ∧ lt v a = false
      · rw [if_pos hv, if_pos hv]; simp
      · rw [if_neg hv, if_neg hv]

/-- C48: `includes` tells whether every value occurs in the first range at least as often as in the second -/
theorem c48_includes (hs : StrictWeak lt) (l1 l2 : List α) (h1 : Sorted lt l1) (h2 : Sorted lt l2) :
    includes lt l1 l2 = true ↔ ∀ v, (copies lt v l2).length ≤ (copies lt v l1).length := by
  have irr : ∀ a, lt a a = false := by
    intro a
    by_contra h
    have := hs.asymm a a (by simpa using h)
    simp_all
  induction l1, l2 using includes.induct lt with
  | case1 l2 =>
    cases l2 with
    | nil => simp [includes]
    | cons b l2 =>
      simp only [includes, List.isEmpty_cons, Bool.false_eq_true, false_iff]
      intro h
      have := h b
      rw [copies_cons, if_pos ⟨irr b, irr b⟩, copies_nil] at this
      simp at this
  | case2 l1 hne => cases l1 <;> simp_all [includes, copies_nil]
  | case3 a l1 b l2 hba =>
    simp only [includes, hba, if_true, Bool.false_eq_true, false_iff]
    intro h
    have := h b
    rw [copies_lt hs h1 hba (irr b), copies_cons, if_pos ⟨irr b, irr b⟩] at this
    simp at this
  | case4 a l1 b l2 hba hab ih =>
    rw [includes, if_neg hba, if_pos hab]
    refine (ih (tail_sorted h1) h2).trans (forall_congr' (fun v => ?_))
    rw [copies_cons v a]
    by_cases hv : lt a v = false ∧ lt v a = false
    · rw [if_pos hv, copies_lt hs h2 hab hv.1]; simp
    · rw [if_neg hv]
  | case5 a l1 b l2 hba hab ih =>
    have hab' : lt a b = false := by simpa using hab
    have hba' : lt b a = false := by simpa using hba
    rw [includes, if_neg hba, if_neg hab]
    refine (ih (tail_sorted h1) (tail_sorted h2)).trans (forall_congr' (fun v => ?_))
    rw [copies_cons v a, copies_cons v b]
    by_cases hv : lt a v = false ∧ lt v a = false
    · rw [if_pos hv, if_pos ((eqv_trans hs hab' hba').mp hv)]; simp
    · rw [if_neg hv, if_neg (fun h => hv ((eqv_trans hs hab' hba').mpr h))]

example : setUnion (fun a b : ℤ => decide (a < b)) [1, 2, 2, 5] [2, 2, 2, 3] = [1, 2, 2, 2, 3, 5] := by
  simp [setUnion]
example : Sorted (fun a b : ℤ => decide (a < b)) [1, 2, 2, 5] := by simp [Sorted]

end Verif.SetAlgo
