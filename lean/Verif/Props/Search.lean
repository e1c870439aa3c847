import Verif.Search
import Verif.OrderSpec
import Mathlib.Tactic.Common
import Mathlib.Tactic.IntervalCases

/-! # C47: binary searches find the boundary -/

namespace Verif.Search
open Verif

variable {α : Type}

/-- `p` holds on an initial part of the range only -/
def Part (p : α → Bool) (l : List α) (first last : ℕ) : Prop :=
  ∀ i j x y, first ≤ i → i < j → j < last → l[i]? = some x → l[j]? = some y → p y = true → p x = true

theorem get_some (l : List α) (i : ℕ) (h : i < l.length) : ∃ x, l[i]? = some x := ⟨l[i], List.getElem?_eq_getElem h⟩

theorem lbLoop_ok (p : α → Bool) (l : List α) : ∀ (fuel first len : ℕ), len < fuel → first + len ≤ l.length →
    Part p l first (first + len) → ∃ r, lbLoop p l fuel first len = some r ∧ Boundary p l first (first + len) r := by
  intro fuel
  induction fuel with
  | zero => intro first len h; omega
  | succ fuel ih =>
    intro first len h hl hp
    unfold lbLoop
    by_cases h0 : len > 0
    · obtain ⟨x, hx⟩ := get_some l (first + len / 2) (by omega)
      simp only [h0, if_true, hx, Option.bind_eq_bind, Option.bind_some]
      by_cases hpx : p x = true
      · simp only [hpx, if_true]
        obtain ⟨r, e, b1, b2, b3, b4⟩ := ih (first + len / 2 + 1) (len - len / 2 - 1) (by omega) (by omega)
          (fun i j x y h1 h2 h3 => hp i j x y (by omega) h2 (by omega))
        refine ⟨r, e, by omega, by omega, ?_, ?_⟩
        · intro i y h1 h2 hy
          by_cases hi : i < first + len / 2
          · exact hp i _ y x h1 hi (by omega) hy hx hpx
          · by_cases hi2 : i = first + len / 2
            · subst hi2; rw [hx] at hy; cases hy; exact hpx
            · exact b3 i y (by omega) h2 hy
        · intro i y h1 h2 hy
          exact b4 i y h1 (by omega) hy
      · simp only [hpx]
        obtain ⟨r, e, b1, b2, b3, b4⟩ := ih first (len / 2) (by omega) (by omega)
          (fun i j x y h1 h2 h3 => hp i j x y (by omega) h2 (by omega))
        refine ⟨r, by simpa using e, by omega, by omega, b3, ?_⟩
        intro i y h1 h2 hy
        by_cases hi : i < first + len / 2
        · exact b4 i y h1 hi hy
        · by_cases hi2 : i = first + len / 2
          · subst hi2; rw [hx] at hy; cases hy; simpa using hpx
          · by_contra hc
            exact hpx (hp _ i x y (by omega) (by omega) h2 hx hy (by simpa using hc))
    · refine ⟨first, by simp [h0], by omega, by omega, ?_, ?_⟩ <;> intro i x <;> omega

theorem ubLoop_eq (q : α → Bool) (l : List α) : ∀ (fuel first len : ℕ),
    ubLoop q l fuel first len = lbLoop (fun x => !q x) l fuel first len := by
  intro fuel
  induction fuel with
  | zero => intros; rfl
  | succ fuel ih =>
    intro first len
    unfold ubLoop lbLoop
    by_cases h0 : len > 0
    · simp only [h0, if_true]
      congr 1
      funext x
      rcases hq : q x <;> simp [ih]
    · simp [h0]

theorem sw_neg {lt : α → α → Bool} (hs : StrictWeak lt) {a b c : α} (h1 : lt b a = false) (h2 : lt c b = false) : lt c a = false := by
  by_contra h
  rcases hs.trans_neg c b a (by simpa using h) with h' | h' <;> simp_all

theorem part_lt {lt : α → α → Bool} (hs : StrictWeak lt) (l : List α) (first last : ℕ) (v : α) (h : SortedOn lt l first last) :
    Part (fun x => lt x v) l first last := by
  intro i j x y h1 h2 h3 hx hy hp
  by_contra hc
  rcases hs.trans_neg y x v hp with h' | h'
  · have := h i j h1 h2 h3 x y hx hy; simp_all
  · simp_all

theorem part_gt {lt : α → α → Bool} (hs : StrictWeak lt) (l : List α) (first last : ℕ) (v : α) (h : SortedOn lt l first last) :
    Part (fun x => !lt v x) l first last := by
  intro i j x y h1 h2 h3 hx hy hp
  by_contra hc
  simp only [Bool.not_eq_true', Bool.not_eq_false] at hp hc
  rcases hs.trans_neg v y x (by simpa using hc) with h' | h'
  · simp_all
  · have := h i j h1 h2 h3 x y hx hy; simp_all

/-- C47: `lower_bound` gives the first place whose element is not before `value` -/
theorem c47_lower_bound {lt : α → α → Bool} (hs : StrictWeak lt) (l : List α) (first last : ℕ) (v : α) (hfl : first ≤ last)
    (hl : last ≤ l.length) (h : SortedOn lt l first last) :
    ∃ r, lowerBound lt l first last v = some r ∧ Boundary (fun x => lt x v) l first last r := by
  have := lbLoop_ok (fun x => lt x v) l (last - first + 1) first (last - first) (by omega) (by omega)
    (by rw [show first + (last - first) = last by omega]; exact part_lt hs l first last v h)
  rw [show first + (last - first) = last by omega] at this
  exact this

/-- C47: `upper_bound` gives the first place whose element is after `value` -/
theorem c47_upper_bound {lt : α → α → Bool} (hs : StrictWeak lt) (l : List α) (first last : ℕ) (v : α) (hfl : first ≤ last)
    (hl : last ≤ l.length) (h : SortedOn lt l first last) :
    ∃ r, upperBound lt l first last v = some r ∧ Boundary (fun x => !lt v x) l first last r := by
  have := lbLoop_ok (fun x => !lt v x) l (last - first + 1) first (last - first) (by omega) (by omega)
    (by rw [show first + (last - first) = last by omega]; exact part_gt hs l first last v h)
  rw [show first + (last - first) = last by omega] at this
  unfold upperBound
  rw [ubLoop_eq]
  exact this

/-- C47: `binary_search` tells whether an element equivalent to `value` occurs in the range -/
theorem c47_binary_search {lt : α → α → Bool} (hs : StrictWeak lt) (l : List α) (first last : ℕ) (v : α) (hfl : first ≤ last)
    (hl : last ≤ l.length) (h : SortedOn lt l first last) :
    ∃ b, binarySearch lt l first last v = some b ∧
      (b = true ↔ ∃ i x, first ≤ i ∧ i < last ∧ l[i]? = some x ∧ lt x v = false ∧ lt v x = false) := by
  obtain ⟨r, e, b1, b2, b3, b4⟩ := c47_lower_bound hs l first last v hfl hl h
  unfold binarySearch
  rw [e, Option.bind_eq_bind, Option.bind_some]
  by_cases hr : r = last
  · refine ⟨false, by simp [hr], ?_⟩
    constructor
    · simp
    · rintro ⟨i, x, h1, h2, h3, h4, h5⟩
      have := b3 i x h1 (by omega) h3
      simp_all
  · obtain ⟨x, hx⟩ := get_some l r (by omega)
    refine ⟨!lt v x, by simp [hr, hx], ?_⟩
    constructor
    · intro hb
      exact ⟨r, x, b1, by omega, hx, b4 r x (Nat.le_refl _) (by omega) hx, by simpa using hb⟩
    · rintro ⟨i, y, h1, h2, h3, h4, h5⟩
      by_cases hir : i < r
      · have := b3 i y h1 hir h3
        simp_all
      · by_cases hir2 : i = r
        · subst hir2; rw [hx] at h3; cases h3; simpa using h5
        · have := h r i b1 (by omega) h2 x y hx h3
          have hxy := sw_neg hs (a := x) (b := y) (c := v) this h5
          simpa using hxy

/-- C47 (defect): the overload with a comparison object looks the place up with `<`, so on a range sorted the other way it finds
elements that are not there: 2 in (5, 3, 1) -/
theorem c47_binary_search_comp_defect :
    Sorted (fun a b : ℤ => decide (a > b)) [5, 3, 1] ∧
      binarySearchComp (fun a b : ℤ => decide (a < b)) (fun a b => decide (a > b)) [5, 3, 1] 0 3 2 = some true ∧ (2 : ℤ) ∉ [(5 : ℤ), 3, 1] := by
  refine ⟨?_, ?_, ?_⟩
  · simp [Sorted]
  · decide +kernel
  · decide

theorem erLoop_ok {lt : α → α → Bool} (hs : StrictWeak lt) (l : List α) (last : ℕ) (v : α) (hl : last ≤ l.length) :
    ∀ (fuel first len : ℕ), len < fuel → first + len ≤ last → SortedOn lt l first (first + len) →
    ∃ a b, erLoop lt l last v fuel first len = some (a, b) ∧
      ((Boundary (fun x => lt x v) l first (first + len) a ∧ Boundary (fun x => !lt v x) l first (first + len) b ∧ a < b) ∨
       ((a = last ∧ b = last) ∧ ∀ i x, first ≤ i → i < first + len → l[i]? = some x → lt x v = true ∨ lt v x = true)) := by
  intro fuel
  induction fuel with
  | zero => intro first len h; omega
  | succ fuel ih =>
    intro first len h hle hso
    unfold erLoop
    by_cases h0 : len > 0
    · obtain ⟨x, hx⟩ := get_some l (first + len / 2) (by omega)
      simp only [h0, if_true, hx, Option.bind_eq_bind, Option.bind_some]
      have hlow : lt x v = true → ∀ i y, first ≤ i → i ≤ first + len / 2 → l[i]? = some y → lt y v = true := by
        intro hxv i y h1 h2 hy
        by_cases hi : i = first + len / 2
        · subst hi; rw [hx] at hy; cases hy; exact hxv
        · exact part_lt hs l _ _ v hso i _ y x h1 (by omega) (by omega) hy hx hxv
      have hhigh : lt v x = true → ∀ i y, first + len / 2 ≤ i → i < first + len → l[i]? = some y → lt v y = true := by
        intro hxv i y h1 h2 hy
        by_cases hi : i = first + len / 2
        · subst hi; rw [hx] at hy; cases hy; exact hxv
        · by_contra hc
          have := part_gt hs l _ _ v hso _ i x y (by omega) (by omega) h2 hx hy (by simpa using hc)
          simp_all
      by_cases h1 : lt x v = true
      · simp only [h1, if_true]
        obtain ⟨a, b, e, hh⟩ := ih (first + len / 2 + 1) (len - len / 2 - 1) (by omega) (by omega)
          (fun i j h1 h2 h3 => hso i j (by omega) h2 (by omega))
        refine ⟨a, b, e, ?_⟩
        rw [show first + len / 2 + 1 + (len - len / 2 - 1) = first + len by omega] at hh
        rcases hh with ⟨⟨a1, a2, a3, a4⟩, ⟨b1, b2, b3, b4⟩, hab⟩ | ⟨he, hn⟩
        · refine Or.inl ⟨⟨by omega, a2, ?_, a4⟩, ⟨by omega, b2, ?_, b4⟩, hab⟩
          · intro i y g1 g2 hy
            by_cases hi : i ≤ first + len / 2
            · exact hlow h1 i y g1 hi hy
            · exact a3 i y (by omega) g2 hy
          · intro i y g1 g2 hy
            by_cases hi : i ≤ first + len / 2
            · simpa using hs.asymm _ _ (hlow h1 i y g1 hi hy)
            · exact b3 i y (by omega) g2 hy
        · refine Or.inr ⟨he, ?_⟩
          intro i y g1 g2 hy
          by_cases hi : i ≤ first + len / 2
          · exact Or.inl (hlow h1 i y g1 hi hy)
          · exact hn i y (by omega) g2 hy
      · have h1' : lt x v = false := by simpa using h1
        simp only [h1', Bool.false_eq_true, if_false]
        by_cases h2 : lt v x = true
        · simp only [h2, if_true]
          obtain ⟨a, b, e, hh⟩ := ih first (len / 2) (by omega) (by omega)
            (fun i j h1 h2 h3 => hso i j (by omega) h2 (by omega))
          refine ⟨a, b, e, ?_⟩
          rcases hh with ⟨⟨a1, a2, a3, a4⟩, ⟨b1, b2, b3, b4⟩, hab⟩ | ⟨he, hn⟩
          · refine Or.inl ⟨⟨a1, by omega, a3, ?_⟩, ⟨b1, by omega, b3, ?_⟩, hab⟩
            · intro i y g1 g2 hy
              by_cases hi : i < first + len / 2
              · exact a4 i y g1 hi hy
              · simpa using hs.asymm _ _ (hhigh h2 i y (by omega) g2 hy)
            · intro i y g1 g2 hy
              by_cases hi : i < first + len / 2
              · exact b4 i y g1 hi hy
              · simpa using hhigh h2 i y (by omega) g2 hy
          · refine Or.inr ⟨he, ?_⟩
            intro i y g1 g2 hy
            by_cases hi : i < first + len / 2
            · exact hn i y (by omega) hi hy
            · exact Or.inr (hhigh h2 i y (by omega) g2 hy)
        · have h2' : lt v x = false := by simpa using h2
          simp only [h2', Bool.false_eq_true, if_false]
          obtain ⟨a, ea, a1, a2, a3, a4⟩ := c47_lower_bound hs l first (first + len / 2) v (by omega) (by omega)
            (fun i j h1 h2 h3 => hso i j (by omega) h2 (by omega))
          obtain ⟨b, eb, b1, b2, b3, b4⟩ := c47_upper_bound hs l (first + len / 2 + 1) (first + len) v (by omega) (by omega)
            (fun i j h1 h2 h3 => hso i j (by omega) h2 (by omega))
          refine ⟨a, b, by simp [ea, eb], Or.inl ⟨⟨a1, by omega, a3, ?_⟩, ⟨by omega, b2, ?_, b4⟩, by omega⟩⟩
          · intro i y g1 g2 hy
            by_cases hi : i < first + len / 2
            · exact a4 i y g1 hi hy
            · by_contra hc
              have hc' : lt y v = true := by simpa using hc
              by_cases hi2 : i = first + len / 2
              · subst hi2; rw [hx] at hy; cases hy; simp_all
              · have := part_lt hs l _ _ v hso _ i x y (by omega) (by omega) g2 hx hy hc'
                simp_all
          · intro i y g1 g2 hy
            by_cases hi : first + len / 2 < i
            · exact b3 i y (by omega) g2 hy
            · by_cases hi2 : i = first + len / 2
              · subst hi2; rw [hx] at hy; cases hy; simpa using h2'
              · exact part_gt hs l _ _ v hso i _ y x g1 (by omega) (by omega) hy hx (by simpa using h2')
    · refine ⟨last, last, by simp [h0], Or.inr ⟨⟨rfl, rfl⟩, ?_⟩⟩
      intro i x; omega

/-- C47: `equal_range` gives the range of elements equivalent to `value` if there is one; otherwise the empty range at `last`
(not at the place where `value` belongs, which is what the standard algorithm returns) -/
theorem c47_equal_range {lt : α → α → Bool} (hs : StrictWeak lt) (l : List α) (first last : ℕ) (v : α) (hfl : first ≤ last)
    (hl : last ≤ l.length) (h : SortedOn lt l first last) :
    ∃ a b, equalRange lt l first last v = some (a, b) ∧
      (((∃ i x, first ≤ i ∧ i < last ∧ l[i]? = some x ∧ lt x v = false ∧ lt v x = false) ∧
          Boundary (fun x => lt x v) l first last a ∧ Boundary (fun x => !lt v x) l first last b ∧ a < b) ∨
       ((¬ ∃ i x, first ≤ i ∧ i < last ∧ l[i]? = some x ∧ lt x v = false ∧ lt v x = false) ∧ a = last ∧ b = last)) := by
  obtain ⟨a, b, e, hh⟩ := erLoop_ok hs l last v hl (last - first + 1) first (last - first) (by omega) (by omega)
    (by rw [show first + (last - first) = last by omega]; exact h)
  rw [show first + (last - first) = last by omega] at hh
  refine ⟨a, b, e, ?_⟩
  rcases hh with ⟨ha, hb, hab⟩ | ⟨he, hn⟩
  · left
    refine ⟨?_, ha, hb, hab⟩
    obtain ⟨x, hx⟩ := get_some l a (by have := hb.2.1; omega)
    exact ⟨a, x, ha.1, by have := hb.2.1; omega, hx, ha.2.2.2 a x (Nat.le_refl _) (by have := hb.2.1; omega) hx,
      by simpa using hb.2.2.1 a x ha.1 hab hx⟩
  · right
    refine ⟨?_, he⟩
    rintro ⟨i, x, h1, h2, h3, h4, h5⟩
    rcases hn i x h1 h2 h3 with h' | h' <;> simp_all

theorem boundary_unique {p : α → Bool} {l : List α} {first last r s : ℕ} (hl : last ≤ l.length) (hr : Boundary p l first last r)
    (hs : Boundary p l first last s) : r = s := by
  rcases Nat.lt_trichotomy r s with h | h | h
  · obtain ⟨x, hx⟩ := get_some l r (by have := hs.2.1; omega)
    have h1 := hr.2.2.2 r x (Nat.le_refl _) (by have := hs.2.1; omega) hx
    have h2 := hs.2.2.1 r x hr.1 h hx
    simp_all
  · exact h
  · obtain ⟨x, hx⟩ := get_some l s (by have := hr.2.1; omega)
    have h1 := hs.2.2.2 s x (Nat.le_refl _) (by have := hr.2.1; omega) hx
    have h2 := hr.2.2.1 s x hs.1 h hx
    simp_all

theorem erLoopF_eq {lt : α → α → Bool} (hs : StrictWeak lt) (l : List α) (last : ℕ) (v : α) (hl : last ≤ l.length) :
    ∀ (fuel first len : ℕ), first + len ≤ last → SortedOn lt l first last →
    erLoopF lt l last v fuel first len = erLoop lt l last v fuel first len := by
  intro fuel
  induction fuel with
  | zero => intros; rfl
  | succ fuel ih =>
    intro first len hle hso
    unfold erLoopF erLoop
    by_cases h0 : len > 0
    · obtain ⟨x, hx⟩ := get_some l (first + len / 2) (by omega)
      simp only [h0, if_true, hx, Option.bind_eq_bind, Option.bind_some]
      rw [ih (first + len / 2 + 1) _ (by omega) (fun i j h1 h2 h3 => hso i j (by omega) h2 h3), ih first _ (by omega) hso]
      by_cases h1 : lt x v = true
      · simp [h1]
      by_cases h2 : lt v x = true
      · simp [h1, h2]
      have h1' : lt x v = false := by simpa using h1
      obtain ⟨a, ea, a1, a2, a3, a4⟩ := c47_lower_bound hs l first (first + len / 2) v (by omega) (by omega)
        (fun i j h1 h2 h3 => hso i j (by omega) h2 (by omega))
      obtain ⟨b, eb, hb⟩ := c47_lower_bound hs l first last v (by omega) (by omega) hso
      have : b = a := by
        refine boundary_unique hl hb ⟨a1, by omega, a3, ?_⟩
        intro i y g1 g2 hy
        by_cases hi : i < first + len / 2
        · exact a4 i y g1 hi hy
        · by_contra hc
          have hc' : lt y v = true := by simpa using hc
          by_cases hi2 : i = first + len / 2
          · subst hi2; rw [hx] at hy; cases hy; simp_all
          · have := part_lt hs l _ _ v hso _ i x y (by omega) (by omega) g2 hx hy hc'
            simp_all
      rw [ea, eb, this]
    · simp [h0]

/-- C47: the forward-iterator version of `equal_range` gives the same result -/
theorem c47_equal_range_forward {lt : α → α → Bool} (hs : StrictWeak lt) (l : List α) (first last : ℕ) (v : α) (hfl : first ≤ last)
    (hl : last ≤ l.length) (h : SortedOn lt l first last) : equalRangeF lt l first last v = equalRange lt l first last v :=
  erLoopF_eq hs l last v hl _ _ _ (by omega) h

example : StrictWeak (fun a b : ℤ => decide (a < b)) := ⟨by intros; simp_all; omega, by intros; simp_all; omega⟩
example : SortedOn (fun a b : ℤ => decide (a < b)) [1, 3, 3, 7] 0 4 := by
  intro i j _ hij hj a b ha hb
  have : i < 4 := by omega
  interval_cases i <;> interval_cases j <;> simp_all <;> omega
example : equalRange (fun a b : ℤ => decide (a < b)) [1, 3, 3, 7] 0 4 3 = some (1, 3) := by decide +kernel
example : equalRange (fun a b : ℤ => decide (a < b)) [1, 3, 3, 7] 0 4 2 = some (4, 4) := by decide +kernel

end Verif.Search
