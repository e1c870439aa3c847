import Verif.Props.Heap

/-! # Sorting (C46) -/

namespace Verif.Sort
open Verif

variable {α : Type} {lt : α → α → Bool}

theorem scanUp_ok (pivot : α) (a : List α) (s : ℕ) (x : α) (hx : a[s]? = some x) (hp : lt x pivot = false) :
    ∀ (fuel f : ℕ), s < fuel + f → f ≤ s → ∃ r, scanUp lt pivot a fuel f = some r ∧ f ≤ r ∧ r ≤ s ∧
      (∀ i y, f ≤ i → i < r → a[i]? = some y → lt y pivot = true) ∧ ∀ y, a[r]? = some y → lt y pivot = false := by
  have hs : s < a.length := by
    by_contra h
    rw [List.getElem?_eq_none (by omega)] at hx; cases hx
  intro fuel
  induction fuel with
  | zero => intro f h1 h2; omega
  | succ fuel ih =>
    intro f h1 h2
    have hy := get_eq (show f < a.length by omega)
    generalize a[f] = y at hy
    unfold scanUp
    simp only [hy, Option.bind_eq_bind, Option.bind_some]
    by_cases hlt : lt y pivot = true
    · have hne : f ≠ s := by rintro rfl; rw [hx] at hy; cases hy; simp_all
      obtain ⟨r, e, g1, g2, g3, g4⟩ := ih (f + 1) (by omega) (by omega)
      refine ⟨r, by simp [hlt, e], by omega, g2, ?_, g4⟩
      intro i z h3 h4 hz
      by_cases e : i = f
      · subst e; rw [hy] at hz; cases hz; exact hlt
      · exact g3 i z (by omega) h4 hz
    · refine ⟨f, by simp [hlt], Nat.le_refl _, h2, by intro i z; omega, ?_⟩
      intro z hz; rw [hy] at hz; cases hz; simpa using hlt

theorem scanDown_ok (pivot : α) (a : List α) (s : ℕ) (x : α) (hx : a[s]? = some x) (hp : lt pivot x = false) :
    ∀ (l : ℕ), s < l → l ≤ a.length → ∃ r, scanDown lt pivot a l = some r ∧ s ≤ r ∧ r < l ∧
      (∀ i y, r < i → i < l → a[i]? = some y → lt pivot y = true) ∧ ∀ y, a[r]? = some y → lt pivot y = false := by
  intro l
  induction l with
  | zero => intro h; omega
  | succ l ih =>
    intro h1 h2
    have hy := get_eq (show l < a.length by omega)
    generalize a[l] = y at hy
    unfold scanDown
    simp only [hy, Option.bind_eq_bind, Option.bind_some]
    by_cases hlt : lt pivot y = true
    · have hne : l ≠ s := by rintro rfl; rw [hx] at hy; cases hy; simp_all
      obtain ⟨r, e, g1, g2, g3, g4⟩ := ih (by omega) (by omega)
      refine ⟨r, by simp [hlt, e], g1, by omega, ?_, g4⟩
      intro i z h3 h4 hz
      by_cases e : i = l
      · subst e; rw [hy] at hz; cases hz; exact hlt
      · exact g3 i z h3 (by omega) hz
    · refine ⟨l, by simp [hlt], by omega, by omega, by intro i z; omega, ?_⟩
      intro z hz; rw [hy] at hz; cases hz; simpa using hlt

theorem partition_ok (hs : StrictWeak lt) (pivot : α) : ∀ (fuel : ℕ) (a : List α) (first last su sd : ℕ) (xu xd : α), last < fuel + first →
    first ≤ su → a[su]? = some xu → lt xu pivot = false → sd < last → a[sd]? = some xd → lt pivot xd = false → last ≤ a.length → first ≤ last →
    ∃ a' cut, partition lt pivot fuel a first last = some (a', cut) ∧ a'.Perm a ∧ first ≤ cut ∧ (cut ≤ su ∨ cut < last) ∧
      (∀ i, i < first ∨ last ≤ i → a'[i]? = a[i]?) ∧
      (∀ i x, first ≤ i → i < cut → a'[i]? = some x → lt pivot x = false) ∧
      (∀ i x, cut ≤ i → i < last → a'[i]? = some x → lt x pivot = false) := by
  intro fuel
  induction fuel with
  | zero => intros; omega
  | succ fuel ih =>
    intro a first last su sd xu xd hf h1 hxu hpu h2 hxd hpd hl hfl
    have hsu : su < a.length := by
      by_contra h
      rw [List.getElem?_eq_none (by omega)] at hxu; cases hxu
    obtain ⟨f, ef, f1, f2, f3, f4⟩ := scanUp_ok pivot a su xu hxu hpu (a.length + 1) first (by omega) h1
    obtain ⟨l, el, l1, l2, l3, l4⟩ := scanDown_ok pivot a sd xd hxd hpd last h2 hl
    unfold partition
    simp only [ef, el, Option.bind_eq_bind, Option.bind_some]
    by_cases hc : f < l
    · have hx := get_eq (show f < a.length by omega)
      generalize hxe : a[f] = x at hx
      have hy := get_eq (show l < a.length by omega)
      generalize hye : a[l] = y at hy
      simp only [hc, not_true, if_false, hx, hy, Option.bind_some, wr_eq (show f < a.length by omega)]
      rw [wr_eq (by simp; omega)]
      simp only [Option.bind_some]
      have hget : ∀ i, ((a.set f y).set l x)[i]? = if l = i then some x else if f = i then some y else a[i]? := by
        intro i
        rw [get_set _ _ _ _ (by simp; omega), get_set _ _ _ _ (by omega)]
      have hperm : ((a.set f y).set l x).Perm a := by
        have := List.set_set_perm (as := a) (i := f) (j := l) (by omega) (by omega)
        rwa [hxe, hye] at this
      obtain ⟨a', cut, e, g1, g2, g3, g4, g5, g6⟩ := ih ((a.set f y).set l x) (f + 1) l l f x y (by omega) (by omega)
        (by rw [hget, if_pos rfl]) (f4 x hx) hc (by rw [hget, if_neg (by omega), if_pos rfl]) (l4 y hy) (by simp; omega) (by omega)
      refine ⟨a', cut, e, g1.trans hperm, by omega, ?_, ?_, ?_, ?_⟩
      · omega
      · intro i hi
        rw [g4 i (by omega), hget, if_neg (by omega), if_neg (by omega)]
      · intro i z h3 h4 hz
        by_cases hi : i ≤ f
        · rw [g4 i (by omega), hget, if_neg (by omega)] at hz
          by_cases e : f = i
          · rw [if_pos e] at hz; cases hz; exact l4 _ hy
          · rw [if_neg e] at hz
            exact hs.asymm _ _ (f3 i z h3 (by omega) hz)
        · exact g5 i z (by omega) h4 hz
      · intro i z h3 h4 hz
        by_cases hi : i < l
        · exact g6 i z h3 hi hz
        · rw [g4 i (by omega), hget] at hz
          by_cases e : l = i
          · rw [if_pos e] at hz; cases hz; exact f4 _ hx
          · rw [if_neg e, if_neg (by omega)] at hz
            exact hs.asymm _ _ (l3 i z (by omega) h4 hz)
    · simp only [hc, not_false_eq_true, if_true]
      refine ⟨a, f, rfl, List.Perm.refl _, f1, Or.inl f2, fun _ _ => rfl, ?_, ?_⟩
      · intro i x h3 h4 hx
        exact hs.asymm _ _ (f3 i x h3 h4 hx)
      · intro i x h3 h4 hx
        by_cases e : i = f
        · subst e; exact f4 x hx
        · exact hs.asymm _ _ (l3 i x (by omega) h4 hx)


theorem median_mem (lt0 : α → α → Bool) (x y z : α) : median lt0 x y z = x ∨ median lt0 x y z = y ∨ median lt0 x y z = z := by
  unfold median
  split <;> split <;> (try split) <;> simp

theorem introSort_ok (hs : StrictWeak lt) (lt0 : α → α → Bool) : ∀ (depth : ℕ) (a : List α) (first last : ℕ), first ≤ last →
    last ≤ a.length → ∃ a', introSort lt lt0 depth a first last = some a' ∧ a'.Perm a ∧
      (∀ i, i < first ∨ last ≤ i → a'[i]? = a[i]?) ∧ (last - first ≤ kSmall → a' = a) := by
  intro depth
  induction depth with
  | zero =>
    intro a first last h1 h2
    unfold introSort
    by_cases hc : last - first > kSmall
    · have hk : 0 < last - first := by unfold kSmall at hc; omega
      obtain ⟨a', e, p1, _, _, p4⟩ := c46_partial_sort hs a first (last - first) 0 (by omega) hk
      rw [show first + (last - first) = last by omega] at e p4
      simp only [hc, if_true]
      exact ⟨a', e, p1, p4, fun h => absurd h (by omega)⟩
    · simp only [hc, if_false]
      exact ⟨a, rfl, List.Perm.refl _, fun _ _ => rfl, fun _ => rfl⟩
  | succ depth ih =>
    intro a first last h1 h2
    unfold introSort
    by_cases hc : last - first > kSmall
    · have hk : 0 < last - first := by unfold kSmall at hc; omega
      have hx := get_eq (show first < a.length by omega)
      generalize a[first] = x at hx
      have hy := get_eq (show first + (last - first) / 2 < a.length by omega)
      generalize a[first + (last - first) / 2] = y at hy
      have hz := get_eq (show last - 1 < a.length by omega)
      generalize a[last - 1] = z at hz
      obtain ⟨s, s1, s2, s3⟩ : ∃ s, first ≤ s ∧ s < last ∧ a[s]? = some (median lt0 x y z) := by
        rcases median_mem lt0 x y z with h | h | h <;> rw [h]
        · exact ⟨_, by omega, by omega, hx⟩
        · exact ⟨_, by omega, by omega, hy⟩
        · exact ⟨_, by omega, by omega, hz⟩
      obtain ⟨a1, cut, e1, p1, p2, p3, p4, _, _⟩ := partition_ok hs (median lt0 x y z) (last - first + 1) a first last s s _ _ (by omega) s1 s3
        (irrefl' hs _) s2 s3 (irrefl' hs _) h2 h1
      obtain ⟨a2, e2, q1, q2, _⟩ := ih a1 cut last (by omega) (by rw [p1.length_eq]; exact h2)
      obtain ⟨a3, e3, r1, r2, _⟩ := ih a2 first cut p2 (by rw [q1.length_eq, p1.length_eq]; omega)
      refine ⟨a3, ?_, r1.trans (q1.trans p1), ?_, fun h => absurd h (by omega)⟩
      · simp only [hc, if_true, hx, hy, hz, Option.bind_eq_bind, Option.bind_some, e1, e2, e3]
      · intro i hi
        rw [r2 i (by omega), q2 i (by omega), p4 i hi]
    · simp only [hc, if_false]
      exact ⟨a, rfl, List.Perm.refl _, fun _ _ => rfl, fun _ => rfl⟩

/-! ## insertion -/

theorem set_at (pre : List α) (y v : α) (post : List α) (i : ℕ) (hi : i = pre.length) :
    wr (pre ++ y :: post) i v = some (pre ++ v :: post) := by
  subst hi
  rw [wr_eq (by simp), List.set_append_right _ _ (Nat.le_refl _)]
  simp

theorem get_at' (pre : List α) (y : α) (post : List α) (i : ℕ) (hi : i = pre.length) : (pre ++ y :: post)[i]? = some y := by
  subst hi
  rw [List.getElem?_append_right (Nat.le_refl _)]
  simp

theorem linearInsert_ok (v : α) (pre : List α) : ∀ (n : ℕ) (s : List α) (y : α) (post : List α), s.length = n → s ≠ [] →
    (∀ z, s.head? = some z → lt v z = false) → ∃ s1 s2, s = s1 ++ s2 ∧ s1 ≠ [] ∧ (∀ z ∈ s2, lt v z = true) ∧
      (∀ z, s1.getLast? = some z → lt v z = false) ∧
      linearInsert lt (.copy v) (pre.length + s.length) (pre ++ s ++ y :: post) = some (pre ++ (s1 ++ v :: s2) ++ post) := by
  intro n
  induction n with
  | zero => intro s y post h1 h2; exact absurd (List.length_eq_zero_iff.mp h1) h2
  | succ n ih =>
    intro s y post h1 h2 h3
    obtain ⟨s0, z, rfl⟩ : ∃ s0 z, s = s0 ++ [z] := ⟨s.dropLast, s.getLast h2, (List.dropLast_append_getLast h2).symm⟩
    have hg : (pre ++ (s0 ++ [z]) ++ y :: post)[pre.length + s0.length]? = some z := by
      have := get_at' (pre ++ s0) z (y :: post) (pre.length + s0.length) (by simp)
      rw [← this]; congr 1; simp
    have hw : ∀ w, wr (pre ++ (s0 ++ [z]) ++ y :: post) (pre.length + s0.length + 1) w = some (pre ++ s0 ++ z :: w :: post) := by
      intro w
      rw [set_at _ _ _ _ _ (by simp; omega)]; simp
    rw [show pre.length + (s0 ++ [z]).length = pre.length + s0.length + 1 by simp; omega]
    unfold linearInsert
    simp only [hg, Ref.get, Option.bind_eq_bind, Option.bind_some]
    by_cases hlt : lt v z = true
    · have hs0 : s0 ≠ [] := by
        rintro rfl
        have := h3 z (by simp)
        simp_all
      obtain ⟨s1, s2, e1, e2, e3, e4, e5⟩ := ih s0 z (z :: post) (by simpa using h1) hs0 (by
        intro w hw; apply h3; rw [List.head?_append_of_ne_nil _ hs0]; exact hw)
      refine ⟨s1, s2 ++ [z], by rw [e1]; simp, e2, ?_, e4, ?_⟩
      · intro w hw
        rcases List.mem_append.mp hw with h | h
        · exact e3 w h
        · simp only [List.mem_singleton] at h; subst h; exact hlt
      · simp only [hlt, if_true, hw, Option.bind_some, e5]; simp
    · refine ⟨s0 ++ [z], [], by simp, by simp, by simp, ?_, ?_⟩
      · intro w hw; simp at hw; subst hw; simpa using hlt
      · simp only [hlt, hw]; simp

theorem shiftUp_ok (pre : List α) : ∀ (n : ℕ) (s : List α) (y : α) (post : List α), s.length = n →
    ∃ x, shiftUp pre.length n (pre ++ s ++ y :: post) = some (pre ++ x :: s ++ post) := by
  intro n
  induction n with
  | zero =>
    intro s y post h1
    obtain rfl := List.length_eq_zero_iff.mp h1
    exact ⟨y, by simp [shiftUp]⟩
  | succ n ih =>
    intro s y post h1
    have h2 : s ≠ [] := by rintro rfl; simp at h1
    obtain ⟨s0, z, rfl⟩ : ∃ s0 z, s = s0 ++ [z] := ⟨s.dropLast, s.getLast h2, (List.dropLast_append_getLast h2).symm⟩
    have hn : s0.length = n := by simpa using h1
    have hg : (pre ++ (s0 ++ [z]) ++ y :: post)[pre.length + n]? = some z := by
      have := get_at' (pre ++ s0) z (y :: post) (pre.length + n) (by simp [hn])
      rw [← this]; congr 1; simp
    have hw : ∀ w, wr (pre ++ (s0 ++ [z]) ++ y :: post) (pre.length + n + 1) w = some (pre ++ s0 ++ z :: w :: post) := by
      intro w
      rw [set_at _ _ _ _ _ (by simp; omega)]; simp
    obtain ⟨x, e⟩ := ih s0 z (z :: post) hn
    refine ⟨x, ?_⟩
    unfold shiftUp
    simp only [hg, hw, Option.bind_eq_bind, Option.bind_some, e]
    simp

theorem sorted_insert (hs : StrictWeak lt) (v : α) (s1 s2 : List α) (h : Sorted lt (s1 ++ s2)) (h2 : ∀ z ∈ s2, lt v z = true)
    (h1 : ∀ z, s1.getLast? = some z → lt v z = false) : Sorted lt (s1 ++ v :: s2) := by
  obtain ⟨a1, a2, a3⟩ := List.pairwise_append.mp h
  refine List.pairwise_append.mpr ⟨a1, List.pairwise_cons.mpr ⟨fun z hz => hs.asymm _ _ (h2 z hz), a2⟩, ?_⟩
  intro x hx y hy
  rcases List.mem_cons.mp hy with rfl | hy
  · have hne : s1 ≠ [] := List.ne_nil_of_mem hx
    have hl := h1 _ (List.getLast?_eq_some_getLast hne)
    rw [← List.dropLast_append_getLast hne] at hx a1
    rcases List.mem_append.mp hx with hx | hx
    · have := (List.pairwise_append.mp a1).2.2 x hx _ (List.mem_singleton_self _)
      exact ge_trans hs hl this
    · simp only [List.mem_singleton] at hx; subst hx; exact hl
  · exact a3 x hx y hy

theorem insLoop_ok (hs : StrictWeak lt) (pre post : List α) : ∀ (t s : List α), s ≠ [] → Sorted lt s →
    ∃ r, insLoop lt pre.length t.length (pre.length + s.length) (pre ++ s ++ t ++ post) = some (pre ++ r ++ post) ∧ Sorted lt r ∧ r.Perm (s ++ t) := by
  intro t
  induction t with
  | nil => intro s h1 h2; exact ⟨s, by simp [insLoop], h2, by simp⟩
  | cons v t ih =>
    intro s h1 h2
    obtain ⟨z, s0, rfl⟩ := List.exists_cons_of_ne_nil h1
    have hv : (pre ++ (z :: s0) ++ v :: t ++ post)[pre.length + (z :: s0).length]? = some v := by
      have := get_at' (pre ++ (z :: s0)) v (t ++ post) (pre.length + (z :: s0).length) (by simp)
      rw [← this]; congr 1; simp
    have hz : (pre ++ (z :: s0) ++ v :: t ++ post)[pre.length]? = some z := by
      have := get_at' pre z (s0 ++ v :: t ++ post) pre.length rfl
      rw [← this]; congr 1; simp
    rw [List.length_cons (a := v)]
    unfold insLoop
    simp only [hv, hz, Option.bind_eq_bind, Option.bind_some]
    by_cases hlt : lt v z = true
    · simp only [hlt, if_true]
      obtain ⟨x, ex⟩ := shiftUp_ok pre (z :: s0).length (z :: s0) v (t ++ post) rfl
      have e1 : pre ++ z :: s0 ++ v :: t ++ post = pre ++ z :: s0 ++ v :: (t ++ post) := by simp
      rw [show pre.length + (z :: s0).length - pre.length = (z :: s0).length by omega, e1, ex, Option.bind_some,
        show pre ++ x :: z :: s0 ++ (t ++ post) = pre ++ x :: (z :: s0 ++ (t ++ post)) by simp, set_at _ _ _ _ _ rfl, Option.bind_some]
      have hsort : Sorted lt (v :: z :: s0) := by
        have := sorted_insert hs v [] (z :: s0) (by simpa using h2) (by
          intro w hw
          rcases List.mem_cons.mp hw with rfl | hw
          · exact hlt
          · have h3 := (List.pairwise_cons.mp h2).1 w hw
            rcases hs.trans_neg v w z hlt with h | h
            · exact h
            · simp_all) (by simp)
        simpa using this
      obtain ⟨r, e2, r1, r2⟩ := ih (v :: z :: s0) (by simp) hsort
      refine ⟨r, ?_, r1, r2.trans ?_⟩
      · rw [← e2]; congr 1
        simp
      · exact (List.perm_middle (a := v) (l₁ := z :: s0) (l₂ := t)).symm
    · simp only [hlt]
      obtain ⟨s1, s2, e1, e2, e3, e4, e5⟩ := linearInsert_ok v pre (z :: s0).length (z :: s0) v (t ++ post) rfl (by simp) (by
        intro w hw; simp at hw; subst hw; simpa using hlt)
      obtain ⟨r, e6, r1, r2⟩ := ih (s1 ++ v :: s2) (by simp) (sorted_insert hs v s1 s2 (by rw [← e1]; exact h2) e3 e4)
      refine ⟨r, ?_, r1, r2.trans ?_⟩
      · rw [show pre ++ z :: s0 ++ v :: t ++ post = pre ++ z :: s0 ++ v :: (t ++ post) by simp, e5]
        simp only [Bool.false_eq_true, if_false, Option.bind_some]
        rw [← e6]; congr 1
        · rw [e1]; simp; omega
        · simp
      · rw [e1]
        have : ((s1 ++ v :: s2) ++ t).Perm ((v :: (s1 ++ s2)) ++ t) := List.Perm.append_right _ List.perm_middle
        exact this.trans (List.perm_middle (a := v) (l₁ := s1 ++ s2) (l₂ := t)).symm

theorem insertionSort_ok (hs : StrictWeak lt) (pre mid post : List α) :
    ∃ r, insertionSort lt (pre ++ mid ++ post) pre.length (pre.length + mid.length) = some (pre ++ r ++ post) ∧ Sorted lt r ∧ r.Perm mid := by
  unfold insertionSort
  cases mid with
  | nil => exact ⟨[], by simp, List.Pairwise.nil, List.Perm.refl _⟩
  | cons z t =>
    obtain ⟨r, e, h1, h2⟩ := insLoop_ok hs pre post t [z] (by simp) (by simp [Sorted])
    refine ⟨r, ?_, h1, by simpa using h2⟩
    rw [if_neg (by simp), ← e]
    congr 1
    · simp; omega
    · simp

/-- running maximum: what a tail inserted by reference turns into -/
def runMax (lt : α → α → Bool) : α → List α → List α
  | _, [] => []
  | x, y :: t => (if lt y x then x else y) :: runMax lt (if lt y x then x else y) t

theorem unchecked_ok (hs : StrictWeak lt) (pre post : List α) : ∀ (t s : List α) (x : α), 2 ≤ s.length → Sorted lt s → s.getLast? = some x →
    uncheckedInsertionSort lt t.length (pre.length + s.length) (pre ++ s ++ t ++ post) = some (pre ++ (s ++ runMax lt x t) ++ post) ∧
      Sorted lt (s ++ runMax lt x t) := by
  intro t
  induction t with
  | nil => intro s x h1 h2 h3; simp [uncheckedInsertionSort, runMax, h2]
  | cons y t ih =>
    intro s x h1 h2 h3
    have hne : s ≠ [] := by rintro rfl; simp at h1
    obtain ⟨s0, rfl⟩ : ∃ s0, s = s0 ++ [x] := by
      refine ⟨s.dropLast, ?_⟩
      have h4 := List.dropLast_append_getLast hne
      rw [List.getLast?_eq_some_getLast hne] at h3
      rw [← Option.some.inj h3, h4]
    have hne0 : s0 ≠ [] := by rintro rfl; simp at h1
    obtain ⟨s1, w, rfl⟩ : ∃ s1 w, s0 = s1 ++ [w] := ⟨s0.dropLast, s0.getLast hne0, (List.dropLast_append_getLast hne0).symm⟩
    have hwx : lt x w = false := by
      have := (List.pairwise_append.mp h2).2.2 w (by simp) x (by simp)
      exact this
    have key : linearInsert lt (.cell (pre.length + (s1 ++ [w] ++ [x]).length)) (pre.length + (s1 ++ [w] ++ [x]).length)
        (pre ++ (s1 ++ [w] ++ [x]) ++ y :: t ++ post) = some (pre ++ (s1 ++ [w] ++ [x]) ++ [if lt y x then x else y] ++ t ++ post) := by
      rw [show pre.length + (s1 ++ [w] ++ [x]).length = pre.length + s1.length + 1 + 1 by simp; omega]
      have ea : pre ++ (s1 ++ [w] ++ [x]) ++ y :: t ++ post = (pre ++ s1 ++ [w]) ++ x :: (y :: (t ++ post)) := by simp
      have eb : pre ++ (s1 ++ [w] ++ [x]) ++ y :: t ++ post = (pre ++ s1 ++ [w] ++ [x]) ++ y :: (t ++ post) := by simp
      have gx := get_at' (pre ++ s1 ++ [w]) x (y :: (t ++ post)) (pre.length + s1.length + 1) (by simp; omega)
      have gy := get_at' (pre ++ s1 ++ [w] ++ [x]) y (t ++ post) (pre.length + s1.length + 1 + 1) (by simp; omega)
      rw [← ea] at gx
      rw [← eb] at gy
      unfold linearInsert
      simp only [gx, gy, Ref.get, Option.bind_eq_bind, Option.bind_some]
      by_cases hlt : lt y x = true
      · simp only [hlt, if_true]
        rw [eb, set_at _ _ _ _ _ (by simp; omega), Option.bind_some]
        have gw := get_at' (pre ++ s1) w ([x] ++ x :: (t ++ post)) (pre.length + s1.length) (by simp)
        have gv := get_at' (pre ++ s1 ++ [w] ++ [x]) x (t ++ post) (pre.length + s1.length + 1 + 1) (by simp; omega)
        have ec : pre ++ s1 ++ [w] ++ [x] ++ x :: (t ++ post) = pre ++ s1 ++ w :: ([x] ++ x :: (t ++ post)) := by simp
        unfold linearInsert
        simp only [Option.bind_eq_bind, Ref.get]
        rw [gv, ec, gw]
        simp only [Option.bind_some, hwx, Bool.false_eq_true, if_false]
        rw [show pre ++ s1 ++ w :: ([x] ++ x :: (t ++ post)) = pre ++ s1 ++ [w] ++ x :: (x :: (t ++ post)) by simp,
          set_at _ _ _ _ _ (by simp; omega)]
        simp
      · rw [if_neg hlt, if_neg hlt, eb, set_at _ _ _ _ _ (by simp; omega)]
        simp
    obtain ⟨i1, i2⟩ := ih (s1 ++ [w] ++ [x] ++ [if lt y x then x else y]) (if lt y x then x else y) (by simp) (by
      refine List.pairwise_append.mpr ⟨h2, by simp, ?_⟩
      intro u hu z hz
      simp only [List.mem_singleton] at hz
      subst hz
      have hux : lt x u = false := by
        rcases List.mem_append.mp hu with h | h
        · exact (List.pairwise_append.mp h2).2.2 u h x (by simp)
        · simp only [List.mem_singleton] at h; subst h; exact irrefl' hs _
      by_cases hlt : lt y x = true
      · rw [if_pos hlt]; exact hux
      · rw [if_neg hlt]; exact ge_trans hs (by simpa using hlt) hux) (by simp)
    have ed : ∀ q, s1 ++ [w] ++ [x] ++ [if lt y x then x else y] ++ q = s1 ++ [w] ++ [x] ++ (if lt y x then x else y) :: q := by simp
    constructor
    · rw [List.length_cons, uncheckedInsertionSort, key, Option.bind_eq_bind, Option.bind_some]
      rw [show pre ++ (s1 ++ [w] ++ [x]) ++ [if lt y x then x else y] ++ t ++ post =
        pre ++ (s1 ++ [w] ++ [x] ++ [if lt y x then x else y]) ++ t ++ post by simp,
        show pre.length + (s1 ++ [w] ++ [x]).length + 1 = pre.length + (s1 ++ [w] ++ [x] ++ [if lt y x then x else y]).length by simp; omega, i1, ed]
      rfl
    · rw [ed] at i2; exact i2

/-- what is known of the array after an operation that permutes it and leaves the outside of the range alone -/
theorem range_perm (pre mid post a' : List α) (hp : a'.Perm (pre ++ mid ++ post))
    (hf : ∀ i, i < pre.length ∨ pre.length + mid.length ≤ i → a'[i]? = (pre ++ mid ++ post)[i]?) :
    ∃ m, a' = pre ++ m ++ post ∧ m.Perm mid := by
  have hl := hp.length_eq
  simp only [List.length_append] at hl
  have e1 : a'.take pre.length = pre := by
    apply List.ext_getElem?
    intro i
    rw [List.getElem?_take]
    split
    · rename_i h
      rw [hf i (Or.inl h), List.append_assoc, List.getElem?_append_left h]
    · rename_i h
      rw [List.getElem?_eq_none (by omega)]
  have e2 : a'.drop (pre.length + mid.length) = post := by
    apply List.ext_getElem?
    intro i
    rw [List.getElem?_drop, hf _ (Or.inr (by omega)), List.getElem?_append_right (by simp)]
    congr 1; simp
  refine ⟨(a'.drop pre.length).take mid.length, ?_, ?_⟩
  · have h1 := List.take_append_drop pre.length a'
    have h2 := List.take_append_drop mid.length (a'.drop pre.length)
    rw [List.drop_drop, e2] at h2
    rw [e1, ← h2] at h1
    rw [List.append_assoc]; exact h1.symm
  · have h1 := List.take_append_drop pre.length a'
    have h2 := List.take_append_drop mid.length (a'.drop pre.length)
    rw [List.drop_drop, e2] at h2
    rw [e1, ← h2, ← List.append_assoc] at h1
    rw [← h1] at hp
    rw [List.perm_append_right_iff, List.perm_append_left_iff] at hp
    exact hp

/-- C46: `sort` on any range is defined, leaves the rest of the array alone and produces a sorted range.  Up to 128 elements the
result is a permutation of the input.  (`lt0` is the relation `median` uses: any relation at all.) -/
theorem c46_sort_partial (hs : StrictWeak lt) (lt0 : α → α → Bool) (pre mid post : List α) :
    ∃ r, sort lt lt0 (pre ++ mid ++ post) pre.length (pre.length + mid.length) = some (pre ++ r ++ post) ∧ Sorted lt r ∧
      r.length = mid.length ∧ (mid.length ≤ 128 → r.Perm mid) ∧
      (128 < mid.length → ∃ (m s : List α) (x : α), m.Perm mid ∧ s.Perm (m.take 128) ∧ s.getLast? = some x ∧ r = s ++ runMax lt x (m.drop 128)) := by
  unfold sort
  by_cases h0 : mid = []
  · subst h0
    exact ⟨[], by simp, List.Pairwise.nil, rfl, fun _ => List.Perm.refl _, by simp⟩
  · have hpos : 0 < mid.length := List.length_pos_iff.mpr h0
    rw [if_pos (by omega)]
    obtain ⟨a1, e1, p1, p2, p3⟩ := introSort_ok hs lt0 (slg2 64 (pre.length + mid.length - pre.length) * 2) (pre ++ mid ++ post) pre.length
      (pre.length + mid.length) (by omega) (by simp)
    obtain ⟨m, rfl, hm⟩ := range_perm pre mid post a1 p1 p2
    have hml := hm.length_eq
    rw [e1, Option.bind_eq_bind, Option.bind_some]
    unfold finalInsertionSort kSmall
    by_cases hc : mid.length ≤ 128
    · rw [if_neg (by omega), ← hml]
      obtain ⟨r, e, r1, r2⟩ := insertionSort_ok hs pre m post
      exact ⟨r, e, r1, r2.length_eq, fun _ => r2.trans hm, fun h => absurd h (by omega)⟩
    · rw [if_pos (by omega)]
      obtain ⟨s, e, s1, s2⟩ := insertionSort_ok hs pre (m.take 128) (m.drop 128 ++ post)
      have hsl : s.length = 128 := by rw [s2.length_eq, List.length_take]; omega
      have hne : s ≠ [] := by rintro rfl; simp at hsl
      obtain ⟨u1, u2⟩ := unchecked_ok hs pre post (m.drop 128) s (s.getLast hne) (by omega) s1 (List.getLast?_eq_some_getLast hne)
      refine ⟨s ++ runMax lt (s.getLast hne) (m.drop 128), ?_, u2, ?_, fun h => absurd h hc, fun _ =>
        ⟨m, s, _, hm, s2, List.getLast?_eq_some_getLast hne, rfl⟩⟩
      · have ea : pre ++ m ++ post = pre ++ m.take 128 ++ (m.drop 128 ++ post) := by
          rw [List.append_assoc pre (m.take 128), ← List.append_assoc (m.take 128), List.take_append_drop, List.append_assoc]
        rw [ea]
        have hlt : (m.take 128).length = 128 := by rw [List.length_take]; omega
        rw [hlt] at e
        simp only [e, Option.bind_eq_bind, Option.bind_some]
        rw [show pre.length + mid.length - (pre.length + 128) = (m.drop 128).length by rw [List.length_drop]; omega,
          show pre.length + 128 = pre.length + s.length by rw [hsl], ← List.append_assoc]
        exact u1
      · have : ∀ (t : List α) x, (runMax lt x t).length = t.length := by
          intro t
          induction t with
          | nil => intro x; rfl
          | cons y t ih => intro x; simp [runMax, ih]
        rw [List.length_append, this, hsl, List.length_drop]; omega

/-- C46 (defect): beyond 128 elements `sort` loses elements — here 127 disappears and 128 occurs twice — because
`unchecked_linear_insert` overwrites the array cell its argument refers to -/
theorem c46_sort_defect : ∃ r, sort (fun a b => Nat.blt a b) (fun a b => Nat.blt a b) demo 0 129 = some r ∧ ¬ r.Perm demo := by
  have h : (match sort (fun a b => Nat.blt a b) (fun a b => Nat.blt a b) demo 0 129 with
    | some r => r.all (fun x => x != 127) | none => false) = true := by decide +kernel
  rcases hr : sort (fun a b => Nat.blt a b) (fun a b => Nat.blt a b) demo 0 129 with _ | r
  · rw [hr] at h; simp at h
  · rw [hr] at h
    refine ⟨r, rfl, fun hp => ?_⟩
    have hmem : 127 ∈ demo := by decide +kernel
    have := List.all_eq_true.mp h 127 (hp.symm.subset hmem)
    simp at this

example : StrictWeak (fun a b => Nat.blt a b) :=
  by
  constructor
  · intro a b h
    have := Nat.blt_eq.mp h
    by_contra h2
    have := Nat.blt_eq.mp (by simpa using h2)
    omega
  · intro a b c h
    have := Nat.blt_eq.mp h
    rcases Nat.lt_or_ge a b with h1 | h1
    · exact Or.inl (Nat.blt_eq.mpr h1)
    · exact Or.inr (Nat.blt_eq.mpr (by omega))

end Verif.Sort
