import Verif.NthElement
import Verif.Props.Sort

/-! # C67: `nth_element` keeps the elements but may leave the wrong one in place -/

namespace Verif.Sort
open Verif

variable {α : Type} {lt : α → α → Bool}

theorem partitionRef_ok (hs : StrictWeak lt) (pv : ℕ) : ∀ (fuel : ℕ) (a : List α) (first last su sd : ℕ) (p xu xd : α), last < fuel + first →
    a[pv]? = some p → first ≤ su → a[su]? = some xu → lt xu p = false → sd < last → a[sd]? = some xd → lt p xd = false → last ≤ a.length →
    first ≤ last →
    ∃ a' cut, partitionRef lt pv fuel a first last = some (a', cut) ∧ a'.Perm a ∧ first ≤ cut ∧ (cut ≤ su ∨ cut < last) ∧
      (first < sd → first < cut) ∧ (∀ i, i < first ∨ last ≤ i → a'[i]? = a[i]?) := by
  intro fuel
  induction fuel with
  | zero => intros; omega
  | succ fuel ih =>
    intro a first last su sd p xu xd hf hp h1 hxu hpu h2 hxd hpd hl hfl
    have hsu : su < a.length := by
      by_contra h
      rw [List.getElem?_eq_none (by omega)] at hxu; cases hxu
    obtain ⟨f, ef, f1, f2, f3, f4⟩ := scanUp_ok p a su xu hxu hpu (a.length + 1) first (by omega) h1
    obtain ⟨l, el, l1, l2, l3, l4⟩ := scanDown_ok p a sd xd hxd hpd last h2 hl
    unfold partitionRef
    simp only [hp, ef, el, Option.bind_eq_bind, Option.bind_some]
    by_cases hc : f < l
    · have hx := get_eq (show f < a.length by omega)
      generalize hxe : a[f] = x at hx
      have hy := get_eq (show l < a.length by omega)
      generalize hye : a[l] = y at hy
      simp only [hc, not_true, if_false, hx, hy, Option.bind_some, wr_eq (show f < a.length by omega)]
      rw [wr_eq (by simp; omega)]
      simp only [Option.bind_some]
      have hget : ∀ i, ((a.set f y).set l x)[i]? = if l = i then some x else if f = i then some y else a[i]? := by
        intro i
        rw [get_set _ _ _ _ (by simp; omega), get_set _ _ _ _ (by omega)]
      have hperm : ((a.set f y).set l x).Perm a := by
        have := List.set_set_perm (as := a) (i := f) (j := l) (by omega) (by omega)
        rwa [hxe, hye] at this
      -- the pivot after the exchange
      obtain ⟨p', hp', hq1, hq2⟩ : ∃ p', ((a.set f y).set l x)[pv]? = some p' ∧ lt x p' = false ∧ lt p' y = false := by
        rw [hget]
        by_cases e1 : l = pv
        · subst e1
          rw [hy] at hp; cases hp
          refine ⟨x, by rw [if_pos rfl], irrefl' hs _, f4 x hx⟩
        · rw [if_neg e1]
          by_cases e2 : f = pv
          · subst e2
            rw [hx] at hp; cases hp
            exact ⟨y, by rw [if_pos rfl], l4 y hy, irrefl' hs _⟩
          · rw [if_neg e2]
            exact ⟨p, hp, f4 x hx, l4 y hy⟩
      obtain ⟨a', cut, e, g1, g2, g3, _, g4⟩ := ih ((a.set f y).set l x) (f + 1) l l f p' x y (by omega) hp' (by omega)
        (by rw [hget, if_pos rfl]) hq1 hc (by rw [hget, if_neg (by omega), if_pos rfl]) hq2 (by simp; omega) (by omega)
      refine ⟨a', cut, e, g1.trans hperm, by omega, by omega, by omega, ?_⟩
      intro i hi
      rw [g4 i (by omega), hget, if_neg (by omega), if_neg (by omega)]
    · simp only [hc, not_false_eq_true, if_true]
      exact ⟨a, f, rfl, List.Perm.refl _, f1, Or.inl f2, by omega, fun _ _ => rfl⟩

/-- the cell of the median, and a cell after the first whose element does not exceed it -/
theorem medianCell_ok (hs : StrictWeak lt) (a : List α) (first last : ℕ) (h : 3 < last - first) (hl : last ≤ a.length) :
    ∃ pv p q x, medianCell lt a first (first + (last - first) / 2) (last - 1) = some pv ∧ first ≤ pv ∧ pv < last ∧ a[pv]? = some p ∧
      first < q ∧ q < last ∧ a[q]? = some x ∧ lt p x = false := by
  have hx := get_eq (show first < a.length by omega)
  generalize a[first] = x at hx
  have hy := get_eq (show first + (last - first) / 2 < a.length by omega)
  generalize a[first + (last - first) / 2] = y at hy
  have hz := get_eq (show last - 1 < a.length by omega)
  generalize a[last - 1] = z at hz
  unfold medianCell
  simp only [hx, hy, hz, Option.bind_eq_bind, Option.bind_some]
  by_cases h1 : lt x y = true
  · rw [if_pos h1]
    by_cases h2 : lt y z = true
    · rw [if_pos h2]
      exact ⟨_, y, _, y, rfl, by omega, by omega, hy, by omega, by omega, hy, irrefl' hs _⟩
    · rw [if_neg h2]
      by_cases h3 : lt x z = true
      · rw [if_pos h3]
        exact ⟨_, z, _, z, rfl, by omega, by omega, hz, by omega, by omega, hz, irrefl' hs _⟩
      · rw [if_neg h3]
        exact ⟨_, x, _, z, rfl, by omega, by omega, hx, by omega, by omega, hz, by simpa using h3⟩
  · rw [if_neg h1]
    by_cases h2 : lt x z = true
    · rw [if_pos h2]
      exact ⟨_, x, _, y, rfl, by omega, by omega, hx, by omega, by omega, hy, by simpa using h1⟩
    · rw [if_neg h2]
      by_cases h3 : lt y z = true
      · rw [if_pos h3]
        exact ⟨_, z, _, z, rfl, by omega, by omega, hz, by omega, by omega, hz, irrefl' hs _⟩
      · rw [if_neg h3]
        exact ⟨_, y, _, y, rfl, by omega, by omega, hy, by omega, by omega, hy, irrefl' hs _⟩

theorem nthLoop_ok (hs : StrictWeak lt) (nth : ℕ) : ∀ (fuel : ℕ) (a : List α) (first last : ℕ), first ≤ last → last ≤ a.length →
    last - first < fuel → first ≤ nth → nth < last →
    ∃ a' f l, nthLoop lt lt nth fuel a first last = some (a', f, l) ∧ a'.Perm a ∧ first ≤ f ∧ f ≤ nth ∧ nth < l ∧ l ≤ last ∧
      (∀ i, i < first ∨ last ≤ i → a'[i]? = a[i]?) := by
  intro fuel
  induction fuel with
  | zero => intros; omega
  | succ fuel ih =>
    intro a first last h1 h2 h3 hn1 hn2
    unfold nthLoop
    by_cases hc : last - first > 3
    · rw [if_pos hc]
      obtain ⟨pv, p, q, x, e, m1, m2, m3, m4, m5, m6, m7⟩ := medianCell_ok hs a first last hc h2
      rw [e]; simp only [Option.bind_eq_bind, Option.bind_some]
      obtain ⟨a1, cut, e1, p1, p2, p3, p4, p5⟩ := partitionRef_ok hs pv (last - first + 1) a first last pv q p p x (by omega) m3 m1 m3
        (irrefl' hs _) m5 m6 m7 h2 h1
      rw [e1]; simp only [Option.bind_some]
      have hcut : first < cut ∧ cut < last := ⟨p4 m4, by omega⟩
      by_cases hcn : cut ≤ nth
      · rw [if_pos hcn]
        obtain ⟨a2, f, l, e2, q1, q2, q3, q4, q5, q6⟩ := ih a1 cut last (by omega) (by rw [p1.length_eq]; exact h2) (by omega) hcn hn2
        exact ⟨a2, f, l, e2, q1.trans p1, by omega, q3, q4, q5, fun i hi => by rw [q6 i (by omega), p5 i hi]⟩
      · rw [if_neg hcn]
        obtain ⟨a2, f, l, e2, q1, q2, q3, q4, q5, q6⟩ := ih a1 first cut (by omega) (by rw [p1.length_eq]; omega) (by omega) hn1 (by omega)
        exact ⟨a2, f, l, e2, q1.trans p1, by omega, q3, q4, by omega, fun i hi => by rw [q6 i (by omega), p5 i hi]⟩
    · rw [if_neg hc]
      exact ⟨a, first, last, rfl, List.Perm.refl _, by omega, hn1, hn2, by omega, fun _ _ => rfl⟩

theorem insertionSort_range (hs : StrictWeak lt) (a : List α) (f l : ℕ) (hfl : f ≤ l) (hl : l ≤ a.length) :
    ∃ a', insertionSort lt a f l = some a' ∧ a'.Perm a ∧ (∀ i, i < f ∨ l ≤ i → a'[i]? = a[i]?) := by
  have ea : a = a.take f ++ (a.drop f).take (l - f) ++ a.drop l := by
    have h1 := List.take_append_drop f a
    have h2 := List.take_append_drop (l - f) (a.drop f)
    rw [List.drop_drop, show f + (l - f) = l by omega] at h2
    rw [List.append_assoc, h2, h1]
  have l1 : (a.take f).length = f := by simp; omega
  have l2 : ((a.drop f).take (l - f)).length = l - f := by simp; omega
  obtain ⟨r, e, _, hp⟩ := insertionSort_ok hs (a.take f) ((a.drop f).take (l - f)) (a.drop l)
  rw [← ea, l1, l2, show f + (l - f) = l by omega] at e
  have lr : r.length = l - f := by rw [hp.length_eq, l2]
  refine ⟨_, e, ?_, ?_⟩
  · conv_rhs => rw [ea]
    exact (hp.append_left _).append_right _
  · intro i hi
    conv_rhs => rw [ea]
    rw [List.append_assoc, List.append_assoc]
    rcases hi with hi | hi
    · rw [List.getElem?_append_left (by omega), List.getElem?_append_left (by omega)]
    · rw [List.getElem?_append_right (by omega), List.getElem?_append_right (by omega), List.getElem?_append_right (by omega),
        List.getElem?_append_right (by omega), l1, lr, l2]

/-- **C67 (part).**  For every strict weak order, every range and every position in it, `nth_element` returns, keeps all elements of the
range, and changes nothing outside; a range of up to three elements is sorted.  What is missing from the property — that the element at
`nth` is the one sorting would put there, with nothing greater before and nothing smaller after it — is false: `c67_nth_element_defect`. -/
theorem c67_nth_element_partial (hs : StrictWeak lt) (pre mid post : List α) (nth : ℕ) (h1 : pre.length ≤ nth)
    (h2 : nth ≤ pre.length + mid.length) :
    ∃ r, nthElement lt lt (mid.length + 1) (pre ++ mid ++ post) pre.length nth (pre.length + mid.length) = some (pre ++ r ++ post) ∧
      r.Perm mid ∧ (mid.length ≤ 3 → nth < pre.length + mid.length → Sorted lt r) := by
  unfold nthElement
  by_cases hn : nth = pre.length + mid.length
  · rw [if_pos hn]
    exact ⟨mid, rfl, List.Perm.refl _, by omega⟩
  · rw [if_neg hn]
    by_cases h3 : mid.length ≤ 3
    · unfold nthLoop
      rw [if_neg (by omega)]
      simp only [Option.bind_eq_bind, Option.bind_some]
      obtain ⟨r, e, g1, g2⟩ := insertionSort_ok hs pre mid post
      exact ⟨r, e, g2, fun _ _ => g1⟩
    · obtain ⟨a1, f, l, e1, p1, p2, p3, p4, p5, p6⟩ := nthLoop_ok hs nth (mid.length + 1) (pre ++ mid ++ post) pre.length
        (pre.length + mid.length) (by omega) (by simp) (by omega) h1 (by omega)
      have hlen := p1.length_eq
      simp only [List.length_append] at hlen
      obtain ⟨a2, e2, q1, q2⟩ := insertionSort_range hs a1 f l (by omega) (by omega)
      obtain ⟨m, hm, hmp⟩ := range_perm pre mid post a2 (q1.trans p1) (fun i hi => by rw [q2 i (by omega), p6 i hi])
      refine ⟨m, ?_, hmp, fun h => absurd h h3⟩
      rw [e1]; simp only [Option.bind_eq_bind, Option.bind_some]
      rw [e2, hm]

/-- **C67 fails.**  Asked for the element of rank 2 of `0 4 3 1 2 5`, `nth_element` leaves 3 there, with the smaller 2 behind it: the
swaps of the partition overwrite the cell the pivot reference points to. -/
theorem c67_nth_element_defect :
    nthElement (fun a b => Nat.blt a b) (fun a b => Nat.blt a b) 7 [0, 4, 3, 1, 2, 5] 0 2 6 = some [0, 1, 3, 4, 2, 5] := by
  decide +kernel

theorem nthLoop_stuck {lt0 : α → α → Bool} {nth first last : ℕ} {a : List α} {pv : ℕ} (h : last - first > 3)
    (hm : medianCell lt0 a first (first + (last - first) / 2) (last - 1) = some pv)
    (hp : partitionRef lt pv (last - first + 1) a first last = some (a, first)) (hn : first ≤ nth) :
    ∀ fuel, nthLoop lt lt0 nth fuel a first last = none
  | 0 => rfl
  | fuel + 1 => by
    unfold nthLoop
    rw [if_pos h, hm]; simp only [Option.bind_eq_bind, Option.bind_some]
    rw [hp]; simp only [Option.bind_some]
    rw [if_pos hn]
    exact nthLoop_stuck h hm hp hn fuel

/-- **C67 fails with a comparison object.**  The overload with `comp` still chooses the pivot with `<`: asked for the second
element of `4 9 1 7` by distance from 4 — a strict weak order — it never returns, whatever number of rounds is allowed. -/
theorem c67_nth_element_comp_diverges :
    StrictWeak (fun a b : ℤ => decide ((a - 4).natAbs < (b - 4).natAbs)) ∧
    ∀ fuel, nthElement (fun a b : ℤ => decide ((a - 4).natAbs < (b - 4).natAbs)) (fun a b => decide (a < b)) fuel [4, 9, 1, 7] 0 1 4 = none := by
  refine ⟨⟨fun a b h => ?_, fun a b c h => ?_⟩, fun fuel => ?_⟩
  · simp only [decide_eq_true_eq, decide_eq_false_iff_not] at *; omega
  · simp only [decide_eq_true_eq] at *; omega
  · unfold nthElement
    rw [if_neg (by decide)]
    rw [nthLoop_stuck (pv := 0) (by decide) (by decide +kernel) (by decide +kernel) (by decide)]
    rfl

example : nthElement (fun a b => Nat.blt a b) (fun a b => Nat.blt a b) 9 [9, 7, 3, 8, 5, 1, 6, 2, 0] 1 3 8 ≠ none := by decide +kernel

end Verif.Sort
