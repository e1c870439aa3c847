import Verif.RbMulti3
import Verif.RbCopy
import Verif.Props.Map

/-!
# C101 — `multimap` and `multiset` are ordered collections with repeated keys
-/

namespace Verif.Rb

open Verif.MultiSpec
open Verif.MapSpec (Out)

variable {K V : Type}

/-- **C101** Every history of operations on a multimap (or multiset) that starts empty runs without undefined behaviour and gives exactly the observations of the specification; memory that was in use before is not
touched. -/
theorem c101_history {lt : K → K → Bool} (w : StrictWeak lt) {alloc : Nat → Heap (K × V) → Ptr} (ga : ∀ n, GoodAlloc (alloc n)) {h0 : Heap (K × V)} (hb : Bounded h0) (hn : h0 0 = none) {hd : Ptr} (hd0 : hd ≠ 0)
    (hf : h0 hd = none) (ops : List (Op K V)) :
    ∃ h t, runAllM lt alloc 0 ops (init h0 hd).1 (init h0 hd).2 = some ((specAll lt ops []).1, h, t) ∧ ∀ q, h0 q ≠ none → h q = h0 q := by
  obtain ⟨h, t, L, e1, i1, _⟩ := runAllM_ok w ga ops 0 (MInv.init (lt := lt) hb hn hd0 hf)
  exact ⟨h, t, e1, fun q hq => i1.off q (fun e => hq (i1.fresh q e))⟩

/-- **C101** After any history the destructor (`clear`) returns all the nodes; only the header is never freed. -/
theorem c101_destructor {lt : K → K → Bool} (w : StrictWeak lt) {alloc : Nat → Heap (K × V) → Ptr} (ga : ∀ n, GoodAlloc (alloc n)) {h0 : Heap (K × V)} (hb : Bounded h0) (hn : h0 0 = none) {hd : Ptr} (hd0 : hd ≠ 0)
    (hf : h0 hd = none) (ops : List (Op K V)) {outs : List (Out K V)} {h : Heap (K × V)} {t : Tree0} (hr : runAllM lt alloc 0 ops (init h0 hd).1 (init h0 hd).2 = some (outs, h, t)) :
    ∃ h' t', clear h t = some (h', t') ∧ (∀ q, q ≠ hd → h' q = h0 q) ∧ h' hd ≠ none := by
  obtain ⟨h1, t1, L, e1, i1, _⟩ := runAllM_ok w ga ops 0 (MInv.init (lt := lt) hb hn hd0 hf)
  rw [show vals ([] : List (Elem K V)) = [] from rfl] at e1
  rw [hr, Option.some.injEq, Prod.mk.injEq, Prod.mk.injEq] at e1
  obtain ⟨_, rfl, rfl⟩ := e1
  obtain ⟨h', e2, m2, o2, f2⟩ := clear_ok i1.map.1
  refine ⟨h', _, e2, fun q hq => ?_, ?_⟩
  · by_cases hL : q ∈ addrs L
    · rw [f2 q hL, i1.fresh q (List.mem_cons_of_mem _ hL)]
    · have hno : q ∉ owned hd L := by rw [owned, List.mem_cons, not_or]; exact ⟨hq, hL⟩
      rw [o2 q (by rw [i1.hdr]; exact hno), i1.off q hno]
  · have hm : t.hd ∈ owned t.hd ([] : List (Elem K V)) := by simp [owned]
    have := m2.alloc t.hd hm
    rwa [i1.hdr] at this

/-- **C101** The copy constructor makes an independent multimap. -/
theorem c101_copy {lt : K → K → Bool} (w : StrictWeak lt) {alloc : Nat → Heap (K × V) → Ptr} (ga : ∀ n, GoodAlloc (alloc n)) {h0 : Heap (K × V)} (hb : Bounded h0) (hn : h0 0 = none) {hd : Ptr} (hd0 : hd ≠ 0)
    (hf : h0 hd = none) (ops ops' : List (Op K V)) {outs : List (Out K V)} {h : Heap (K × V)} {t : Tree0} (hr : runAllM lt alloc 0 ops (init h0 hd).1 (init h0 hd).2 = some (outs, h, t)) :
    ∃ h1 t1 h2 t2, copy (alloc ops.length) h t = some (h1, t1) ∧
      runAllM lt alloc (ops.length + 1) ops' h1 t1 = some ((specAll lt ops' (specAll lt ops []).2).1, h2, t2) ∧
      runAllM lt alloc 0 [.items, .itemsBack, .size] h2 t = some ([.items (specAll lt ops []).2, .items (specAll lt ops []).2.reverse, .num (specAll lt ops []).2.length], h2, t) := by
  obtain ⟨ha, ta, L, e1, i1, v1⟩ := runAllM_ok w ga ops 0 (MInv.init (lt := lt) hb hn hd0 hf)
  rw [show vals ([] : List (Elem K V)) = [] from rfl] at e1 v1
  rw [hr, Option.some.injEq, Prod.mk.injEq, Prod.mk.injEq] at e1
  obtain ⟨_, rfl, rfl⟩ := e1
  obtain ⟨h1, t1, L1, c1, T1, cv, cf, co⟩ := copy_ctor_ok (ga ops.length) i1.map.1 i1.bounded
  have hwk : Wk lt L1 := by
    have h2 := i1.map.2
    rw [Wk, ← List.pairwise_map (f := fun x : Elem K V => x.2) (R := fun a b => lt b.1 a.1 = false)] at h2 ⊢
    rw [cv]; exact h2
  have i2 : MInv lt h t1.hd h1 t1 L1 := ⟨⟨T1, hwk⟩, rfl, co, cf, i1.bounded⟩
  obtain ⟨h2, t2, L2, e2, i3, _⟩ := runAllM_ok w ga ops' (ops.length + 1) i2
  have hv1 : vals L1 = (specAll lt ops []).2 := by rw [← v1]; exact cv
  rw [hv1] at e2
  have hT2 : Tr h2 t L := by
    refine i1.map.1.congr (fun q hq => i3.off q (fun e => i1.map.1.alloc q hq (i3.fresh q e))) ?_
    rw [i3.map.1.null, i1.map.1.null]
  refine ⟨h1, t1, h2, t2, c1, e2, ?_⟩
  have q1 : runOpM lt (alloc 0) .items h2 t = some (.items (vals L), h2, t) := by
    rw [runOpM, hT2.begin]
    simp only [Option.bind_eq_bind, Option.bind_some, hT2.walk L [] (t.count + 1) rfl (by rw [hT2.count]; omega)]
    rfl
  have q2 : runOpM lt (alloc (0 + 1)) .itemsBack h2 t = some (.items (vals L).reverse, h2, t) := by
    have := hT2.back L.length L [] (t.count + 1) rfl (by simp) (by rw [hT2.count]; omega)
    rw [show firstP t.hd ([] : List (Elem K V)) = t.hd from rfl] at this
    rw [runOpM, this]
    rfl
  have q3 : runOpM lt (alloc (0 + 1 + 1)) .size h2 t = some (.num (vals L).length, h2, t) := by
    rw [runOpM, hT2.count]; simp [vals]
  rw [← v1]
  simp only [runAllM, q1, q2, q3, Option.bind_eq_bind, Option.bind_some, Option.pure_def]

/-- **C101** An insertion moves no element: the iterators (addresses) of the others stay, and the new one stands behind all elements that are not greater — in particular behind those with the same key. -/
theorem c101_insert {lt : K → K → Bool} (w : StrictWeak lt) {h : Heap (K × V)} {t : Tree0} {L : List (Elem K V)} (hM : MultiAt lt h t L) {np : Ptr} (hf : h np = none) (np0 : np ≠ 0) (v : K × V) :
    ∃ A B h' t', L = A ++ B ∧ (∀ x ∈ A, lt v.1 x.2.1 = false) ∧ (∀ x ∈ B, lt v.1 x.2.1 = true) ∧ insertMulti lt h t np v = some (np, h', t') ∧ MultiAt lt h' t' (A ++ (np, v) :: B) := by
  obtain ⟨h', e1, e2, _⟩ := insertMulti_ok w hM hf np0 v
  refine ⟨_, _, h', _, wk_above w v.1 hM.2, fun x hx => ?_, fun x hx => ?_, e1, e2⟩
  · simpa [notAbove] using (List.mem_filter.1 hx).2
  · simpa [above] using (List.mem_filter.1 hx).2

/-- **C101** With a hint at which the new key fits between the neighbours, the new element stands directly before the hint. -/
theorem c101_hint {lt : K → K → Bool} (w : StrictWeak lt) {h : Heap (K × V)} {t : Tree0} {X Y : List (Elem K V)} {b a : Elem K V} (hM : MultiAt lt h t (X ++ b :: a :: Y)) {np : Ptr} (hf : h np = none) (np0 : np ≠ 0) (v : K × V)
    (h1 : lt v.1 b.2.1 = false) (h2 : lt a.2.1 v.1 = false) :
    ∃ h' t', emplaceHintMulti lt h t a.1 np v = some (np, h', t') ∧ MultiAt lt h' t' (X ++ b :: (np, v) :: a :: Y) := by
  have e : X ++ b :: a :: Y = (X ++ [b]) ++ a :: Y := by simp
  have e' : X ++ b :: (np, v) :: a :: Y = (X ++ [b]) ++ (np, v) :: a :: Y := by simp
  rw [e] at hM
  obtain ⟨h', e1, e2, _⟩ := emplaceHintMulti_ok w hM hf np0 v (X ++ [b]).length
  rw [hintIdx_fit h1 h2, List.take_left' rfl, List.drop_left' rfl] at e2
  rw [hintIdx_fit h1 h2, List.take_left' rfl, List.drop_left' rfl] at *
  rw [e']
  exact ⟨h', _, e1, e2⟩

theorem spec_sorted {lt : K → K → Bool} (w : StrictWeak lt) (op : Op K V) {M : List (K × V)} (hM : M.Pairwise (fun a b => lt b.1 a.1 = false)) : ((spec lt op M).2).Pairwise (fun a b => lt b.1 a.1 = false) := by
  have ins : ∀ (v : K × V) {M : List (K × V)}, M.Pairwise (fun a b => lt b.1 a.1 = false) → (MultiSpec.insert lt v M).Pairwise (fun a b => lt b.1 a.1 = false) := by
    intro v M hM
    rw [MultiSpec.insert, List.pairwise_append, List.pairwise_cons]
    refine ⟨hM.sublist List.filter_sublist, ⟨fun x hx => w.asymm _ _ (by simpa using (List.mem_filter.1 hx).2), hM.sublist List.filter_sublist⟩, fun x hx y hy => ?_⟩
    have hx' : lt v.1 x.1 = false := by simpa using (List.mem_filter.1 hx).2
    rcases List.mem_cons.1 hy with rfl | hy
    · exact hx'
    · have hy' : lt v.1 y.1 = true := by simpa using (List.mem_filter.1 hy).2
      by_contra hc
      rw [lt_trans' w hy' (by simpa using hc)] at hx'
      exact absurd hx' (by simp)
  cases op with
  | insert v => exact ins v hM
  | insertAt i v =>
    show List.Pairwise _ (M.take _ ++ v :: M.drop _)
    obtain ⟨n, hn⟩ : ∃ n, hintPos lt i v.1 M = n := ⟨_, rfl⟩
    rw [hn]
    have hsp : M = M.take n ++ M.drop n := (List.take_append_drop n M).symm
    have hM' := hM
    rw [hsp, List.pairwise_append] at hM'
    have key : (∀ x ∈ M.take n, lt v.1 x.1 = false) ∧ ∀ x ∈ M.drop n, lt x.1 v.1 = false := by
      rw [hintPos] at hn
      by_cases hc : 0 < i ∧ (M[i - 1]?).any (fun b => !lt v.1 b.1) ∧ (M[i]?).any (fun a => !lt a.1 v.1)
      · rw [if_pos hc] at hn
        subst hn
        obtain ⟨c1, c2, c3⟩ := hc
        have hi : i < M.length := by
          by_contra h
          rw [List.getElem?_eq_none (by omega)] at c3
          simp at c3
        rw [List.getElem?_eq_getElem hi] at c3
        rw [List.getElem?_eq_getElem (by omega)] at c2
        simp only [Option.any_some, Bool.not_eq_true'] at c2 c3
        rw [List.pairwise_iff_getElem] at hM
        refine ⟨fun x hx => ?_, fun x hx => ?_⟩
        · obtain ⟨j, hj, rfl⟩ := List.mem_iff_getElem.1 hx
          rw [List.length_take] at hj
          rw [List.getElem_take]
          by_cases hji : j = i - 1
          · subst hji; exact c2
          · exact le_trans'' w (hM j (i - 1) (by omega) (by omega) (by omega)) c2
        · obtain ⟨j, hj, rfl⟩ := List.mem_iff_getElem.1 hx
          rw [List.length_drop] at hj
          rw [List.getElem_drop]
          by_cases hji : j = 0
          · subst hji; exact c3
          · exact le_trans'' w c3 (hM i (i + j) (by omega) (by omega) (by omega))
      · rw [if_neg hc] at hn
        have hsp' := split_filter (R := fun a b : K × V => lt b.1 a.1 = false) (p := fun x => !lt v.1 x.1) (fun a b h1 h2 => by simp only [Bool.not_eq_true'] at h2 ⊢; exact le_trans'' w h1 h2) hM
        have t1 : M.take n = M.filter (fun x => !lt v.1 x.1) := by
          conv_lhs => arg 2; rw [hsp']
          rw [List.take_left' hn]
        have t2 : M.drop n = M.filter (fun x => !(!lt v.1 x.1)) := by
          conv_lhs => arg 2; rw [hsp']
          rw [List.drop_left' hn]
        rw [t1, t2]
        refine ⟨fun x hx => by simpa using (List.mem_filter.1 hx).2, fun x hx => w.asymm _ _ (by simpa using (List.mem_filter.1 hx).2)⟩
    rw [List.pairwise_append, List.pairwise_cons]
    refine ⟨hM'.1, ⟨key.2, hM'.2.1⟩, fun x hx y hy => ?_⟩
    rcases List.mem_cons.1 hy with rfl | hy
    · exact key.1 x hx
    · exact hM'.2.2 x hx y hy
  | insertList l =>
    show List.Pairwise _ (l.foldl _ M)
    induction l generalizing M with
    | nil => exact hM
    | cons v l ih => exact ih (ins v hM)
  | erase k => exact hM.sublist List.filter_sublist
  | eraseAt i => exact hM.sublist (by
      conv_rhs => rw [← List.take_append_drop i M]
      exact List.Sublist.append (List.Sublist.refl _) (List.drop_sublist_drop_left M (by omega)))
  | eraseRange i j =>
    show List.Pairwise _ (if i ≤ j then _ else _)
    split
    · rename_i hij
      exact hM.sublist (by
        conv_rhs => rw [← List.take_append_drop i M]
        exact List.Sublist.append (List.Sublist.refl _) (List.drop_sublist_drop_left M hij))
    · exact hM
  | clear => exact List.Pairwise.nil
  | find k => exact hM
  | lower k => exact hM
  | upper k => exact hM
  | equalRange k => exact hM
  | count k => exact hM
  | size => exact hM
  | items => exact hM
  | itemsBack => exact hM

/-- **C101** The content is in ascending key order after every history. -/
theorem c101_sorted {lt : K → K → Bool} (w : StrictWeak lt) (ops : List (Op K V)) : ((specAll lt ops []).2).Pairwise (fun a b => lt b.1 a.1 = false) := by
  suffices h : ∀ (ops : List (Op K V)) (M : List (K × V)), M.Pairwise (fun a b => lt b.1 a.1 = false) → ((specAll lt ops M).2).Pairwise (fun a b => lt b.1 a.1 = false) from h ops [] List.Pairwise.nil
  intro ops
  induction ops with
  | nil => intro M h; exact h
  | cons o ops ih => intro M h; exact ih _ (spec_sorted w o h)

/-- a history on a real multimap -/
example : ((runAllM natLt (fun _ => firstFree) 0
    [.insert (5, 1), .insert (2, 2), .insert (5, 3), .insert (5, 4), .insertAt 2 (5, 9), .insertAt 0 (2, 8), .insertList [(1, 10), (5, 11), (7, 70)], .items, .count 5, .equalRange 5, .lower 5, .upper 5, .find 5, .erase 2, .eraseAt 1, .size,
      .itemsBack, .eraseRange 1 3, .items] (init noHeap 1).1 (init noHeap 1).2).map (fun x => x.1)) =
    some [.num 0, .num 0, .num 2, .num 3, .num 2, .num 1, .none, .items [(1, 10), (2, 2), (2, 8), (5, 1), (5, 9), (5, 3), (5, 4), (5, 11), (7, 70)], .num 5, .items [(5, 1), (5, 9), (5, 3), (5, 4), (5, 11)], .num 3, .num 8,
      .item (some (5, 1)), .num 2, .flag true, .num 6, .items [(7, 70), (5, 11), (5, 4), (5, 3), (5, 9), (1, 10)], .none, .items [(1, 10), (5, 4), (5, 11), (7, 70)]] := by decide +kernel

/-- **C101 (defect)** With the hint `begin()` and a key equal to the first one the new element is not put at the hint (as the standard asks) but behind all equal elements. -/
theorem c101_begin_hint : ((runAllM natLt (fun _ => firstFree) 0 [.insertList [(1, 1), (1, 2)], .insertAt 0 (1, 3), .items] (init noHeap 1).1 (init noHeap 1).2).map (fun x => x.1)) =
    some [.none, .num 2, .items [(1, 1), (1, 2), (1, 3)]] := by decide +kernel

/-- the hypotheses of the history theorems can be met -/
example : ∃ alloc : Nat → Heap (Nat × Nat) → Ptr, ∀ n, GoodAlloc (alloc n) := by
  obtain ⟨a, ha⟩ := goodAlloc_exists (α := Nat × Nat)
  exact ⟨fun _ => a, fun _ => ha⟩

end Verif.Rb
