import Verif.RbMap6

/-!
# Histories of the client
-/

namespace Verif.Rb

open Verif.MapSpec

variable {K V : Type}

/-- an allocator returns an unused address that is not null as long as the memory is finite -/
def GoodAlloc {α : Type} (alloc : Heap α → Ptr) : Prop := ∀ h, Bounded h → alloc h ≠ 0 ∧ h (alloc h) = none

theorem insertList_ok {lt : K → K → Bool} (w : StrictWeak lt) {h0 : Heap (K × V)} {hd : Ptr} {alloc : Heap (K × V) → Ptr} (ga : GoodAlloc alloc) : ∀ (l : List (K × V)) {h : Heap (K × V)} {t : Tree0} {L : List (Elem K V)},
    Inv lt h0 hd h t L → ∃ h' t' L', insertList lt alloc l h t = some (h', t') ∧ Inv lt h0 hd h' t' L' ∧ vals L' = l.foldl (fun M v => MapSpec.insert lt v M) (vals L) := by
  intro l
  induction l with
  | nil => intro h t L i; exact ⟨h, t, L, rfl, i, rfl⟩
  | cons v l ih =>
    intro h t L i
    obtain ⟨a0, a1⟩ := ga h i.bounded
    obtain ⟨p, h1, t1, e1, i1⟩ := i.ins w a1 (emplaceHint_ok w i.map a1 a0 v (hint := t.hd) (by simp [owned]))
    obtain ⟨h2, t2, L2, e2, i2, v2⟩ := ih i1
    refine ⟨h2, t2, L2, ?_, i2, ?_⟩
    · rw [insertList, e1]; exact e2
    · rw [v2, List.foldl_cons, vals_insert lt (alloc h)]

theorem same_irr {lt : K → K → Bool} (w : StrictWeak lt) (k : K) : same lt k k = true := by simp [same, lt_irr w]

theorem map_id_not_same {lt : K → K → Bool} {k : K} {v : V} {X : List (Elem K V)} (h : ∀ x ∈ X, same lt x.2.1 k = false) : (vals X).map (fun x => if MapSpec.same lt x.1 k then (x.1, v) else x) = vals X := by
  rw [vals, List.map_map]
  apply List.map_congr_left
  intro x hx
  have := h x hx
  simp only [Function.comp]
  rw [if_neg]
  rw [show MapSpec.same lt x.2.1 k = same lt x.2.1 k from rfl, this]; simp

theorem find_mid {lt : K → K → Bool} {k : K} {X Y : List (Elem K V)} {x : Elem K V} (h : ∀ x ∈ X, same lt x.2.1 k = false) (hx : same lt x.2.1 k = true) :
    (vals (X ++ x :: Y)).find? (fun x => MapSpec.same lt x.1 k) = some x.2 := by
  rw [vals_append, vals_cons, List.find?_append]
  have : (vals X).find? (fun x => MapSpec.same lt x.1 k) = none := by
    rw [List.find?_eq_none]
    intro y hy
    obtain ⟨z, hz, rfl⟩ := List.mem_map.1 hy
    have := h z hz
    rw [show MapSpec.same lt z.2.1 k = same lt z.2.1 k from rfl, this]; simp
  rw [this, List.find?_cons, show MapSpec.same lt x.2.1 k = same lt x.2.1 k from rfl, hx]; rfl

/-- every operation does what the specification says -/
theorem runOp_ok {lt : K → K → Bool} (w : StrictWeak lt) {h0 : Heap (K × V)} {hd : Ptr} {alloc : Heap (K × V) → Ptr} (ga : GoodAlloc alloc) (d : V) (op : Op K V) {h : Heap (K × V)} {t : Tree0} {L : List (Elem K V)}
    (i : Inv lt h0 hd h t L) : ∃ h' t' L', runOp lt d alloc op h t = some ((spec lt d op (vals L)).1, h', t') ∧ Inv lt h0 hd h' t' L' ∧ vals L' = (spec lt d op (vals L)).2 := by
  obtain ⟨a0, a1⟩ := ga h i.bounded
  have hM := i.map
  have hT := hM.1
  cases op with
  | insert v =>
    obtain ⟨res, hr, hu⟩ := insertUnique_ok w hM a1 a0 v
    obtain ⟨p, h', t', e1, i1⟩ := i.ins w a1 hr
    refine ⟨h', t', _, ?_, i1, (vals_insert lt (alloc h) v L).symm⟩
    rw [runOp, hu, e1]
    simp only [Option.map_some, Option.bind_eq_bind, Option.bind_some, spec, vals_has]
    rfl
  | insertAt j v =>
    have hmem : firstP t.hd (L.drop j) ∈ owned t.hd L := by
      cases hj : L.drop j with
      | nil => simp [owned, firstP]
      | cons x R =>
        have hx : x ∈ L := List.mem_of_mem_drop (i := j) (by rw [hj]; simp)
        rw [owned, addrs, List.mem_cons, List.mem_map]
        exact Or.inr ⟨x, hx, rfl⟩
    obtain ⟨p, h', t', e1, i1⟩ := i.ins w a1 (emplaceHint_ok w hM a1 a0 v hmem)
    refine ⟨h', t', _, ?_, i1, (vals_insert lt (alloc h) v L).symm⟩
    rw [runOp, hT.nth j]
    simp only [Option.bind_eq_bind, Option.bind_some, e1]
    rfl
  | insertList l =>
    obtain ⟨h', t', L', e1, i1, v1⟩ := insertList_ok w ga l i
    refine ⟨h', t', L', ?_, i1, v1⟩
    rw [runOp, e1]
    rfl
  | assign k v =>
    have hix := index_ok w hM a1 a0 k d
    cases hh : has lt k L with
    | true =>
      obtain ⟨x, hx, hL, e1⟩ := hix.1 hh
      obtain ⟨a, k0, u⟩ := x
      have hM' := hM
      rw [hL] at hM'
      obtain ⟨h', e2, m2, o2⟩ := hM'.setSecond (v := v)
      rw [← hL] at o2
      refine ⟨h', t, _, ?_, i.next m2 i.hdr ?_ ?_ ?_, ?_⟩
      · rw [runOp, e1]
        simp only [Option.bind_eq_bind, Option.bind_some, e2]
        rfl
      · intro q hq
        left
        rw [hL]
        rw [owned, addrs_set (v' := (k0, u))] at hq
        exact hq
      · intro q hq hn
        rw [hL, owned, addrs_set (v' := (k0, v))] at hq
        exact absurd hq hn
      · intro q hq _
        exact o2 q (by rw [i.hdr]; exact hq)
      · rw [spec, MapSpec.assign, MapSpec.insert, vals_has, hh, if_pos rfl]
        conv_rhs => rw [hL]
        rw [vals_append, vals_cons, vals_append, vals_cons, List.map_append, List.map_cons, map_id_not_same below_not_same, map_id_not_same above_not_same]
        rw [if_pos (show MapSpec.same lt k0 k = true from hx)]
    | false =>
      obtain ⟨h1, e1, m1, o1⟩ := hix.2 hh
      have hsp : added lt (alloc h, (k, d)) L = below lt k L ++ (alloc h, (k, d)) :: above lt k L := rfl
      rw [hsp] at m1
      obtain ⟨h', e2, m2, o2⟩ := m1.setSecond (v := v)
      have hmem := added_mem w hM.2 (e := (alloc h, (k, d))) hh hd
      have hmem' : ∀ q, q ∈ owned hd (below lt k L ++ (alloc h, (k, v)) :: above lt k L) ↔ q = alloc h ∨ q ∈ owned hd L := by
        intro q
        rw [← hmem q, hsp, owned, owned, addrs_set]
      refine ⟨h', _, _, ?_, i.next m2 i.hdr ?_ ?_ ?_, ?_⟩
      · rw [runOp, e1]
        simp only [Option.bind_eq_bind, Option.bind_some, e2]
        rfl
      · intro q hq
        rcases (hmem' q).1 hq with rfl | h
        · exact Or.inr a1
        · exact Or.inl h
      · intro q hq hn
        exact absurd ((hmem' q).2 (Or.inr hq)) hn
      · intro q hq hn
        rw [o2 q, o1 q]
        · intro e
          rw [i.hdr] at e
          rcases List.mem_cons.1 e with e | e
          · exact hn ((hmem' q).2 (Or.inl e))
          · exact hq e
        · intro e
          rw [show t.hd = hd from i.hdr, owned, addrs_set (v' := (k, v))] at e
          exact hn e
      · rw [spec, MapSpec.assign, MapSpec.insert, vals_has, hh, if_neg (by simp), vals_filter, vals_filter]
        rw [show L.filter (fun x => lt x.2.1 k) = below lt k L from rfl, show L.filter (fun x => lt k x.2.1) = above lt k L from rfl]
        rw [vals_append, vals_cons, List.map_append, List.map_cons, map_id_not_same below_not_same, map_id_not_same above_not_same]
        rw [if_pos (show MapSpec.same lt k k = true from same_irr w k)]
  | get k =>
    have hix := index_ok w hM a1 a0 k d
    cases hh : has lt k L with
    | true =>
      obtain ⟨x, hx, hL, e1⟩ := hix.1 hh
      refine ⟨h, t, L, ?_, i, ?_⟩
      · rw [runOp, e1]
        simp only [Option.bind_eq_bind, Option.bind_some, hT.deref (a := x.1) (v := x.2) (by rw [hL]; simp)]
        rw [spec, MapSpec.insert, vals_has, hh, if_pos rfl]
        have := find_mid (Y := above lt k L) (below_not_same (L := L)) hx
        rw [← hL] at this
        simp only [this]
        rfl
      · rw [spec, MapSpec.insert, vals_has, hh, if_pos rfl]
    | false =>
      obtain ⟨h1, e1, m1, o1⟩ := hix.2 hh
      have hmem := added_mem w hM.2 (e := (alloc h, (k, d))) hh hd
      have hv : MapSpec.insert lt (k, d) (vals L) = vals (added lt (alloc h, (k, d)) L) := by rw [vals_insert lt (alloc h), addNew, hh, if_neg (by simp)]
      refine ⟨h1, _, _, ?_, i.next m1 i.hdr ?_ ?_ ?_, by rw [spec, hv]⟩
      · rw [runOp, e1]
        simp only [Option.bind_eq_bind, Option.bind_some, m1.1.deref (a := alloc h) (v := (k, d)) (by simp [added])]
        rw [spec, hv, added]
        rw [find_mid (x := (alloc h, (k, d))) below_not_same (same_irr w k)]
        rfl
      · intro q hq
        rcases (hmem q).1 hq with rfl | h
        · exact Or.inr a1
        · exact Or.inl h
      · intro q hq hn
        exact absurd ((hmem q).2 (Or.inr hq)) hn
      · intro q hq hn
        rw [o1 q]
        intro e
        rw [i.hdr] at e
        rcases List.mem_cons.1 e with e | e
        · exact hn ((hmem q).2 (Or.inl e))
        · exact hq e
  | erase k =>
    obtain ⟨h', e1, m1, o1, f1⟩ := eraseUnique_ok w hM k
    refine ⟨h', _, _, ?_, i.next m1 i.hdr ?_ ?_ ?_, ?_⟩
    · rw [runOp, e1]
      simp only [Option.bind_eq_bind, Option.bind_some, spec, vals_has]
      rfl
    · intro q hq
      left
      rw [owned, addrs, List.mem_cons, List.mem_map] at hq ⊢
      rcases hq with hq | ⟨x, hx, rfl⟩
      · exact Or.inl hq
      · exact Or.inr ⟨x, (List.mem_filter.1 hx).1, rfl⟩
    · intro q hq hn
      rw [owned, addrs, List.mem_cons, List.mem_map] at hq hn
      push Not at hn
      rcases hq with hq | ⟨x, hx, rfl⟩
      · exact absurd hq hn.1
      · refine f1 x hx ?_
        by_contra hne
        exact hn.2 x (List.mem_filter.2 ⟨hx, by simpa using hne⟩) rfl
    · intro q hq _
      exact o1 q (by rw [i.hdr]; exact hq)
    · rw [spec, vals_filter]; rfl
  | eraseAt j =>
    rw [runOp, hT.nth j]
    simp only [Option.bind_eq_bind, Option.bind_some]
    by_cases hj : j < L.length
    · have hd' : L.drop j = L[j] :: L.drop (j + 1) := List.drop_eq_getElem_cons hj
      have hL : L = L.take j ++ (L[j].1, L[j].2) :: L.drop (j + 1) := by
        conv_lhs => rw [← List.take_append_drop j L, hd']
      have hm : (L[j].1, L[j].2) ∈ L := List.getElem_mem hj
      have hT' := hT
      rw [hL] at hT'
      obtain ⟨h', e1, m1, o1, f1⟩ := hT'.erase
      rw [← hL] at o1
      rw [hd', show firstP t.hd (L[j] :: L.drop (j + 1)) = L[j].1 from rfl, if_neg (hT.hd_ne hm), e1]
      have hsub : (L.take j ++ L.drop (j + 1)).Sublist L := by
        conv_rhs => rw [hL]
        exact List.Sublist.append (List.Sublist.refl _) (List.sublist_cons_self _ _)
      refine ⟨h', _, L.take j ++ L.drop (j + 1), ?_, i.next ⟨m1, hM.2.sublist hsub⟩ i.hdr ?_ ?_ ?_, ?_⟩
      · simp only [Option.bind_some, spec, show (vals L).length = L.length from by simp [vals], hj, decide_true]
        rfl
      · intro q hq
        left
        rw [owned, addrs, List.mem_cons, List.mem_map] at hq ⊢
        rcases hq with hq | ⟨x, hx, rfl⟩
        · exact Or.inl hq
        · exact Or.inr ⟨x, hsub.subset hx, rfl⟩
      · intro q hq hn
        rw [hL] at hq
        simp only [owned, addrs, List.map_append, List.map_cons, List.mem_cons, List.mem_append, not_or] at hq hn
        rcases hq with hq | hq | hq | hq
        · exact absurd hq hn.1
        · exact absurd hq hn.2.1
        · rw [hq]; exact f1
        · exact absurd hq hn.2.2
      · intro q hq _
        exact o1 q (by rw [i.hdr]; exact hq)
      · rw [spec, vals, vals, List.map_append, List.map_take, List.map_drop]
    · have hd' : L.drop j = [] := List.drop_eq_nil_iff.2 (by omega)
      rw [hd', show firstP t.hd ([] : List (Elem K V)) = t.hd from rfl, if_pos rfl]
      refine ⟨h, t, L, ?_, i, ?_⟩
      · simp only [spec, show (vals L).length = L.length from by simp [vals], hj, decide_false]
        rfl
      · rw [spec, List.take_of_length_le (by simp [vals]; omega), List.drop_eq_nil_iff.2 (by simp [vals]; omega), List.append_nil]
  | eraseRange j k =>
    rw [runOp]
    by_cases hjk : j ≤ k
    · rw [if_pos hjk, hT.nth j, hT.nth k]
      simp only [Option.bind_eq_bind, Option.bind_some]
      have hd' : L.drop j = (L.drop j).take (k - j) ++ L.drop k := by
        conv_lhs => rw [← List.take_append_drop (k - j) (L.drop j)]
        rw [List.drop_drop, show j + (k - j) = k from by omega]
      have hL : L = L.take j ++ ((L.drop j).take (k - j) ++ L.drop k) := by
        conv_lhs => rw [← List.take_append_drop j L, hd']
      obtain ⟨Y, hY⟩ : ∃ Y, (L.drop j).take (k - j) = Y := ⟨_, rfl⟩
      rw [hY] at hL hd'
      have hT' := hT
      rw [hL] at hT'
      obtain ⟨h', e1, m1, o1, f1⟩ := eraseRange_ok hT'
      rw [← hL] at o1
      rw [hd', e1]
      have hsub : (L.take j ++ L.drop k).Sublist L := by
        conv_rhs => rw [hL]
        exact List.Sublist.append (List.Sublist.refl _) (List.sublist_append_right _ _)
      refine ⟨h', _, L.take j ++ L.drop k, ?_, i.next ⟨m1, hM.2.sublist hsub⟩ i.hdr ?_ ?_ ?_, ?_⟩
      · rfl
      · intro q hq
        left
        rw [owned, addrs, List.mem_cons, List.mem_map] at hq ⊢
        rcases hq with hq | ⟨x, hx, rfl⟩
        · exact Or.inl hq
        · exact Or.inr ⟨x, hsub.subset hx, rfl⟩
      · intro q hq hn
        rw [hL] at hq
        simp only [owned, addrs, List.map_append, List.mem_cons, List.mem_append, not_or] at hq hn
        rcases hq with hq | hq | hq | hq
        · exact absurd hq hn.1
        · exact absurd hq hn.2.1
        · exact f1 q hq
        · exact absurd hq hn.2.2
      · intro q hq _
        exact o1 q (by rw [i.hdr]; exact hq)
      · simp only [spec, if_pos hjk]
        rw [vals, vals, List.map_append, List.map_take, List.map_drop]
    · rw [if_neg hjk]
      exact ⟨h, t, L, rfl, i, by simp only [spec, if_neg hjk]⟩
  | clear =>
    obtain ⟨h', e1, m1, o1, f1⟩ := clear_ok hT
    refine ⟨h', _, [], ?_, i.next ⟨m1, List.Pairwise.nil⟩ i.hdr ?_ ?_ ?_, rfl⟩
    · rw [runOp, e1]; rfl
    · intro q hq; left; simp [owned, addrs] at hq ⊢; exact Or.inl hq
    · intro q hq hn
      simp only [owned, addrs, List.map_nil, List.mem_singleton] at hn
      rcases List.mem_cons.1 hq with hq | hq
      · exact absurd hq hn
      · exact f1 q hq
    · intro q hq _
      exact o1 q (by rw [i.hdr]; exact hq)
  | find k =>
    refine ⟨h, t, L, ?_, i, rfl⟩
    rw [runOp, hM.find w k, ← firstP_eq_headOr]
    simp only [Option.bind_eq_bind, Option.bind_some, hT.look (Y := L.filter (fun x => same lt x.2.1 k)) (fun y hy => (List.mem_filter.1 hy).1)]
    rw [spec, vals_find]; rfl
  | lower k =>
    refine ⟨h, t, L, ?_, i, rfl⟩
    rw [runOp, hM.lower w k, ← firstP_eq_headOr]
    simp only [Option.bind_eq_bind, Option.bind_some, hT.look (Y := notBelow lt k L) (fun y hy => (List.mem_filter.1 hy).1)]
    rw [spec, vals_find]; rfl
  | upper k =>
    refine ⟨h, t, L, ?_, i, rfl⟩
    rw [runOp, hM.upper w k, ← firstP_eq_headOr]
    simp only [Option.bind_eq_bind, Option.bind_some, hT.look (Y := above lt k L) (fun y hy => (List.mem_filter.1 hy).1)]
    rw [spec, vals_find]; rfl
  | «at» k =>
    refine ⟨h, t, L, ?_, i, rfl⟩
    rw [runOp, at_ok w hM k]
    simp only [Option.bind_eq_bind, Option.bind_some]
    rw [spec, vals_find, Option.map_map]; rfl
  | count k =>
    refine ⟨h, t, L, ?_, i, rfl⟩
    rw [runOp, hM.find w k]
    simp only [Option.bind_eq_bind, Option.bind_some, spec, vals_has]
    rcases notBelow_cases w k hM.2 with ⟨x, hx, h1, h2, h3⟩ | ⟨hh, h1, h2, h3⟩
    · have hm : (x.1, x.2) ∈ L := by rw [h3]; simp
      rw [h2, show headOr t.hd [x] = x.1 from rfl, if_pos (hT.hd_ne hm), has_mem hm hx]; rfl
    · rw [h2, show headOr t.hd ([] : List (Elem K V)) = t.hd from rfl, if_neg (by simp), hh]; rfl
  | size =>
    refine ⟨h, t, L, ?_, i, rfl⟩
    rw [runOp, spec, hT.count]; simp [vals]
  | items =>
    refine ⟨h, t, L, ?_, i, rfl⟩
    rw [runOp, hT.begin]
    simp only [Option.bind_eq_bind, Option.bind_some, hT.walk L [] (t.count + 1) rfl (by rw [hT.count]; omega)]
    rfl
  | itemsBack =>
    refine ⟨h, t, L, ?_, i, rfl⟩
    have := hT.back L.length L [] (t.count + 1) rfl (by simp) (by rw [hT.count]; omega)
    rw [show firstP t.hd ([] : List (Elem K V)) = t.hd from rfl] at this
    rw [runOp, this]
    rfl

theorem runAll_ok {lt : K → K → Bool} (w : StrictWeak lt) {h0 : Heap (K × V)} {hd : Ptr} {alloc : Nat → Heap (K × V) → Ptr} (ga : ∀ n, GoodAlloc (alloc n)) (d : V) : ∀ (ops : List (Op K V)) (n : Nat) {h : Heap (K × V)} {t : Tree0}
    {L : List (Elem K V)}, Inv lt h0 hd h t L → ∃ h' t' L', runAll lt d alloc n ops h t = some ((specAll lt d ops (vals L)).1, h', t') ∧ Inv lt h0 hd h' t' L' ∧ vals L' = (specAll lt d ops (vals L)).2 := by
  intro ops
  induction ops with
  | nil => intro n h t L i; exact ⟨h, t, L, rfl, i, rfl⟩
  | cons o ops ih =>
    intro n h t L i
    obtain ⟨h1, t1, L1, e1, i1, v1⟩ := runOp_ok w (ga n) d o i
    obtain ⟨h2, t2, L2, e2, i2, v2⟩ := ih (n + 1) i1
    refine ⟨h2, t2, L2, ?_, i2, ?_⟩
    · rw [runAll, e1]
      simp only [Option.bind_eq_bind, Option.bind_some, e2, specAll, v1]
      rfl
    · rw [v2, v1]; rfl

/-- an empty map -/
theorem Inv.init {lt : K → K → Bool} {h0 : Heap (K × V)} {hd : Ptr} (hb : Bounded h0) (hn : h0 0 = none) (hd0 : hd ≠ 0) (hf : h0 hd = none) : Inv lt h0 hd (init h0 hd).1 (init h0 hd).2 [] := by
  refine ⟨⟨Tr.empty (put_same _ _ _) ?_, List.Pairwise.nil⟩, rfl, fun q hq => ?_, fun q hq => ?_, hb⟩
  · exact (put_ne _ _ (Ne.symm hd0)).trans hn
  · exact put_ne _ _ (fun e : q = hd => hq (by rw [e]; simp [owned]))
  · simp only [owned, addrs, List.map_nil, List.mem_singleton] at hq
    rw [hq]; exact hf

end Verif.Rb
