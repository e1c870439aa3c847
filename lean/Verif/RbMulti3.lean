import Verif.RbMulti2

/-!
# Histories of the client of a `multimap`
-/

namespace Verif.Rb

open Verif.MultiSpec
open Verif.MapSpec (Out)

variable {K V : Type}

theorem vals_length (L : List (Elem K V)) : (vals L).length = L.length := by simp [vals]

theorem vals_insertM (lt : K → K → Bool) (np : Ptr) (v : K × V) (L : List (Elem K V)) : MultiSpec.insert lt v (vals L) = vals (notAbove lt v.1 L ++ (np, v) :: above lt v.1 L) := by
  rw [MultiSpec.insert, vals_append, vals_cons, vals_filter, vals_filter]; rfl

theorem insertListMulti_ok {lt : K → K → Bool} (w : StrictWeak lt) {h0 : Heap (K × V)} {hd : Ptr} {alloc : Heap (K × V) → Ptr} (ga : GoodAlloc alloc) : ∀ (l : List (K × V)) {h : Heap (K × V)} {t : Tree0} {L : List (Elem K V)},
    MInv lt h0 hd h t L → ∃ h' t' L', insertListMulti lt alloc l h t = some (h', t') ∧ MInv lt h0 hd h' t' L' ∧ vals L' = l.foldl (fun M v => MultiSpec.insert lt v M) (vals L) := by
  intro l
  induction l with
  | nil => intro h t L i; exact ⟨h, t, L, rfl, i, rfl⟩
  | cons v l ih =>
    intro h t L i
    obtain ⟨a0, a1⟩ := ga h i.bounded
    have he := emplaceHintMulti_ok w i.map a1 a0 v L.length
    have hsp := wk_above w v.1 i.map.2
    rw [hintIdx_out (Or.inr (le_refl _)), List.drop_length, show firstP t.hd ([] : List (Elem K V)) = t.hd from rfl] at he
    have h1 : L.take (notAbove lt v.1 L).length = notAbove lt v.1 L := by
      conv_lhs => arg 2; rw [hsp]
      rw [List.take_left']
      rfl
    have h2 : L.drop (notAbove lt v.1 L).length = above lt v.1 L := by
      conv_lhs => arg 2; rw [hsp]
      rw [List.drop_left']
      rfl
    rw [h1, h2] at he
    have i' := i
    rw [hsp] at i'
    obtain ⟨h1, t1, e1, i1, _⟩ := i'.ins a1 he
    obtain ⟨h2, t2, L2, e2, i2, v2⟩ := ih i1
    refine ⟨h2, t2, L2, ?_, i2, ?_⟩
    · rw [insertListMulti, e1]; exact e2
    · rw [v2, List.foldl_cons, vals_insertM lt (alloc h)]

theorem equalRangeMulti_ok {lt : K → K → Bool} (w : StrictWeak lt) {h : Heap (K × V)} {t : Tree0} {L : List (Elem K V)} (hM : MultiAt lt h t L) (k : K) :
    equalRangeMulti lt h t k = some (firstP t.hd (equalTo lt k L ++ above lt k L), firstP t.hd (above lt k L)) := by
  rw [equalRangeMulti, hM.lower w k, hM.upper w k, wk_notBelow w k hM.2]; rfl

theorem equal_short {lt : K → K → Bool} (k : K) (L : List (Elem K V)) : (equalTo lt k L).length < L.length + 1 := Nat.lt_succ_of_le (List.length_filter_le _ _)

/-- every operation does what the specification says -/
theorem runOpM_ok {lt : K → K → Bool} (w : StrictWeak lt) {h0 : Heap (K × V)} {hd : Ptr} {alloc : Heap (K × V) → Ptr} (ga : GoodAlloc alloc) (op : Op K V) {h : Heap (K × V)} {t : Tree0} {L : List (Elem K V)}
    (i : MInv lt h0 hd h t L) : ∃ h' t' L', runOpM lt alloc op h t = some ((spec lt op (vals L)).1, h', t') ∧ MInv lt h0 hd h' t' L' ∧ vals L' = (spec lt op (vals L)).2 := by
  obtain ⟨a0, a1⟩ := ga h i.bounded
  have hM := i.map
  have hT := hM.1
  cases op with
  | insert v =>
    have i' := i
    rw [wk_above w v.1 hM.2] at i'
    obtain ⟨h', t', e1, i1, p1⟩ := i'.ins a1 (insertMulti_ok w hM a1 a0 v)
    refine ⟨h', t', _, ?_, i1, (vals_insertM lt (alloc h) v L).symm⟩
    rw [runOpM, e1]
    simp only [Option.bind_eq_bind, Option.bind_some, p1, spec, vals_filter, vals_length]
    rfl
  | insertAt j v =>
    have i' := i
    rw [← List.take_append_drop (hintIdx lt j v.1 L) L] at i'
    obtain ⟨h', t', e1, i1, p1⟩ := i'.ins a1 (emplaceHintMulti_ok w hM a1 a0 v j)
    refine ⟨h', t', _, ?_, i1, ?_⟩
    · rw [runOpM, hT.nth j]
      simp only [Option.bind_eq_bind, Option.bind_some, e1, p1, spec, List.length_take]
      have : hintIdx lt j v.1 L ≤ L.length := by
        rw [hintIdx, hintPos]
        split
        · rename_i hc
          by_contra hn
          have : (vals L)[j]? = none := by rw [List.getElem?_eq_none]; rw [vals_length]; omega
          rw [this] at hc
          simp at hc
        · refine le_trans (List.length_filter_le _ _) (by rw [vals_length])
      rw [Nat.min_eq_left this]; rfl
    · rw [vals_append, vals_cons, spec, vals, vals, List.map_take, List.map_drop]; rfl
  | insertList l =>
    obtain ⟨h', t', L', e1, i1, v1⟩ := insertListMulti_ok w ga l i
    refine ⟨h', t', L', ?_, i1, v1⟩
    rw [runOpM, e1]
    rfl
  | erase k =>
    have hsp := wk_split w k hM.2
    have hT' := hT
    rw [hsp] at hT'
    have i' := i
    rw [hsp] at i'
    obtain ⟨h', e1, m1, o1, f1⟩ := eraseRange_ok hT'
    refine ⟨h', _, _, ?_, i'.del m1 rfl o1 f1, ?_⟩
    · rw [runOpM, eraseMulti, equalRangeMulti_ok w hM k]
      simp only [Option.bind_eq_bind, Option.bind_some]
      rw [Tr.distance _ _ _ (t.count + 1) hT' (by rw [hT.count]; exact equal_short k L), e1]
      simp only [Option.bind_some, spec, vals_filter, vals_length]
      rfl
    · rw [← wk_without w k hM.2]
      show _ = (vals L).filter _
      rw [vals_filter]; rfl
  | eraseAt j =>
    rw [runOpM, hT.nth j]
    simp only [Option.bind_eq_bind, Option.bind_some]
    by_cases hj : j < L.length
    · have hd' : L.drop j = L[j] :: L.drop (j + 1) := List.drop_eq_getElem_cons hj
      have hL : L = L.take j ++ ([(L[j].1, L[j].2)] ++ L.drop (j + 1)) := by
        conv_lhs => rw [← List.take_append_drop j L, hd']
        rfl
      have hm : (L[j].1, L[j].2) ∈ L := List.getElem_mem hj
      have hT' := hT
      rw [hL] at hT'
      obtain ⟨h', e1, m1, o1, f1⟩ := Tr.erase (p := L[j].1) (v := L[j].2) hT'
      rw [hd', show firstP t.hd (L[j] :: L.drop (j + 1)) = L[j].1 from rfl, if_neg (hT.hd_ne hm), e1]
      have i' := i
      rw [hL] at i'
      refine ⟨h', _, L.take j ++ L.drop (j + 1), ?_, i'.del m1 rfl o1 (by intro q hq; simp [addrs] at hq; rw [hq]; exact f1), ?_⟩
      · simp only [Option.bind_some, spec, vals_length, hj, decide_true]
        rfl
      · rw [spec, vals, vals, List.map_append, List.map_take, List.map_drop]
    · have hd' : L.drop j = [] := List.drop_eq_nil_iff.2 (by omega)
      rw [hd', show firstP t.hd ([] : List (Elem K V)) = t.hd from rfl, if_pos rfl]
      refine ⟨h, t, L, ?_, i, ?_⟩
      · simp only [spec, vals_length, hj, decide_false]
        rfl
      · rw [spec, List.take_of_length_le (by simp [vals]; omega), List.drop_eq_nil_iff.2 (by simp [vals]; omega), List.append_nil]
  | eraseRange j k =>
    rw [runOpM]
    by_cases hjk : j ≤ k
    · rw [if_pos hjk, hT.nth j, hT.nth k]
      simp only [Option.bind_eq_bind, Option.bind_some]
      have hd' : L.drop j = (L.drop j).take (k - j) ++ L.drop k := by
        conv_lhs => rw [← List.take_append_drop (k - j) (L.drop j)]
        rw [List.drop_drop, show j + (k - j) = k from by omega]
      have hL : L = L.take j ++ ((L.drop j).take (k - j) ++ L.drop k) := by
        conv_lhs => rw [← List.take_append_drop j L, hd']
      obtain ⟨Y, hY⟩ : ∃ Y, (L.drop j).take (k - j) = Y := ⟨_, rfl⟩
      rw [hY] at hL hd'
      have hT' := hT
      rw [hL] at hT'
      have i' := i
      rw [hL] at i'
      obtain ⟨h', e1, m1, o1, f1⟩ := eraseRange_ok hT'
      rw [hd', e1]
      refine ⟨h', _, L.take j ++ L.drop k, rfl, i'.del m1 rfl o1 f1, ?_⟩
      simp only [spec, if_pos hjk]
      rw [vals, vals, List.map_append, List.map_take, List.map_drop]
    · rw [if_neg hjk]
      exact ⟨h, t, L, rfl, i, by simp only [spec, if_neg hjk]⟩
  | clear =>
    obtain ⟨h', e1, m1, o1, f1⟩ := clear_ok hT
    have i' : MInv lt h0 hd h t ([] ++ (L ++ [])) := by simpa using i
    refine ⟨h', _, [], ?_, i'.del (Z := []) m1 rfl (by simpa using o1) f1, rfl⟩
    rw [runOpM, e1]; rfl
  | find k =>
    refine ⟨h, t, L, ?_, i, rfl⟩
    rw [runOpM, hM.find w k]
    simp only [Option.bind_eq_bind, Option.bind_some, hT.look (Y := equalTo lt k L) (fun y hy => (List.mem_filter.1 hy).1)]
    rw [spec, vals_find]; rfl
  | lower k =>
    refine ⟨h, t, L, ?_, i, rfl⟩
    have hT' := hT
    rw [wk_below w k hM.2] at hT'
    rw [runOpM, hM.lower w k]
    simp only [Option.bind_eq_bind, Option.bind_some, hT'.position, spec, vals_filter, vals_length]
    rfl
  | upper k =>
    refine ⟨h, t, L, ?_, i, rfl⟩
    have hT' := hT
    rw [wk_above w k hM.2] at hT'
    rw [runOpM, hM.upper w k]
    simp only [Option.bind_eq_bind, Option.bind_some, hT'.position, spec, vals_filter, vals_length]
    rfl
  | equalRange k =>
    refine ⟨h, t, L, ?_, i, rfl⟩
    have hT' := hT
    rw [wk_split w k hM.2] at hT'
    rw [runOpM, equalRangeMulti_ok w hM k]
    simp only [Option.bind_eq_bind, Option.bind_some]
    rw [Tr.walkTo _ _ _ (t.count + 1) hT' (by rw [hT.count]; exact equal_short k L)]
    simp only [Option.bind_some, spec, vals_filter]
    rfl
  | count k =>
    refine ⟨h, t, L, ?_, i, rfl⟩
    have hT' := hT
    rw [wk_split w k hM.2] at hT'
    rw [runOpM, countMulti, equalRangeMulti_ok w hM k]
    simp only [Option.bind_eq_bind, Option.bind_some]
    rw [Tr.distance _ _ _ (t.count + 1) hT' (by rw [hT.count]; exact equal_short k L)]
    simp only [Option.bind_some, spec, vals_filter, vals_length]
    rfl
  | size =>
    refine ⟨h, t, L, ?_, i, rfl⟩
    rw [runOpM, spec, hT.count]; simp [vals]
  | items =>
    refine ⟨h, t, L, ?_, i, rfl⟩
    rw [runOpM, hT.begin]
    simp only [Option.bind_eq_bind, Option.bind_some, hT.walk L [] (t.count + 1) rfl (by rw [hT.count]; omega)]
    rfl
  | itemsBack =>
    refine ⟨h, t, L, ?_, i, rfl⟩
    have := hT.back L.length L [] (t.count + 1) rfl (by simp) (by rw [hT.count]; omega)
    rw [show firstP t.hd ([] : List (Elem K V)) = t.hd from rfl] at this
    rw [runOpM, this]
    rfl

theorem runAllM_ok {lt : K → K → Bool} (w : StrictWeak lt) {h0 : Heap (K × V)} {hd : Ptr} {alloc : Nat → Heap (K × V) → Ptr} (ga : ∀ n, GoodAlloc (alloc n)) : ∀ (ops : List (Op K V)) (n : Nat) {h : Heap (K × V)} {t : Tree0}
    {L : List (Elem K V)}, MInv lt h0 hd h t L → ∃ h' t' L', runAllM lt alloc n ops h t = some ((specAll lt ops (vals L)).1, h', t') ∧ MInv lt h0 hd h' t' L' ∧ vals L' = (specAll lt ops (vals L)).2 := by
  intro ops
  induction ops with
  | nil => intro n h t L i; exact ⟨h, t, L, rfl, i, rfl⟩
  | cons o ops ih =>
    intro n h t L i
    obtain ⟨h1, t1, L1, e1, i1, v1⟩ := runOpM_ok w (ga n) o i
    obtain ⟨h2, t2, L2, e2, i2, v2⟩ := ih (n + 1) i1
    refine ⟨h2, t2, L2, ?_, i2, ?_⟩
    · rw [runAllM, e1]
      simp only [Option.bind_eq_bind, Option.bind_some, e2, specAll, v1]
      rfl
    · rw [v2, v1]; rfl

end Verif.Rb
