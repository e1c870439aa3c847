import Verif.RbCopy
import Verif.RbDepth

/-!
# C45 — `map` is an ordered map
-/

namespace Verif.Rb

open Verif.MapSpec

variable {K V : Type}

/-- **C45** Every history of operations on a map that starts empty — insertions (plain, with any iterator as hint, of a list), assignments and reads through `[]`, erasures by key, iterator and range, `clear`,
lookups, forward and backward iteration — runs without undefined behaviour and gives exactly the observations of the specification; memory that was in use before the map was made is not touched. -/
theorem c45_history {lt : K → K → Bool} (w : StrictWeak lt) (d : V) {alloc : Nat → Heap (K × V) → Ptr} (ga : ∀ n, GoodAlloc (alloc n)) {h0 : Heap (K × V)} (hb : Bounded h0) (hn : h0 0 = none) {hd : Ptr} (hd0 : hd ≠ 0)
    (hf : h0 hd = none) (ops : List (Op K V)) :
    ∃ h t, runAll lt d alloc 0 ops (init h0 hd).1 (init h0 hd).2 = some ((specAll lt d ops []).1, h, t) ∧ ∀ q, h0 q ≠ none → h q = h0 q := by
  obtain ⟨h, t, L, e1, i1, _⟩ := runAll_ok w ga d ops 0 (Inv.init (lt := lt) hb hn hd0 hf)
  exact ⟨h, t, e1, fun q hq => i1.off q (fun e => hq (i1.fresh q e))⟩

/-- **C45** After any history the destructor (`clear`) returns all the nodes: the memory is as it was before the map was made, except for the header, which is never freed. -/
theorem c45_destructor {lt : K → K → Bool} (w : StrictWeak lt) (d : V) {alloc : Nat → Heap (K × V) → Ptr} (ga : ∀ n, GoodAlloc (alloc n)) {h0 : Heap (K × V)} (hb : Bounded h0) (hn : h0 0 = none) {hd : Ptr} (hd0 : hd ≠ 0)
    (hf : h0 hd = none) (ops : List (Op K V)) {outs : List (Out K V)} {h : Heap (K × V)} {t : Tree0} (hr : runAll lt d alloc 0 ops (init h0 hd).1 (init h0 hd).2 = some (outs, h, t)) :
    ∃ h' t', clear h t = some (h', t') ∧ (∀ q, q ≠ hd → h' q = h0 q) ∧ h' hd ≠ none := by
  obtain ⟨h1, t1, L, e1, i1, _⟩ := runAll_ok w ga d ops 0 (Inv.init (lt := lt) hb hn hd0 hf)
  rw [show vals ([] : List (Elem K V)) = [] from rfl] at e1
  rw [hr, Option.some.injEq, Prod.mk.injEq, Prod.mk.injEq] at e1
  obtain ⟨_, rfl, rfl⟩ := e1
  obtain ⟨h', e2, m2, o2, f2⟩ := clear_ok i1.map.1
  refine ⟨h', _, e2, fun q hq => ?_, ?_⟩
  · by_cases hL : q ∈ addrs L
    · rw [f2 q hL, i1.fresh q (List.mem_cons_of_mem _ hL)]
    · have hno : q ∉ owned hd L := by rw [owned, List.mem_cons, not_or]; exact ⟨hq, hL⟩
      rw [o2 q (by rw [i1.hdr]; exact hno), i1.off q hno]
  · have hm : t.hd ∈ owned t.hd ([] : List (Elem K V)) := by simp [owned]
    have := m2.alloc t.hd hm
    rwa [i1.hdr] at this

/-- **C45** The copy constructor makes an independent map: after any history on the original, a copy, and any further history on the copy, the copy gives the observations of the specification started with
the original's content, and the original still gives its own content, forwards and backwards. -/
theorem c45_copy {lt : K → K → Bool} (w : StrictWeak lt) (d : V) {alloc : Nat → Heap (K × V) → Ptr} (ga : ∀ n, GoodAlloc (alloc n)) {h0 : Heap (K × V)} (hb : Bounded h0) (hn : h0 0 = none) {hd : Ptr} (hd0 : hd ≠ 0)
    (hf : h0 hd = none) (ops ops' : List (Op K V)) {outs : List (Out K V)} {h : Heap (K × V)} {t : Tree0} (hr : runAll lt d alloc 0 ops (init h0 hd).1 (init h0 hd).2 = some (outs, h, t)) :
    ∃ h1 t1 h2 t2, copy (alloc ops.length) h t = some (h1, t1) ∧
      runAll lt d alloc (ops.length + 1) ops' h1 t1 = some ((specAll lt d ops' (specAll lt d ops []).2).1, h2, t2) ∧
      runAll lt d alloc 0 [.items, .itemsBack, .size] h2 t = some ([.items (specAll lt d ops []).2, .items (specAll lt d ops []).2.reverse, .num (specAll lt d ops []).2.length], h2, t) := by
  obtain ⟨ha, ta, L, e1, i1, v1⟩ := runAll_ok w ga d ops 0 (Inv.init (lt := lt) hb hn hd0 hf)
  rw [show vals ([] : List (Elem K V)) = [] from rfl] at e1 v1
  rw [hr, Option.some.injEq, Prod.mk.injEq, Prod.mk.injEq] at e1
  obtain ⟨_, rfl, rfl⟩ := e1
  obtain ⟨h1, t1, L1, c1, T1, cv, cf, co⟩ := copy_ctor_ok (ga ops.length) i1.map.1 i1.bounded
  have hasc : Asc lt L1 := by
    have h2 := i1.map.2
    rw [Asc, ← List.pairwise_map (f := fun x : Elem K V => x.2) (R := fun a b => lt a.1 b.1 = true)] at h2 ⊢
    rw [cv]; exact h2
  have i2 : Inv lt h t1.hd h1 t1 L1 := ⟨⟨T1, hasc⟩, rfl, co, cf, i1.bounded⟩
  obtain ⟨h2, t2, L2, e2, i3, _⟩ := runAll_ok w ga d ops' (ops.length + 1) i2
  have hv1 : vals L1 = (specAll lt d ops []).2 := by rw [← v1]; exact cv
  rw [hv1] at e2
  have hT2 : Tr h2 t L := by
    refine i1.map.1.congr (fun q hq => i3.off q (fun e => i1.map.1.alloc q hq (i3.fresh q e))) ?_
    rw [i3.map.1.null, i1.map.1.null]
  refine ⟨h1, t1, h2, t2, c1, e2, ?_⟩
  have q1 : runOp lt d (alloc 0) .items h2 t = some (.items (vals L), h2, t) := by
    rw [runOp, hT2.begin]
    simp only [Option.bind_eq_bind, Option.bind_some, hT2.walk L [] (t.count + 1) rfl (by rw [hT2.count]; omega)]
    rfl
  have q2 : runOp lt d (alloc (0 + 1)) .itemsBack h2 t = some (.items (vals L).reverse, h2, t) := by
    have := hT2.back L.length L [] (t.count + 1) rfl (by simp) (by rw [hT2.count]; omega)
    rw [show firstP t.hd ([] : List (Elem K V)) = t.hd from rfl] at this
    rw [runOp, this]
    rfl
  have q3 : runOp lt d (alloc (0 + 1 + 1)) .size h2 t = some (.num (vals L).length, h2, t) := by
    rw [runOp, hT2.count]; simp [vals]
  rw [← v1]
  simp only [runAll, q1, q2, q3, Option.bind_eq_bind, Option.bind_some, Option.pure_def]

/-- **C45** What an insertion does to the elements and their addresses: a new key gives a node at the new address and no other element moves; an existing key leaves everything as it is.  The iterator that
comes back points to the new element; for an existing key it points to the element with that key *or to the one after it* (see `c45_duplicate`). -/
theorem c45_insert {lt : K → K → Bool} (w : StrictWeak lt) {h : Heap (K × V)} {t : Tree0} {L : List (Elem K V)} (hM : MapAt lt h t L) {np : Ptr} (hf : h np = none) (np0 : np ≠ 0) (v : K × V) :
    (has lt v.1 L = false → ∃ h' t', insertUnique lt h t np v = some ((np, true), h', t') ∧ MapAt lt h' t' (added lt (np, v) L)) ∧
    (has lt v.1 L = true → ∃ X x Y p, L = X ++ x :: Y ∧ same lt x.2.1 v.1 = true ∧ (p = x.1 ∨ Y ≠ [] ∧ p = headOr t.hd Y) ∧ insertUnique lt h t np v = some ((p, false), h, t)) := by
  obtain ⟨res, hr, hu⟩ := insertUnique_ok w hM hf np0 v
  constructor
  · intro e
    obtain ⟨h'', b1, b2, _⟩ := hr.1 e
    exact ⟨h'', _, by rw [hu, b1, e]; rfl, b2⟩
  · intro e
    obtain ⟨X, x, Y, hL, hs, h1⟩ := hr.2 e
    rcases h1 with h1 | ⟨hY, h1⟩
    · exact ⟨X, x, Y, x.1, hL, hs, Or.inl rfl, by rw [hu, h1, e]; rfl⟩
    · exact ⟨X, x, Y, _, hL, hs, Or.inr ⟨hY, rfl⟩, by rw [hu, h1, e]; rfl⟩

/-- **C45** The same with a hint: every iterator of the map, right or wrong, and `end()` may be used. -/
theorem c45_hint {lt : K → K → Bool} (w : StrictWeak lt) {h : Heap (K × V)} {t : Tree0} {L : List (Elem K V)} (hM : MapAt lt h t L) {np : Ptr} (hf : h np = none) (np0 : np ≠ 0) (v : K × V) {hint : Ptr}
    (hh : hint = t.hd ∨ ∃ x ∈ L, hint = x.1) :
    (has lt v.1 L = false → ∃ h' t', emplaceHint lt h t hint np v = some (np, h', t') ∧ MapAt lt h' t' (added lt (np, v) L)) ∧
    (has lt v.1 L = true → ∃ X x Y p, L = X ++ x :: Y ∧ same lt x.2.1 v.1 = true ∧ (p = x.1 ∨ Y ≠ [] ∧ p = headOr t.hd Y) ∧ emplaceHint lt h t hint np v = some (p, h, t)) := by
  have hmem : hint ∈ owned t.hd L := by
    rw [owned, addrs, List.mem_cons, List.mem_map]
    rcases hh with hh | ⟨x, hx, hh⟩
    · exact Or.inl hh
    · exact Or.inr ⟨x, hx, hh.symm⟩
  have he := emplaceHint_ok w hM hf np0 v hmem
  constructor
  · intro e
    obtain ⟨h', a1, a2, _⟩ := he.1 e
    exact ⟨h', _, a1, a2⟩
  · intro e
    obtain ⟨X, x, Y, hL, hs, h1⟩ := he.2 e
    rcases h1 with h1 | ⟨hY, h1⟩
    · exact ⟨X, x, Y, x.1, hL, hs, Or.inl rfl, h1⟩
    · exact ⟨X, x, Y, _, hL, hs, Or.inr ⟨hY, rfl⟩, h1⟩

/-- **C45** Erasing an element frees its node, moves no other element and returns the iterator of the next one. -/
theorem c45_erase {lt : K → K → Bool} {h : Heap (K × V)} {t : Tree0} {X Y : List (Elem K V)} {x : Elem K V} (hM : MapAt lt h t (X ++ x :: Y)) :
    ∃ h' t', erase h t x.1 = some (headOr t.hd Y, h', t') ∧ MapAt lt h' t' (X ++ Y) ∧ h' x.1 = none := by
  obtain ⟨h', e1, e2, _, e4⟩ := Tr.erase (p := x.1) (v := x.2) hM.1
  rw [firstP_eq_headOr] at e1
  exact ⟨h', _, e1, ⟨e2, hM.2.sublist (List.Sublist.append (List.Sublist.refl _) (List.sublist_cons_self _ _))⟩, e4⟩

/-- **C45** `++` goes to the next element, `--` to the previous one, `--end()` to the last. -/
theorem c45_iterators {lt : K → K → Bool} {h : Heap (K × V)} {t : Tree0} {X Y : List (Elem K V)} {x y : Elem K V} (hM : MapAt lt h t (X ++ x :: y :: Y)) :
    inc (t.count + 1) h x.1 = some y.1 ∧ dec (t.count + 1) h y.1 = some x.1 ∧ (Y = [] → inc (t.count + 1) h y.1 = some t.hd ∧ dec (t.count + 1) h t.hd = some y.1) := by
  have e : X ++ x :: y :: Y = (X ++ [x]) ++ y :: Y := by simp
  refine ⟨Tr.inc (v := x.2) hM.1 (by omega), ?_, fun hY => ⟨?_, ?_⟩⟩
  · have hT := hM.1
    rw [e] at hT
    rw [Tr.dec (a := y.1) (v := y.2) hT (by simp) (by omega), lastP_append]
  · have hT := hM.1
    rw [e, hY] at hT
    exact Tr.inc (v := y.2) hT (by omega)
  · rw [hM.1.dec_end (by simp), e, hY, lastP_append]

/-- **C45** The descents of `find`, `lower_bound`, `upper_bound` and the insertion take at most 2·log2(n+1)+1 steps: with that many steps of fuel the loops give the same result. -/
theorem c45_logarithmic {lt : K → K → Bool} {h : Heap (K × V)} {t : Tree0} {L : List (Elem K V)} (hM : MapAt lt h t L) (k : K) :
    ∃ r, root h t.hd = some r ∧ ∀ fuel, 2 * Nat.log 2 (L.length + 1) < fuel →
      lowerLoop lt h k fuel t.hd r = lowerBound lt h t k ∧ upperLoop lt h k fuel t.hd r = upperBound lt h t k ∧ posLoop lt h k fuel t.hd true r = posLoop lt h k (t.count + 1) t.hd true r := by
  obtain ⟨T, hh, hrep, h0, hi, hht⟩ := hM.1.height
  have hroot : root h t.hd = some T.ptr := by rw [root, hh]; rfl
  have hle : T.height ≤ L.length := by
    rw [← hi]
    clear hht hh hroot hi hM
    induction T generalizing t with
    | nil => simp [Shape.height]
    | node a c l v r ihl ihr =>
      simp only [Shape.items, addrs, List.map_append, List.map_cons, List.mem_append, List.mem_cons, not_or] at h0
      have h1 := ihl (t := ⟨a, 0⟩) hrep.2.1 h0.1
      have h2 := ihr (t := ⟨a, 0⟩) hrep.2.2 h0.2.2
      change max l.height r.height + 1 ≤ _
      simp only [Shape.items, List.length_append, List.length_cons]
      omega
  have hc := hM.1.count
  refine ⟨T.ptr, hroot, fun fuel hf => ⟨?_, ?_, ?_⟩⟩
  · rw [lowerBound, hroot]
    exact lowerLoop_height k T t.hd fuel (t.count + 1) hrep h0 (by omega) (by omega)
  · rw [upperBound, hroot]
    exact upperLoop_height k T t.hd fuel (t.count + 1) hrep h0 (by omega) (by omega)
  · exact posLoop_height k T t.hd true fuel (t.count + 1) hrep h0 (by omega) (by omega)

/-- **C45 (defect)** `at` throws only if all keys are smaller; with a larger key in the map it returns the value of another key. -/
theorem c45_at_defect {lt : K → K → Bool} (w : StrictWeak lt) {h : Heap (K × V)} {t : Tree0} {X Y : List (Elem K V)} {x : Elem K V} (hM : MapAt lt h t (X ++ x :: Y)) (k : K) (hX : ∀ y ∈ X, lt y.2.1 k = true) (hk : lt k x.2.1 = true) :
    has lt k (X ++ x :: Y) = false ∧ at' lt h t k = some (some x.2.2) := by
  have hnb : notBelow lt k (X ++ x :: Y) = x :: Y.filter (fun x => !lt x.2.1 k) := by
    rw [notBelow, List.filter_append, List.filter_eq_nil_iff.2 (fun y hy => by simp [hX y hy]), List.nil_append, List.filter_cons, w.asymm _ _ hk]; rfl
  refine ⟨?_, by rw [at_ok w hM k, hnb]; rfl⟩
  have hY : ∀ y ∈ Y, lt k y.2.1 = true := by
    intro y hy
    have hs := (List.pairwise_append.1 hM.2).2.1
    exact lt_trans' w hk (List.rel_of_pairwise_cons hs hy)
  exact (split_new w hX (B := x :: Y) (fun y hy => by
    rcases List.mem_cons.1 hy with rfl | hy
    · exact hk
    · exact hY y hy)).2.2

/-- **C45 (defect)** A moved-from map has a null header: it can be destroyed, but every use of it is undefined. -/
theorem c45_moved {lt : K → K → Bool} {h : Heap (K × V)} (hn : h 0 = none) (k : K) (v : V) (np : Ptr) (np0 : np ≠ 0) :
    clear h ⟨0, 0⟩ = some (h, ⟨0, 0⟩) ∧ begin' h ⟨0, 0⟩ = none ∧ find lt h ⟨0, 0⟩ k = none ∧ at' lt h ⟨0, 0⟩ k = none ∧ index lt h ⟨0, 0⟩ np k v = none ∧ insertUnique lt h ⟨0, 0⟩ np (k, v) = none := by
  have h1 : lowerBound lt h ⟨0, 0⟩ k = none := by rw [lowerBound, root, hn]; rfl
  refine ⟨rfl, by rw [begin', hn]; rfl, by rw [find, h1]; rfl, by rw [at', h1]; rfl, by rw [index, h1]; rfl, ?_⟩
  have : insertUniquePos lt (createNode h np (k, v)) ⟨0, 0⟩ k = none := by
    rw [insertUniquePos, root, createNode, put_ne _ _ (Ne.symm np0), hn]; rfl
  simp only [insertUnique, this]
  rfl

/-! ## the hypotheses can be met, and the defect of `insert` -/

/-- there are allocators -/
theorem goodAlloc_exists {α : Type} : ∃ alloc : Heap α → Ptr, GoodAlloc alloc := by
  classical
  have : ∀ h : Heap α, ∃ p : Ptr, Bounded h → p ≠ 0 ∧ h p = none := by
    intro h
    by_cases hb : Bounded h
    · obtain ⟨B, hB⟩ := hb
      exact ⟨max B 1, fun _ => ⟨Nat.pos_iff_ne_zero.1 (le_max_right B 1), hB _ (le_max_left _ _)⟩⟩
    · exact ⟨1, fun e => absurd e hb⟩
  choose f hf using this
  exact ⟨f, hf⟩

/-- the first free address below 100 (for the examples) -/
def firstFree (h : Heap (Nat × Nat)) : Ptr := ((List.range 100).find? (fun q => decide (q ≠ 0) && (h q).isNone)).getD 100

/-- nothing is allocated -/
def noHeap : Heap (Nat × Nat) := fun _ => none

def natLt (a b : Nat) : Bool := decide (a < b)

theorem natLt_weak : StrictWeak natLt where
  asymm := by intro a b h; simp [natLt] at *; omega
  trans_neg := by intro a b c h; simp [natLt] at *; omega

/-- a history on a real map -/
example : ((runAll natLt 0 (fun _ => firstFree) 0
    [.insert (5, 50), .insert (2, 20), .insertAt 0 (8, 80), .assign 2 21, .insert (2, 99), .insertList [(1, 10), (9, 90), (7, 70), (3, 30)], .erase 5, .eraseAt 1, .get 4, .find 7, .lower 6, .upper 8, .at 8, .count 5, .size, .items,
      .itemsBack, .eraseRange 1 3, .items] (init noHeap 1).1 (init noHeap 1).2).map (fun x => x.1)) =
    some [.flag true, .flag true, .none, .none, .flag false, .none, .num 1, .flag true, .value (some 0), .item (some (7, 70)), .item (some (7, 70)), .item (some (9, 90)), .value (some 80), .num 0, .num 6,
      .items [(1, 10), (3, 30), (4, 0), (7, 70), (8, 80), (9, 90)], .items [(9, 90), (8, 80), (7, 70), (4, 0), (3, 30), (1, 10)], .none, .items [(1, 10), (7, 70), (8, 80), (9, 90)]] := by decide +kernel

/-- **C45 (defect)** Inserting an existing key may return an iterator to another element: with the keys 2 and 3 in the map, `insert({2, 0})` returns `false` and the iterator of 3. -/
theorem c45_duplicate : ∃ h t p, (runAll natLt 0 (fun _ => firstFree) 0 [.insert (2, 20), .insert (3, 30)] (init noHeap 1).1 (init noHeap 1).2) = some ([.flag true, .flag true], h, t) ∧
    insertUnique natLt h t 50 (2, 0) = some ((p, false), h, t) ∧ deref h p = some (3, 30) := by
  have hrun : (runAll natLt 0 (fun _ => firstFree) 0 [.insert (2, 20), .insert (3, 30)] (init noHeap 1).1 (init noHeap 1).2).isSome = true := by decide +kernel
  have hout : (runAll natLt 0 (fun _ => firstFree) 0 [.insert (2, 20), .insert (3, 30)] (init noHeap 1).1 (init noHeap 1).2).map (fun x => x.1) = some [.flag true, .flag true] := by decide +kernel
  have hins : (runAll natLt 0 (fun _ => firstFree) 0 [.insert (2, 20), .insert (3, 30)] (init noHeap 1).1 (init noHeap 1).2).bind (fun x => (insertUnique natLt x.2.1 x.2.2 50 (2, 0)).bind (fun y =>
      (deref x.2.1 y.1.1).map (fun z => (y.1.2, z)))) = some (false, (3, 30)) := by decide +kernel
  have hpure : ∀ h : Heap (Nat × Nat), h 50 = none → ∀ t r, insertUnique natLt h t 50 (2, 0) = some r → r.1.2 = false → r.2 = (h, t) := by
    intro h hf t r hr hfl
    simp only [insertUnique, Option.bind_eq_bind] at hr
    cases hp : insertUniquePos natLt (createNode h 50 (2, 0)) t 2 with
    | none => rw [hp] at hr; exact absurd hr (by simp)
    | some q =>
      rw [hp] at hr
      simp only [Option.bind_some] at hr
      cases hq : q.2 with
      | true =>
        rw [hq, if_pos rfl] at hr
        cases hi : insertNodeAt (createNode h 50 (2, 0)) t q.1.1 50 q.1.2 with
        | none => rw [hi] at hr; exact absurd hr (by simp)
        | some z =>
          rw [hi] at hr
          simp only [Option.bind_some, Option.pure_def, Option.some.injEq] at hr
          rw [← hr] at hfl; exact absurd hfl (by simp)
      | false =>
        rw [hq, if_neg (by simp), free_create hf] at hr
        simp only [Option.bind_some, Option.pure_def, Option.some.injEq] at hr
        rw [← hr]
  obtain ⟨⟨outs, h, t⟩, hx⟩ := Option.isSome_iff_exists.1 hrun
  have h50 : (runAll natLt 0 (fun _ => firstFree) 0 [.insert (2, 20), .insert (3, 30)] (init noHeap 1).1 (init noHeap 1).2).map (fun x => (x.2.1 50).isNone) = some true := by decide +kernel
  rw [hx] at hout hins h50
  simp only [Option.map_some, Option.some.injEq, Option.bind_some, Option.isNone_iff_eq_none] at hout hins h50
  cases hi : insertUnique natLt h t 50 (2, 0) with
  | none => rw [hi] at hins; exact absurd hins (by simp)
  | some y =>
    rw [hi] at hins
    simp only [Option.bind_some, Option.map_eq_some_iff, Prod.mk.injEq] at hins
    obtain ⟨z, hz, hfl, rfl⟩ := hins
    obtain ⟨⟨p, b⟩, h', t'⟩ := y
    have := hpure h h50 t _ hi hfl
    simp only [Prod.mk.injEq] at this hfl
    obtain ⟨rfl, rfl⟩ := this
    subst hfl
    exact ⟨_, _, p, by rw [hx, hout], hi, hz⟩

end Verif.Rb
