import Verif.RbMap5

/-!
# One operation of the client against the specification
-/

namespace Verif.Rb

open Verif.MapSpec

variable {K V : Type}

/-- the pairs without their addresses -/
def vals (L : List (Elem K V)) : List (K × V) := L.map (fun x => x.2)

theorem vals_append (X Y : List (Elem K V)) : vals (X ++ Y) = vals X ++ vals Y := by simp [vals]
theorem vals_cons (x : Elem K V) (Y : List (Elem K V)) : vals (x :: Y) = x.2 :: vals Y := rfl

theorem vals_filter (p : K × V → Bool) (L : List (Elem K V)) : (vals L).filter p = vals (L.filter (fun x => p x.2)) := by
  rw [vals, List.filter_map]; rfl

theorem vals_find (p : K × V → Bool) (L : List (Elem K V)) : (vals L).find? p = (L.filter (fun x => p x.2)).head?.map (fun x => x.2) := by
  rw [vals, List.find?_map, List.head?_filter]; rfl

theorem vals_has (lt : K → K → Bool) (k : K) (L : List (Elem K V)) : MapSpec.has lt k (vals L) = has lt k L := by
  rw [MapSpec.has, vals, List.any_map]; rfl

theorem vals_insert (lt : K → K → Bool) (np : Ptr) (v : K × V) (L : List (Elem K V)) : MapSpec.insert lt v (vals L) = vals (addNew lt (np, v) L) := by
  rw [MapSpec.insert, vals_has, addNew]
  cases has lt v.1 L
  · simp only [Bool.false_eq_true, if_false, added, vals_append, vals_cons, vals_filter]; rfl
  · rfl

/-- the map is `L`; outside of it the memory is as it was in the beginning (`h0`), when its addresses were free -/
structure Inv (lt : K → K → Bool) (h0 : Heap (K × V)) (hd : Ptr) (h : Heap (K × V)) (t : Tree0) (L : List (Elem K V)) : Prop where
  map : MapAt lt h t L
  hdr : t.hd = hd
  off : ∀ q, q ∉ owned hd L → h q = h0 q
  fresh : ∀ q ∈ owned hd L, h0 q = none
  bound : ∃ B, ∀ q, B ≤ q → h0 q = none

/-- only finitely many addresses are in use -/
def Bounded {α : Type} (h : Heap α) : Prop := ∃ B, ∀ q, B ≤ q → h q = none

theorem list_bound : ∀ l : List Nat, ∃ B, ∀ q ∈ l, q < B := by
  intro l
  induction l with
  | nil => exact ⟨0, by simp⟩
  | cons x l ih =>
    obtain ⟨B, hB⟩ := ih
    refine ⟨max B (x + 1), fun q hq => ?_⟩
    rcases List.mem_cons.1 hq with rfl | hq
    · omega
    · have := hB q hq; omega

theorem Inv.bounded {lt : K → K → Bool} {h0 : Heap (K × V)} {hd : Ptr} {h : Heap (K × V)} {t : Tree0} {L : List (Elem K V)} (i : Inv lt h0 hd h t L) : Bounded h := by
  obtain ⟨B, hB⟩ := i.bound
  obtain ⟨C, hC⟩ := list_bound (owned hd L)
  refine ⟨max B C, fun q hq => ?_⟩
  rw [i.off q (fun e => absurd (hC q e) (Nat.not_lt.2 (le_trans (le_max_right B C) hq)))]
  exact hB q (le_trans (le_max_left B C) hq)

theorem Inv.next {lt : K → K → Bool} {h0 : Heap (K × V)} {hd : Ptr} {h h' : Heap (K × V)} {t t' : Tree0} {L L' : List (Elem K V)} (i : Inv lt h0 hd h t L) (hm : MapAt lt h' t' L') (ht : t'.hd = hd)
    (a : ∀ q ∈ owned hd L', q ∈ owned hd L ∨ h q = none) (b : ∀ q ∈ owned hd L, q ∉ owned hd L' → h' q = none) (c : ∀ q, q ∉ owned hd L → q ∉ owned hd L' → h' q = h q) : Inv lt h0 hd h' t' L' := by
  refine ⟨hm, ht, fun q hq => ?_, fun q hq => ?_, i.bound⟩
  · by_cases hL : q ∈ owned hd L
    · rw [b q hL hq, i.fresh q hL]
    · rw [c q hL hq, i.off q hL]
  · rcases a q hq with h1 | h1
    · exact i.fresh q h1
    · by_cases hL : q ∈ owned hd L
      · exact i.fresh q hL
      · rw [← i.off q hL]; exact h1

theorem added_mem {lt : K → K → Bool} (w : StrictWeak lt) {L : List (Elem K V)} (hs : Asc lt L) {e : Elem K V} (hh : has lt e.2.1 L = false) (hd : Ptr) (q : Ptr) :
    q ∈ owned hd (added lt e L) ↔ q = e.1 ∨ q ∈ owned hd L := by
  rcases notBelow_cases w e.2.1 hs with ⟨x, hx, _, _, h3⟩ | ⟨_, _, _, h3⟩
  · exfalso
    rw [has, List.any_eq_false] at hh
    exact hh x (by rw [h3]; simp) hx
  · have : owned hd L = owned hd (below lt e.2.1 L ++ above lt e.2.1 L) := by rw [← h3]
    rw [this]
    simp only [owned, added, addrs, List.map_append, List.map_cons, List.mem_cons, List.mem_append]
    tauto

/-- after an insertion -/
theorem Inv.ins {lt : K → K → Bool} (w : StrictWeak lt) {h0 : Heap (K × V)} {hd : Ptr} {h : Heap (K × V)} {t : Tree0} {L : List (Elem K V)} (i : Inv lt h0 hd h t L) {np : Ptr} (hf : h np = none) {v : K × V}
    {res : Option (Ptr × Heap (K × V) × Tree0)} (hr : InsSpec lt h t L np v res) : ∃ p h' t', res = some (p, h', t') ∧ Inv lt h0 hd h' t' (addNew lt (np, v) L) := by
  cases hh : has lt v.1 L with
  | true =>
    obtain ⟨X, x, Y, _, _, h1⟩ := hr.2 hh
    have e : addNew lt (np, v) L = L := by rw [addNew, if_pos hh]
    rw [e]
    rcases h1 with h1 | ⟨_, h1⟩
    · exact ⟨_, _, _, h1, i⟩
    · exact ⟨_, _, _, h1, i⟩
  | false =>
    obtain ⟨h', h1, h2, h3⟩ := hr.1 hh
    have e : addNew lt (np, v) L = added lt (np, v) L := by rw [addNew, if_neg (by simp [hh])]
    rw [e]
    have hmem := added_mem w i.map.2 (e := (np, v)) hh hd
    refine ⟨_, _, _, h1, i.next h2 i.hdr (fun q hq => ?_) (fun q hq hn => absurd ((hmem q).2 (Or.inr hq)) hn) (fun q hq hn => h3 q ?_)⟩
    · rcases (hmem q).1 hq with rfl | h
      · exact Or.inr hf
      · exact Or.inl h
    · rw [i.hdr]
      intro e
      rcases List.mem_cons.1 e with e | e
      · exact hn ((hmem q).2 (Or.inl e))
      · exact hq e

/-- the members of a sorted list around a key do not have the key -/
theorem below_not_same {lt : K → K → Bool} {k : K} {L : List (Elem K V)} : ∀ x ∈ below lt k L, same lt x.2.1 k = false := by
  intro x hx
  have := (List.mem_filter.1 hx).2
  simp [same, this]
theorem above_not_same {lt : K → K → Bool} {k : K} {L : List (Elem K V)} : ∀ x ∈ above lt k L, same lt x.2.1 k = false := by
  intro x hx
  have := (List.mem_filter.1 hx).2
  simp [same, this]

theorem has_mem {lt : K → K → Bool} {k : K} {L : List (Elem K V)} {x : Elem K V} (hm : x ∈ L) (hx : same lt x.2.1 k = true) : has lt k L = true := by
  rw [has, List.any_eq_true]; exact ⟨x, hm, hx⟩

/-- **`operator[]`** -/
theorem index_ok {lt : K → K → Bool} (w : StrictWeak lt) {h : Heap (K × V)} {t : Tree0} {L : List (Elem K V)} (hM : MapAt lt h t L) {np : Ptr} (hf : h np = none) (np0 : np ≠ 0) (k : K) (d : V) :
    (has lt k L = true → ∃ x, same lt x.2.1 k = true ∧ L = below lt k L ++ x :: above lt k L ∧ index lt h t np k d = some (x.1, h, t)) ∧
    (has lt k L = false → ∃ h', index lt h t np k d = some (np, h', { t with count := t.count + 1 }) ∧ MapAt lt h' { t with count := t.count + 1 } (added lt (np, (k, d)) L) ∧ Off (np :: owned t.hd L) h h') := by
  rcases notBelow_cases w k hM.2 with ⟨x, hx, h1, h2, h3⟩ | ⟨hh, h1, h2, h3⟩
  · have hm : (x.1, x.2) ∈ L := by rw [h3]; simp
    have hh : has lt k L = true := has_mem hm hx
    refine ⟨fun _ => ⟨x, hx, h3, ?_⟩, fun e => by rw [hh] at e; exact absurd e (by simp)⟩
    rw [index, hM.lower w k, h1]
    simp only [Option.bind_eq_bind, Option.bind_some]
    have hlt : lt k x.2.1 = false := by simp [same] at hx; exact hx.2
    rw [show headOr t.hd (x :: above lt k L) = x.1 from rfl, if_neg (hM.1.hd_ne hm), hM.1.key hm]
    simp only [Option.map_some, Option.bind_some, hlt, Bool.false_eq_true, if_false]
    rfl
  · refine ⟨fun e => by rw [hh] at e; exact absurd e (by simp), fun _ => ?_⟩
    have hnew : (if headOr t.hd (above lt k L) = t.hd then some true else (keyAt h (headOr t.hd (above lt k L))).map (fun k' => lt k k')) = some true ∧ headOr t.hd (above lt k L) ∈ owned t.hd L := by
      cases ha : above lt k L with
      | nil => rw [show headOr t.hd ([] : List (Elem K V)) = t.hd from rfl, if_pos rfl]; exact ⟨rfl, by simp [owned]⟩
      | cons x R =>
        have hxa : x ∈ above lt k L := by rw [ha]; simp
        have hm : (x.1, x.2) ∈ L := (List.mem_filter.1 hxa).1
        have hlt : lt k x.2.1 = true := by simpa [above] using (List.mem_filter.1 hxa).2
        rw [show headOr t.hd (x :: R) = x.1 from rfl, if_neg (hM.1.hd_ne hm), hM.1.key hm]
        refine ⟨by simp [hlt], ?_⟩
        rw [owned, addrs, List.mem_cons, List.mem_map]
        exact Or.inr ⟨x, hm, rfl⟩
    obtain ⟨h', e1, e2, e3⟩ := (emplaceHint_ok w hM hf np0 (k, d) hnew.2).1 hh
    refine ⟨h', ?_, e2, e3⟩
    rw [index, hM.lower w k, h1]
    simp only [Option.bind_eq_bind, Option.bind_some, hnew.1, if_true]
    exact e1

/-- **`at`**: the value of the first element not below the key -/
theorem at_ok {lt : K → K → Bool} (w : StrictWeak lt) {h : Heap (K × V)} {t : Tree0} {L : List (Elem K V)} (hM : MapAt lt h t L) (k : K) :
    at' lt h t k = some ((notBelow lt k L).head?.map (fun x => x.2.2)) := by
  rw [at', hM.lower w k]
  simp only [Option.bind_eq_bind, Option.bind_some]
  cases hn : notBelow lt k L with
  | nil => rw [show headOr t.hd ([] : List (Elem K V)) = t.hd from rfl, if_pos rfl]; rfl
  | cons x R =>
    have hxa : x ∈ notBelow lt k L := by rw [hn]; simp
    have hm : (x.1, x.2) ∈ L := (List.mem_filter.1 hxa).1
    have hlt : lt x.2.1 k = false := by simpa [notBelow] using (List.mem_filter.1 hxa).2
    obtain ⟨c, c1, c2⟩ := hM.1.cell hm
    rw [show headOr t.hd (x :: R) = x.1 from rfl, if_neg (hM.1.hd_ne hm), c1]
    simp only [Option.bind_some, c2, hlt, Bool.false_eq_true, if_false]
    rfl

/-- **`erase(key)`** -/
theorem eraseUnique_ok {lt : K → K → Bool} (w : StrictWeak lt) {h : Heap (K × V)} {t : Tree0} {L : List (Elem K V)} (hM : MapAt lt h t L) (k : K) :
    ∃ h', eraseUnique lt h t k = some ((if has lt k L then 1 else 0), h', ⟨t.hd, (without lt k L).length⟩) ∧ MapAt lt h' ⟨t.hd, (without lt k L).length⟩ (without lt k L) ∧ Off (owned t.hd L) h h' ∧
      ∀ x ∈ L, same lt x.2.1 k = true → h' x.1 = none := by
  rw [eraseUnique, hM.find w k]
  simp only [Option.bind_eq_bind, Option.bind_some]
  rcases notBelow_cases w k hM.2 with ⟨x, hx, h1, h2, h3⟩ | ⟨hh, h1, h2, h3⟩
  · have hm : (x.1, x.2) ∈ L := by rw [h3]; simp
    have hh : has lt k L = true := has_mem hm hx
    have hw : without lt k L = below lt k L ++ above lt k L := by
      rw [without]
      conv_lhs => rw [h3]
      rw [List.filter_append, List.filter_cons]
      simp only [hx, Bool.not_true, Bool.false_eq_true, if_false]
      rw [List.filter_eq_self.2 (fun y hy => by simp [below_not_same y hy]), List.filter_eq_self.2 (fun y hy => by simp [above_not_same y hy])]
    have hT := hM.1
    rw [h3] at hT
    obtain ⟨h', e1, e2, e3, e4⟩ := Tr.erase (p := x.1) (v := x.2) hT
    rw [← h3] at e3
    rw [h2, show headOr t.hd [x] = x.1 from rfl, if_pos (hM.1.hd_ne hm), e1, hw, hh]
    refine ⟨h', rfl, ⟨e2, ?_⟩, e3, fun y hy hs => ?_⟩
    · have := hM.2.sublist (List.filter_sublist (p := fun x => !same lt x.2.1 k))
      have hw' : L.filter (fun x => !same lt x.2.1 k) = below lt k L ++ above lt k L := hw
      rw [hw'] at this
      exact this
    · have : y ∈ L.filter (fun x => same lt x.2.1 k) := List.mem_filter.2 ⟨hy, hs⟩
      rw [h2] at this
      rw [List.mem_singleton.1 this]; exact e4
  · have hw : without lt k L = L := by
      rw [without, List.filter_eq_self]
      intro y hy
      rw [has, List.any_eq_false] at hh
      simpa using hh y hy
    rw [h2, show headOr t.hd ([] : List (Elem K V)) = t.hd from rfl, if_neg (by simp), hw, hh, ← hM.1.tree_eq]
    refine ⟨h, rfl, hM, Off.refl _ _, fun y hy hs => ?_⟩
    rw [has, List.any_eq_false] at hh
    exact absurd hs (hh y hy)

end Verif.Rb
