import Verif.ListSort
import Verif.ListClient

/-!
# The invariant of a world of `mystl::list`s (used by C81)
-/

namespace Verif.DList

open Function (update)

variable {α : Type}

/-- the addresses an object owns -/
def own (o : Lst) : Option (List (Nat × α)) → List Nat
  | none => []
  | some L => nodes o L

structure Inv (w : World α) (S : State α) : Prop where
  rep : ∀ i L, S i = some L → Rep w.heap (w.obj i) L
  null : ∀ i, S i = none → (w.obj i).node = 0
  apart : ∀ i j, i ≠ j → ∀ q ∈ own (w.obj i) (S i), q ∉ own (w.obj j) (S j)
  owned : ∀ q, w.heap q ≠ none → ∃ i, q ∈ own (w.obj i) (S i)
  bounded : Bounded w.heap

theorem Inv.alive {w : World α} {S : State α} (I : Inv w S) {i : Nat} {q : Nat} (hq : q ∈ own (w.obj i) (S i)) : w.heap q ≠ none := by
  cases h : S i with
  | none => rw [h] at hq; simp [own] at hq
  | some L => rw [h] at hq; exact (I.rep i L h).alive hq

/-- a change to the objects in `C` only -/
theorem inv_step {w : World α} {S : State α} (I : Inv w S) {h' : Heap α} {obj' : Nat → Lst} {S' : State α} (C : Nat → Prop) {N N' : List Nat} (hC : ∀ i, ¬ C i → obj' i = w.obj i ∧ S' i = S i)
    (u : Upd w.heap h' N N') (hN : ∀ q, q ∈ N ↔ ∃ i, C i ∧ q ∈ own (w.obj i) (S i)) (hN' : ∀ q, q ∈ N' ↔ ∃ i, C i ∧ q ∈ own (obj' i) (S' i)) (hr : ∀ i L, C i → S' i = some L → Rep h' (obj' i) L)
    (hn : ∀ i, C i → S' i = none → (obj' i).node = 0) (hap : ∀ i j, i ≠ j → C i → C j → ∀ q ∈ own (obj' i) (S' i), q ∉ own (obj' j) (S' j)) : Inv ⟨h', obj'⟩ S' := by
  have notN : ∀ i, ¬ C i → ∀ q ∈ own (w.obj i) (S i), q ∉ N := by
    intro i hi q hq hm
    obtain ⟨j, hj, hq'⟩ := (hN q).mp hm
    exact I.apart i j (by rintro rfl; exact hi hj) q hq hq'
  have notN' : ∀ i, ¬ C i → ∀ q ∈ own (w.obj i) (S i), q ∉ N' := by
    intro i hi q hq hm
    exact I.alive hq (u.new q hm (notN i hi q hq))
  refine ⟨?_, ?_, ?_, ?_, u.bounded I.bounded⟩
  · intro i L hL
    by_cases hi : C i
    · exact hr i L hi hL
    · obtain ⟨e1, e2⟩ := hC i hi
      have hL' : S i = some L := by rw [← e2]; exact hL
      show Rep h' (obj' i) L
      rw [e1]
      refine (I.rep i L hL').frame (fun q hq => u.same q (notN i hi q (by rw [hL']; exact hq)) (notN' i hi q (by rw [hL']; exact hq)))
  · intro i hL
    by_cases hi : C i
    · exact hn i hi hL
    · obtain ⟨e1, e2⟩ := hC i hi
      show (obj' i).node = 0
      rw [e1]; exact I.null i (by rw [← e2]; exact hL)
  · intro i j hij q hq hq'
    simp only at hq hq'
    by_cases hi : C i
    · by_cases hj : C j
      · exact hap i j hij hi hj q hq hq'
      · obtain ⟨e1, e2⟩ := hC j hj
        rw [e1, e2] at hq'
        exact notN' j hj q hq' ((hN' q).mpr ⟨i, hi, hq⟩)
    · obtain ⟨e1, e2⟩ := hC i hi
      rw [e1, e2] at hq
      by_cases hj : C j
      · exact notN' i hi q hq ((hN' q).mpr ⟨j, hj, hq'⟩)
      · obtain ⟨e1, e2⟩ := hC j hj
        rw [e1, e2] at hq'
        exact I.apart i j hij q hq hq'
  · intro q hq
    simp only at hq
    by_cases h1 : q ∈ N'
    · obtain ⟨i, _, hi⟩ := (hN' q).mp h1
      exact ⟨i, hi⟩
    · by_cases h2 : q ∈ N
      · exact absurd (u.dead q h2 h1) hq
      · rw [u.same q h2 h1] at hq
        obtain ⟨i, hi⟩ := I.owned q hq
        have hCi : ¬ C i := fun hc => h2 ((hN q).mpr ⟨i, hc, hi⟩)
        obtain ⟨e1, e2⟩ := hC i hCi
        exact ⟨i, by simp only; rw [e1, e2]; exact hi⟩

theorem inv1 {w : World α} {S : State α} (I : Inv w S) (i : Nat) {h' : Heap α} {o' : Lst} {s' : Option (List (Nat × α))} (u : Upd w.heap h' (own (w.obj i) (S i)) (own o' s'))
    (hr : ∀ L, s' = some L → Rep h' o' L) (hn : s' = none → o'.node = 0) : Inv ⟨h', update w.obj i o'⟩ (update S i s') := by
  refine inv_step I (fun j => j = i) (fun j hj => by simp [Function.update_of_ne hj]) u (fun q => by simp) (fun q => by simp) ?_ ?_ ?_
  · rintro j L rfl hL
    simp at hL ⊢
    exact hr L hL
  · rintro j rfl hL
    simp at hL ⊢
    exact hn hL
  · rintro j k hjk rfl rfl
    exact absurd rfl hjk

theorem inv1_rep {w : World α} {S : State α} (I : Inv w S) {i : Nat} {L : List (Nat × α)} (hS : S i = some L) {h' : Heap α} {o' : Lst} {L' : List (Nat × α)} (ho : o'.node = (w.obj i).node)
    (u : Upd w.heap h' (nodes (w.obj i) L) (nodes (w.obj i) L')) (hr : Rep h' o' L') : Inv ⟨h', update w.obj i o'⟩ (update S i (some L')) := by
  refine inv1 I i ?_ ?_ (by simp)
  · rw [hS]
    show Upd w.heap h' (nodes (w.obj i) L) (nodes o' L')
    rw [nodes_congr o' (w.obj i) ho]; exact u
  · rintro L2 hL2
    rw [← Option.some.inj hL2]; exact hr

theorem inv2 {w : World α} {S : State α} (I : Inv w S) {i j : Nat} (hij : i ≠ j) {h' : Heap α} {o' x' : Lst} {s t : Option (List (Nat × α))}
    (u : Upd w.heap h' (own (w.obj i) (S i) ++ own (w.obj j) (S j)) (own o' s ++ own x' t)) (hr : ∀ L, s = some L → Rep h' o' L) (hn : s = none → o'.node = 0)
    (hrx : ∀ L, t = some L → Rep h' x' L) (hnx : t = none → x'.node = 0) (hap : ∀ q ∈ own o' s, q ∉ own x' t) :
    Inv ⟨h', update (update w.obj i o') j x'⟩ (update (update S i s) j t) := by
  have a1 : update (update w.obj i o') j x' i = o' := by rw [Function.update_of_ne hij, Function.update_self]
  have a2 : update (update S i s) j t i = s := by rw [Function.update_of_ne hij, Function.update_self]
  have b1 : update (update w.obj i o') j x' j = x' := by rw [Function.update_self]
  have b2 : update (update S i s) j t j = t := by rw [Function.update_self]
  refine inv_step I (fun k => k = i ∨ k = j) (fun k hk => ?_) u (fun q => ?_) (fun q => ?_) ?_ ?_ ?_
  · simp only [not_or] at hk
    rw [Function.update_of_ne hk.2, Function.update_of_ne hk.1, Function.update_of_ne hk.2, Function.update_of_ne hk.1]; exact ⟨rfl, rfl⟩
  · rw [List.mem_append]
    constructor
    · rintro (h | h)
      · exact ⟨i, Or.inl rfl, h⟩
      · exact ⟨j, Or.inr rfl, h⟩
    · rintro ⟨k, rfl | rfl, h⟩
      · exact Or.inl h
      · exact Or.inr h
  · rw [List.mem_append]
    constructor
    · rintro (h | h)
      · exact ⟨i, Or.inl rfl, by rw [a1, a2]; exact h⟩
      · exact ⟨j, Or.inr rfl, by rw [b1, b2]; exact h⟩
    · rintro ⟨k, rfl | rfl, h⟩
      · rw [a1, a2] at h; exact Or.inl h
      · rw [b1, b2] at h; exact Or.inr h
  · rintro k L (rfl | rfl) hL
    · rw [a2] at hL; rw [a1]; exact hr L hL
    · rw [b2] at hL; rw [b1]; exact hrx L hL
  · rintro k (rfl | rfl) hL
    · rw [a2] at hL; rw [a1]; exact hn hL
    · rw [b2] at hL; rw [b1]; exact hnx hL
  · rintro k l hkl (rfl | rfl) (rfl | rfl) q hq hq'
    · exact hkl rfl
    · rw [a1, a2] at hq; rw [b1, b2] at hq'; exact hap q hq hq'
    · rw [b1, b2] at hq; rw [a1, a2] at hq'; exact hap q hq' hq
    · exact hkl rfl

theorem inv2_rep {w : World α} {S : State α} (I : Inv w S) {i j : Nat} (hij : i ≠ j) {L M L' M' : List (Nat × α)} (hS : S i = some L) (hT : S j = some M) {h' : Heap α} {o' x' : Lst}
    (ho : o'.node = (w.obj i).node) (hx : x'.node = (w.obj j).node) (u : Upd w.heap h' (nodes (w.obj i) L ++ nodes (w.obj j) M) (nodes (w.obj i) L' ++ nodes (w.obj j) M'))
    (hr : Rep h' o' L') (hrx : Rep h' x' M') (hap : Apart (w.obj i) (w.obj j) L' M') : Inv ⟨h', update (update w.obj i o') j x'⟩ (update (update S i (some L')) j (some M')) := by
  refine inv2 I hij ?_ ?_ (by simp) ?_ (by simp) ?_
  · rw [hS, hT]
    show Upd w.heap h' (nodes (w.obj i) L ++ nodes (w.obj j) M) (nodes o' L' ++ nodes x' M')
    rw [nodes_congr o' (w.obj i) ho, nodes_congr x' (w.obj j) hx]; exact u
  · rintro L2 hL2
    rw [← Option.some.inj hL2]; exact hr
  · rintro L2 hL2
    rw [← Option.some.inj hL2]; exact hrx
  · show ∀ q ∈ nodes o' L', q ∉ nodes x' M'
    rw [nodes_congr o' (w.obj i) ho, nodes_congr x' (w.obj j) hx]; exact hap

theorem Inv.ap {w : World α} {S : State α} (I : Inv w S) {i j : Nat} (hij : i ≠ j) {L M : List (Nat × α)} (hS : S i = some L) (hT : S j = some M) : Apart (w.obj i) (w.obj j) L M := by
  have := I.apart i j hij
  rw [hS, hT] at this
  exact this

theorem Inv.new {w : World α} {S : State α} (I : Inv w S) {M : List (Nat × α)} (hn : (ids M).Nodup) (hd : ∀ e ∈ M, w.heap e.1 = none) : New S M := by
  refine ⟨hn, fun e he i L hL x hx hh => ?_⟩
  have : x.1 ∈ nodes (w.obj i) L := List.mem_cons_of_mem _ (List.mem_map_of_mem hx)
  exact (I.rep i L hL).alive this (by rw [hh]; exact hd e he)

theorem posAt_ok {h : Heap α} {o : Lst} {L : List (Nat × α)} (r : Rep h o L) {k : Nat} (hk : k ≤ L.length) : posAt h o k = some (start o (L.drop k)) := by
  unfold posAt
  rw [r.begin]
  exact advance_ok k (A := []) r hk

theorem readBack_ok {h : Heap α} {o : Lst} : ∀ (fuel : Nat) {A B : List (Nat × α)}, Rep h o (A ++ B) → A.length < fuel → readBack (start o (A ++ B)) h fuel (start o B) = some ((A.map Prod.snd).reverse)
  | 0, _, _, _, hk => by omega
  | fuel + 1, A, B, r, hk => by
    rcases List.eq_nil_or_concat A with rfl | ⟨A', e, rfl⟩
    · unfold readBack; rw [if_neg (by simp)]; rfl
    · rw [List.concat_eq_append] at r hk ⊢
      have hne : start o B ≠ start o (A' ++ [e] ++ B) := fun hh => Rep.start_ne' (A := []) (M := A' ++ [e]) (B := B) r (by simp) hh.symm
      unfold readBack
      rw [if_pos hne]
      show (prv h (start o B)).bind _ = _
      rw [r.gap.2, finish_append]
      have r1 : Rep h o (A' ++ e :: B) := by simpa using r
      show (value h e.1).bind _ = _
      rw [r1.val]
      have ih := readBack_ok fuel r1 (by simp at hk; omega)
      have hs : start o (A' ++ [e] ++ B) = start o (A' ++ e :: B) := by simp
      rw [hs]
      show (readBack (start o (A' ++ e :: B)) h fuel (start o (e :: B))).bind _ = _
      rw [ih]
      simp

theorem contentsBack_ok {h : Heap α} {o : Lst} {L : List (Nat × α)} (r : Rep h o L) {fuel : Nat} (hf : L.length < fuel) : contentsBack fuel o h = some ((L.map Prod.snd).reverse) := by
  unfold contentsBack
  rw [r.begin]
  have := readBack_ok fuel (A := L) (B := []) (o := o) (h := h) (by simpa using r) hf
  rw [List.append_nil] at this
  exact this

end Verif.DList
