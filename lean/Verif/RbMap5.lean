import Verif.RbMap4

/-!
# The client's loops
-/

namespace Verif.Rb

variable {K V : Type} {α : Type}

theorem Tr.begin {h : Heap α} {t : Tree0} {L : List (Ptr × α)} (hT : Tr h t L) : begin' h t = some (firstP t.hd L) := by
  obtain ⟨r, hh⟩ := hT.header
  rw [begin', hh]; rfl

theorem Tr.deref {h : Heap α} {t : Tree0} {L : List (Ptr × α)} (hT : Tr h t L) {a : Ptr} {v : α} (hm : (a, v) ∈ L) : deref h a = some v := by
  obtain ⟨c, h1, h2⟩ := hT.cell hm
  rw [Rb.deref, h1]; exact h2

theorem Tr.count {h : Heap α} {t : Tree0} {L : List (Ptr × α)} (hT : Tr h t L) : t.count = L.length := by
  obtain ⟨_, _, _, _, _, _, hc⟩ := hT; exact hc

theorem Tr.walk {h : Heap α} {t : Tree0} {L : List (Ptr × α)} (hT : Tr h t L) : ∀ (Y X : List (Ptr × α)) (fuel : Nat), L = X ++ Y → Y.length < fuel → walk h t fuel (firstP t.hd Y) = some (Y.map (fun x => x.2)) := by
  intro Y
  induction Y with
  | nil =>
    intro X fuel _ hf
    obtain ⟨n, rfl⟩ : ∃ n, fuel = n + 1 := ⟨fuel - 1, by omega⟩
    rw [Rb.walk, if_pos (show firstP t.hd ([] : List (Ptr × α)) = t.hd from rfl)]; rfl
  | cons y Y ih =>
    intro X fuel hL hf
    obtain ⟨n, rfl⟩ : ∃ n, fuel = n + 1 := ⟨fuel - 1, by omega⟩
    obtain ⟨a, v⟩ := y
    have hm : (a, v) ∈ L := by rw [hL]; simp
    have hinc : Rb.inc (t.count + 1) h a = some (firstP t.hd Y) := by
      have := hT
      rw [hL] at this
      exact this.inc (by omega)
    rw [Rb.walk, if_neg (show firstP t.hd ((a, v) :: Y) ≠ t.hd from hT.hd_ne hm), show firstP t.hd ((a, v) :: Y) = a from rfl, hT.deref hm, hinc]
    simp only [Option.bind_eq_bind, Option.bind_some]
    rw [ih (X ++ [(a, v)]) n (by rw [hL]; simp) (by simp at hf; omega)]
    rfl

theorem Tr.dec_end {h : Heap α} {t : Tree0} {L : List (Ptr × α)} (hT : Tr h t L) (hne : L ≠ []) {fuel : Nat} : Rb.dec fuel h t.hd = some (lastP t.hd L) := by
  obtain ⟨T, m, s, hi, _⟩ := hT
  exact Rb.dec_end s (fun e => hne (by rw [← hi, e]; rfl))

theorem Tr.back {h : Heap α} {t : Tree0} {L : List (Ptr × α)} (hT : Tr h t L) : ∀ (n : Nat) (X Y : List (Ptr × α)) (fuel : Nat), X.length = n → L = X ++ Y → X.length < fuel →
    back h t fuel (firstP t.hd Y) = some ((X.map (fun x => x.2)).reverse) := by
  intro n
  induction n with
  | zero =>
    intro X Y fuel hn hL hf
    obtain ⟨n, rfl⟩ : ∃ n, fuel = n + 1 := ⟨fuel - 1, by omega⟩
    have hX : X = [] := List.length_eq_zero_iff.1 hn
    subst hX
    rw [Rb.back, hT.begin]
    simp only [Option.bind_eq_bind, Option.bind_some]
    rw [if_pos (by rw [hL]; rfl)]; rfl
  | succ m ih =>
    intro X Y fuel hn hL hf
    obtain ⟨n, rfl⟩ : ∃ n, fuel = n + 1 := ⟨fuel - 1, by omega⟩
    obtain ⟨X', x, rfl⟩ : ∃ X' x, X = X' ++ [x] := ⟨_, _, (List.dropLast_append_getLast (by intro e; simp [e] at hn)).symm⟩
    obtain ⟨a, v⟩ := x
    have hm : (a, v) ∈ L := by rw [hL]; simp
    have hLne : L ≠ [] := by rw [hL]; simp
    have hdec : Rb.dec (t.count + 1) h (firstP t.hd Y) = some a := by
      cases Y with
      | nil =>
        rw [show firstP t.hd ([] : List (Ptr × α)) = t.hd from rfl, hT.dec_end hLne, hL, List.append_nil, lastP_append]
      | cons y Y =>
        obtain ⟨b, u⟩ := y
        have h2 := hT
        rw [hL] at h2
        rw [show firstP t.hd ((b, u) :: Y) = b from rfl, h2.dec (by simp) (by omega), lastP_append]
    have hne : firstP t.hd Y ≠ firstP t.hd L := by
      intro e
      rw [hL, List.append_assoc] at e
      cases Y with
      | nil =>
        have h1 : ∃ z ∈ L, firstP t.hd (X' ++ ([(a, v)] ++ ([] : List (Ptr × α)))) = z.1 := by
          cases X' with
          | nil => exact ⟨(a, v), hm, rfl⟩
          | cons z Z => exact ⟨z, by rw [hL]; simp, rfl⟩
        obtain ⟨z, hz, ez⟩ := h1
        rw [ez] at e
        exact hT.hd_ne (a := z.1) (v := z.2) hz e.symm
      | cons y Y =>
        have hn' := hT.nodup
        rw [hL] at hn'
        obtain ⟨b, u⟩ := y
        have := firstP_is (hd := t.hd) hn' (by rw [List.append_assoc]; exact e.symm)
        simp at this
    rw [Rb.back, hT.begin]
    simp only [Option.bind_eq_bind, Option.bind_some]
    rw [if_neg hne, hdec]
    simp only [Option.bind_some, hT.deref hm]
    have := ih X' ((a, v) :: Y) n (by simpa using hn) (by rw [hL]; simp) (by simp at hf; omega)
    rw [show firstP t.hd ((a, v) :: Y) = a from rfl] at this
    rw [this]
    simp

theorem Tr.advance {h : Heap α} {t : Tree0} {L : List (Ptr × α)} (hT : Tr h t L) : ∀ (i : Nat) (X Y : List (Ptr × α)), L = X ++ Y → advance h t i (firstP t.hd Y) = some (firstP t.hd (Y.drop i)) := by
  intro i
  induction i with
  | zero => intro X Y _; rfl
  | succ i ih =>
    intro X Y hL
    cases Y with
    | nil => rw [Rb.advance, if_pos (show firstP t.hd ([] : List (Ptr × α)) = t.hd from rfl)]; rfl
    | cons y Y =>
      obtain ⟨a, v⟩ := y
      have hm : (a, v) ∈ L := by rw [hL]; simp
      have hinc : Rb.inc (t.count + 1) h a = some (firstP t.hd Y) := by
        have := hT
        rw [hL] at this
        exact this.inc (by omega)
      rw [Rb.advance, if_neg (show firstP t.hd ((a, v) :: Y) ≠ t.hd from hT.hd_ne hm), show firstP t.hd ((a, v) :: Y) = a from rfl, hinc]
      simp only [Option.bind_eq_bind, Option.bind_some]
      rw [ih (X ++ [(a, v)]) Y (by rw [hL]; simp)]
      rfl

theorem Tr.nth {h : Heap α} {t : Tree0} {L : List (Ptr × α)} (hT : Tr h t L) (i : Nat) : nth h t i = some (firstP t.hd (L.drop i)) := by
  rw [Rb.nth, hT.begin]
  simp only [Option.bind_eq_bind, Option.bind_some]
  exact hT.advance i [] L rfl

theorem Tr.look {h : Heap α} {t : Tree0} {L : List (Ptr × α)} (hT : Tr h t L) {Y : List (Ptr × α)} (hY : ∀ y ∈ Y, y ∈ L) : look h t (firstP t.hd Y) = some (Y.head?.map (fun x => x.2)) := by
  cases Y with
  | nil => rw [Rb.look, if_pos (show firstP t.hd ([] : List (Ptr × α)) = t.hd from rfl)]; rfl
  | cons y Y =>
    have hm : (y.1, y.2) ∈ L := hY y (by simp)
    rw [Rb.look, if_neg (show firstP t.hd (y :: Y) ≠ t.hd from hT.hd_ne hm), show firstP t.hd (y :: Y) = y.1 from rfl, hT.deref hm]
    rfl

theorem Tr.tree_eq {h : Heap α} {t : Tree0} {L : List (Ptr × α)} (hT : Tr h t L) : t = ⟨t.hd, L.length⟩ := by
  obtain ⟨hd, c⟩ := t
  have := hT.count
  simp only at this
  rw [this]

/-- `erase` with the new size written as a length -/
theorem Tr.erase {h : Heap α} {t : Tree0} {p : Ptr} {v : α} {X Y : List (Ptr × α)} (hT : Tr h t (X ++ (p, v) :: Y)) :
    ∃ h', erase h t p = some (firstP t.hd Y, h', ⟨t.hd, (X ++ Y).length⟩) ∧ Tr h' ⟨t.hd, (X ++ Y).length⟩ (X ++ Y) ∧ Off (owned t.hd (X ++ (p, v) :: Y)) h h' ∧ h' p = none := by
  obtain ⟨h', e1, e2, e3, e4⟩ := erase_ok hT
  have : ({ t with count := t.count - 1 } : Tree0) = ⟨t.hd, (X ++ Y).length⟩ := by rw [hT.count]; simp
  rw [this] at e1 e2
  exact ⟨h', e1, e2, e3, e4⟩

theorem eraseRangeLoop_ok : ∀ (Y : List (Ptr × α)) {h : Heap α} {t : Tree0} (X Z : List (Ptr × α)) (fuel : Nat), Tr h t (X ++ (Y ++ Z)) → Y.length < fuel →
    ∃ h', eraseRangeLoop fuel (firstP t.hd (Y ++ Z)) (firstP t.hd Z) h t = some (h', ⟨t.hd, (X ++ Z).length⟩) ∧ Tr h' ⟨t.hd, (X ++ Z).length⟩ (X ++ Z) ∧ Off (owned t.hd (X ++ (Y ++ Z))) h h' ∧ ∀ q ∈ addrs Y, h' q = none := by
  intro Y
  induction Y with
  | nil =>
    intro h t X Z fuel hT hf
    obtain ⟨n, rfl⟩ : ∃ n, fuel = n + 1 := ⟨fuel - 1, by omega⟩
    have ht := hT.tree_eq
    rw [List.nil_append] at ht hT
    refine ⟨h, ?_, ?_, Off.refl _ _, by simp [addrs]⟩
    · rw [eraseRangeLoop, List.nil_append, if_pos rfl, ← ht]; rfl
    · rw [← ht]; exact hT
  | cons y Y ih =>
    intro h t X Z fuel hT hf
    obtain ⟨n, rfl⟩ : ∃ n, fuel = n + 1 := ⟨fuel - 1, by omega⟩
    obtain ⟨a, v⟩ := y
    rw [List.cons_append] at hT
    have hinc := hT.inc (fuel := t.count + 1) (by omega)
    obtain ⟨h1, e1, T1, o1, f1⟩ := hT.erase
    have hne : a ≠ firstP t.hd Z := by
      cases Z with
      | nil => exact hT.hd_ne (v := v) (by simp)
      | cons z Z =>
        intro e
        have e' : a = z.1 := e
        have hn := hT.nodup
        rw [addrs, List.map_append, List.map_cons, List.map_append, List.map_cons] at hn
        have := (List.nodup_cons.1 (List.nodup_append.1 hn).2.1).1
        exact this (by simp [e'])
    have hnin : a ∉ owned t.hd (X ++ (Y ++ Z)) := fun e => T1.alloc a e f1
    obtain ⟨h2, e2, T2, o2, f2⟩ := ih (h := h1) (t := ⟨t.hd, (X ++ (Y ++ Z)).length⟩) X Z n T1 (by simp at hf; omega)
    refine ⟨h2, ?_, T2, ?_, ?_⟩
    · rw [eraseRangeLoop, show firstP t.hd ((a, v) :: Y ++ Z) = a from rfl, if_neg hne, hinc]
      simp only [Option.bind_eq_bind, Option.bind_some, e1]
      exact e2
    · intro q hq
      rw [o2 q (fun e => hq ?_), o1 q hq]
      simp only [owned, addrs, List.map_append, List.map_cons, List.mem_cons, List.mem_append, List.cons_append] at e ⊢
      rcases e with e | e | e | e
      · exact Or.inl e
      · exact Or.inr (Or.inl e)
      · exact Or.inr (Or.inr (Or.inr (Or.inl e)))
      · exact Or.inr (Or.inr (Or.inr (Or.inr e)))
    · intro q hq
      simp only [addrs, List.map_cons, List.mem_cons] at hq
      rcases hq with rfl | hq
      · rw [o2 _ hnin]; exact f1
      · exact f2 q hq

/-- **`erase(first, last)`** -/
theorem eraseRange_ok {h : Heap α} {t : Tree0} {X Y Z : List (Ptr × α)} (hT : Tr h t (X ++ (Y ++ Z))) :
    ∃ h', eraseRange h t (firstP t.hd (Y ++ Z)) (firstP t.hd Z) = some (h', ⟨t.hd, (X ++ Z).length⟩) ∧ Tr h' ⟨t.hd, (X ++ Z).length⟩ (X ++ Z) ∧ Off (owned t.hd (X ++ (Y ++ Z))) h h' ∧ ∀ q ∈ addrs Y, h' q = none := by
  rw [eraseRange, hT.begin]
  simp only [Option.bind_eq_bind, Option.bind_some]
  by_cases hc : firstP t.hd (Y ++ Z) = firstP t.hd (X ++ (Y ++ Z)) ∧ firstP t.hd Z = t.hd
  · rw [if_pos hc]
    have hZ : Z = [] := by
      cases Z with
      | nil => rfl
      | cons z Z => exact absurd hc.2 (hT.hd_ne (a := z.1) (v := z.2) (by simp))
    subst hZ
    have hX : X = [] := by
      cases X with
      | nil => rfl
      | cons x X =>
        exfalso
        have h1 := hc.1
        rw [List.append_nil] at h1
        cases Y with
        | nil => exact hT.hd_ne (a := x.1) (v := x.2) (by simp) h1.symm
        | cons y Y =>
          have hn := hT.nodup
          have e' : y.1 = x.1 := h1
          simp only [addrs, List.cons_append, List.map_cons, List.map_append, List.append_nil] at hn
          exact (List.nodup_cons.1 hn).1 (by rw [← e']; simp)
    subst hX
    obtain ⟨h', e1, e2, e3, e4⟩ := clear_ok hT
    refine ⟨h', e1, e2, e3, fun q hq => e4 q ?_⟩
    simpa using hq
  · rw [if_neg hc]
    exact eraseRangeLoop_ok Y X Z (t.count + 1) hT (by rw [hT.count]; simp; omega)

end Verif.Rb
