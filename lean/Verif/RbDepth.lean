import Verif.RbMap4
import Mathlib.Data.Nat.Log

/-!
# The depth of the tree
-/

namespace Verif.Rb

variable {K V : Type} {α : Type}

/-- number of nodes on the longest way down -/
def Shape.height : Shape α → Nat
  | .nil => 0
  | .node _ _ l _ r => max l.height r.height + 1

theorem RB.size {T : Shape α} {m : Nat} (h : RB T m) : 2 ^ m ≤ T.items.length + 1 := by
  induction h with
  | nil => simp [Shape.items]
  | red _ _ _ _ ihl ihr => simp only [Shape.items, List.length_append, List.length_cons]; omega
  | black _ _ ihl ihr => simp only [Shape.items, List.length_append, List.length_cons, Nat.pow_succ]; omega

theorem RB.height {T : Shape α} {m : Nat} (h : RB T m) : T.height ≤ 2 * m + (if T.isRed then 1 else 0) := by
  induction h with
  | nil => simp [Shape.height]
  | @red a l r v n _ _ hl hr ihl ihr =>
    rw [hl] at ihl; rw [hr] at ihr
    simp only [Bool.false_eq_true, if_false] at ihl ihr
    change max l.height r.height + 1 ≤ 2 * n + 1
    omega
  | @black a l r v n _ _ ihl ihr =>
    change max l.height r.height + 1 ≤ 2 * (n + 1) + 0
    have h1 : l.height ≤ 2 * n + 1 := by
      refine ihl.trans ?_
      cases l.isRed <;> simp
    have h2 : r.height ≤ 2 * n + 1 := by
      refine ihr.trans ?_
      cases r.isRed <;> simp
    omega

/-- a way down has at most 2·log2(n+1) nodes -/
theorem Tr.height {h : Heap α} {t : Tree0} {L : List (Ptr × α)} (hT : Tr h t L) :
    ∃ T : Shape α, h t.hd = some ⟨T.ptr, firstP t.hd L, lastP t.hd L, true, none⟩ ∧ Rep h t.hd T ∧ 0 ∉ addrs T.items ∧ T.items = L ∧ T.height ≤ 2 * Nat.log 2 (L.length + 1) := by
  obtain ⟨T, m, s, hi, hR, hb, hc⟩ := hT
  refine ⟨T, s.place.header, s.tree, s.sep'.zero, hi, ?_⟩
  have h1 := hR.height
  rw [hb] at h1
  simp only [Bool.false_eq_true, if_false, Nat.add_zero] at h1
  have h2 := hR.size
  rw [hi] at h2
  have h3 : m ≤ Nat.log 2 (L.length + 1) := Nat.le_log_of_pow_le (by omega) h2
  omega

theorem lowerLoop_height {lt : K → K → Bool} {h : Heap (K × V)} (key : K) : ∀ (t : Shape (K × V)) {par : Ptr} (y : Ptr) (f g : Nat), Rep h par t → 0 ∉ addrs t.items → t.height < f → t.height < g →
    lowerLoop lt h key f y t.ptr = lowerLoop lt h key g y t.ptr := by
  intro t
  induction t with
  | nil =>
    intro par y f g _ _ hf hg
    obtain ⟨f, rfl⟩ : ∃ k, f = k + 1 := ⟨f - 1, by omega⟩
    obtain ⟨g, rfl⟩ : ∃ k, g = k + 1 := ⟨g - 1, by omega⟩
    rfl
  | node a c l v r ihl ihr =>
    intro par y f g hr h0 hf hg
    obtain ⟨f, rfl⟩ : ∃ k, f = k + 1 := ⟨f - 1, by omega⟩
    obtain ⟨g, rfl⟩ : ∃ k, g = k + 1 := ⟨g - 1, by omega⟩
    simp only [Shape.height] at hf hg
    simp only [Shape.items, addrs, List.map_append, List.map_cons, List.mem_append, List.mem_cons, not_or] at h0
    rw [lowerLoop, lowerLoop]
    have ha : a ≠ 0 := fun e => h0.2.1 e.symm
    rw [show (Shape.node a c l v r).ptr = a from rfl]
    simp only [ha, if_false, hr.1, keyAt_eq hr, Option.bind_eq_bind, Option.bind_some]
    rw [ihl a f g hr.2.1 h0.1 (by omega) (by omega), ihr y f g hr.2.2 h0.2.2 (by omega) (by omega)]

theorem upperLoop_height {lt : K → K → Bool} {h : Heap (K × V)} (key : K) : ∀ (t : Shape (K × V)) {par : Ptr} (y : Ptr) (f g : Nat), Rep h par t → 0 ∉ addrs t.items → t.height < f → t.height < g →
    upperLoop lt h key f y t.ptr = upperLoop lt h key g y t.ptr := by
  intro t
  induction t with
  | nil =>
    intro par y f g _ _ hf hg
    obtain ⟨f, rfl⟩ : ∃ k, f = k + 1 := ⟨f - 1, by omega⟩
    obtain ⟨g, rfl⟩ : ∃ k, g = k + 1 := ⟨g - 1, by omega⟩
    rfl
  | node a c l v r ihl ihr =>
    intro par y f g hr h0 hf hg
    obtain ⟨f, rfl⟩ : ∃ k, f = k + 1 := ⟨f - 1, by omega⟩
    obtain ⟨g, rfl⟩ : ∃ k, g = k + 1 := ⟨g - 1, by omega⟩
    simp only [Shape.height] at hf hg
    simp only [Shape.items, addrs, List.map_append, List.map_cons, List.mem_append, List.mem_cons, not_or] at h0
    rw [upperLoop, upperLoop]
    have ha : a ≠ 0 := fun e => h0.2.1 e.symm
    rw [show (Shape.node a c l v r).ptr = a from rfl]
    simp only [ha, if_false, hr.1, keyAt_eq hr, Option.bind_eq_bind, Option.bind_some]
    rw [ihl a f g hr.2.1 h0.1 (by omega) (by omega), ihr y f g hr.2.2 h0.2.2 (by omega) (by omega)]

theorem posLoop_height {lt : K → K → Bool} {h : Heap (K × V)} (key : K) : ∀ (t : Shape (K × V)) {par : Ptr} (y : Ptr) (b : Bool) (f g : Nat), Rep h par t → 0 ∉ addrs t.items → t.height < f → t.height < g →
    posLoop lt h key f y b t.ptr = posLoop lt h key g y b t.ptr := by
  intro t
  induction t with
  | nil =>
    intro par y b f g _ _ hf hg
    obtain ⟨f, rfl⟩ : ∃ k, f = k + 1 := ⟨f - 1, by omega⟩
    obtain ⟨g, rfl⟩ : ∃ k, g = k + 1 := ⟨g - 1, by omega⟩
    rfl
  | node a c l v r ihl ihr =>
    intro par y b f g hr h0 hf hg
    obtain ⟨f, rfl⟩ : ∃ k, f = k + 1 := ⟨f - 1, by omega⟩
    obtain ⟨g, rfl⟩ : ∃ k, g = k + 1 := ⟨g - 1, by omega⟩
    simp only [Shape.height] at hf hg
    simp only [Shape.items, addrs, List.map_append, List.map_cons, List.mem_append, List.mem_cons, not_or] at h0
    rw [posLoop, posLoop]
    have ha : a ≠ 0 := fun e => h0.2.1 e.symm
    rw [show (Shape.node a c l v r).ptr = a from rfl]
    simp only [ha, if_false, hr.1, keyAt_eq hr, Option.bind_eq_bind, Option.bind_some]
    rw [ihl a true f g hr.2.1 h0.1 (by omega) (by omega), ihr a false f g hr.2.2 h0.2.2 (by omega) (by omega)]

end Verif.Rb
