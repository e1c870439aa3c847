import Verif.DequeBulkErase
import Verif.Props.Deque
/-!
# C104: operations of the deque on several elements
-/
namespace Verif.Deque
open Verif.DequeSpec

variable {α : Type}

/-- One operation on the program's state. -/
def runBulk (triv : Bool) (B : ℕ) (s : St α) : BulkOp α → Option (St α)
  | .one op => runOp B s op
  | .insertFill i n v => insertFill B s i n v
  | .insertRange i vs => insertRange B s i vs
  | .eraseRange i j => eraseRange triv B s i j
  | .resize n v => resize triv B s n v
  | .assignFill n v => assignFill triv B s n v
  | .assignRange vs => assignList triv B s vs

/-- A history of operations on the program's state. -/
def runBulks (triv : Bool) (B : ℕ) (ops : List (BulkOp α)) (s : St α) : Option (St α) :=
  ops.foldlM (fun s op => runBulk triv B s op) s

theorem runBulk_ok {B : ℕ} (hB : 2 ≤ B) {s : St α} {l l' : List α} (h : Inv B s l) (triv : Bool) (op : BulkOp α)
    (ho : op.apply l = some l') (hk : triv = true ∨ op.keeps l) :
    ∃ s', runBulk triv B s op = some s' ∧ Inv B s' l' := by
  cases op with
  | one op =>
    obtain ⟨s', a1, a2, _⟩ := runOp_ok hB h op ho
    exact ⟨s', a1, a2⟩
  | insertFill i n v =>
    have ho : (if i ≤ l.length then some (l.take i ++ List.replicate n v ++ l.drop i) else none) = some l' := ho
    split_ifs at ho with hi
    cases ho
    exact insertFill_ok h hi n v
  | insertRange i vs =>
    have ho : (if i ≤ l.length then some (l.take i ++ vs ++ l.drop i) else none) = some l' := ho
    split_ifs at ho with hi
    cases ho
    exact insertRange_ok h hi vs
  | eraseRange i j =>
    have ho : (if i ≤ j ∧ j ≤ l.length then some (l.take i ++ l.drop j) else none) = some l' := ho
    split_ifs at ho with hi
    cases ho
    refine (eraseRange_ok h hi.1 hi.2 triv).1 ?_
    rcases hk with hk | hk | hk
    · exact Or.inl hk
    · exact Or.inr (Or.inr (OneBuffer.of_empty h hk))
    · exact Or.inr (Or.inl hk)
  | resize n v =>
    cases ho
    exact resize_ok h n v triv hk
  | assignFill n v =>
    cases ho
    exact assignFill_ok h n v triv hk
  | assignRange vs =>
    cases ho
    exact assignList_ok h _ triv hk

theorem runBulks_ok {B : ℕ} (hB : 2 ≤ B) {triv : Bool} {ops : List (BulkOp α)} {l l' : List α} (ho : Legal triv ops l l') :
    ∀ {s : St α}, Inv B s l → ∃ s', runBulks triv B ops s = some s' ∧ Inv B s' l' := by
  induction ho with
  | nil l => intro s h; exact ⟨s, rfl, h⟩
  | @cons op ops l m r h1 h2 _ ih =>
    intro s h
    obtain ⟨s1, a1, a2⟩ := runBulk_ok hB h triv op h1 h2
    obtain ⟨s2, b1, b2⟩ := ih a2
    refine ⟨s2, ?_, b2⟩
    show (runBulk triv B s op >>= _) = _
    rw [a1]; exact b1

/-- **C104.** A deque built from any sequence, after any history of operations
on single and several elements, shows exactly the resulting sequence, and
neither the operations nor the destructor touch memory they must not touch.
For element types with a destructor that does something (`triv = false`) the
history must not erase a range other than the empty one and all. -/
theorem c104_history {sz : ℕ} (hsz : 1 ≤ sz) (triv : Bool) (l₀ l : List α) (ops : List (BulkOp α))
    (ho : Legal triv ops l₀ l) :
    ∃ s, (ofList (bufSize sz) l₀ >>= runBulks triv (bufSize sz) ops) = some s ∧
      Shows (bufSize sz) s l ∧ ∃ left, destructor (bufSize sz) s = some left := by
  have hB := bufSize_ge hsz
  obtain ⟨s0, a1, a2, a3, a4⟩ := ofList_ok (B := bufSize sz) (by omega) l₀
  obtain ⟨s, b1, b2⟩ := runBulks_ok (by omega) ho a2
  obtain ⟨left, c1, c2⟩ := destructor_ok b2
  exact ⟨s, (bind_some a1).trans b1, b2.shows, left, c1⟩

/-- The hypothesis is met by a history using every operation on ranges. -/
example : Legal true [.insertFill 1 3 7, .insertRange 5 [8, 9], .eraseRange 1 3, .one (.pushFront 0), .resize 4 5,
    .assignRange [1, 2, 3], .resize 5 6, .assignFill 2 4] [1, 2] [4, 4] :=
  .cons rfl (Or.inl rfl) (.cons rfl (Or.inl rfl) (.cons rfl (Or.inl rfl) (.cons rfl (Or.inl rfl)
    (.cons rfl (Or.inl rfl) (.cons rfl (Or.inl rfl) (.cons rfl (Or.inl rfl) (.cons rfl (Or.inl rfl) (.nil _))))))))

/-- For types with a destructor too, as long as ranges are only inserted. -/
example : Legal false [.insertFill 1 3 7, .insertRange 5 [8, 9], .one (.erase 2), .assignFill 7 4] [1, 2] (List.replicate 7 4) :=
  .cons rfl (Or.inr trivial) (.cons rfl (Or.inr trivial) (.cons rfl (Or.inr trivial) (.cons rfl (Or.inr (Or.inl (by decide))) (.nil _))))

/-- **C104, defect.** For element types with a destructor that does something,
`erase(begin() + i, begin() + j)` of a proper part of the deque is undefined
whenever the part has at least as many elements as a buffer, after any history:
it runs a loop of destructor calls from a pointer into one buffer to a pointer
into another one. -/
theorem c104_erase_undefined {sz : ℕ} (hsz : 1 ≤ sz) (l₀ l : List α) (ops : List (BulkOp α))
    (ho : Legal false ops l₀ l) (i j : ℕ) (hj : j ≤ l.length) (hn : bufSize sz ≤ j - i) (hp : ¬(i = 0 ∧ j = l.length)) :
    ∃ s, (ofList (bufSize sz) l₀ >>= runBulks false (bufSize sz) ops) = some s ∧ eraseRange false (bufSize sz) s i j = none := by
  have hB := bufSize_ge hsz
  obtain ⟨s0, a1, a2, a3, a4⟩ := ofList_ok (B := bufSize sz) (by omega) l₀
  obtain ⟨s, b1, b2⟩ := runBulks_ok (by omega) ho a2
  refine ⟨s, (bind_some a1).trans b1, (eraseRange_ok b2 (by omega) hj false).2 rfl hp ?_⟩
  have := b2.eoff
  unfold OneBuffer
  split_ifs <;> omega

/-- **C104, defect.** The exact condition, for a deque just built from a
sequence of at most `B` - 1 elements (one buffer): erasing is defined.  Just
built from `B` elements, erasing the last one as a range is undefined. -/
theorem c104_erase_last {sz : ℕ} (hsz : 1 ≤ sz) (l₀ : List α) :
    ∃ s, ofList (bufSize sz) l₀ = some s ∧
      (∀ i j, i ≤ j → j ≤ l₀.length → l₀.length < bufSize sz →
        ∃ s', eraseRange false (bufSize sz) s i j = some s' ∧ Shows (bufSize sz) s' (l₀.take i ++ l₀.drop j)) ∧
      (l₀.length = bufSize sz → eraseRange false (bufSize sz) s (l₀.length - 1) l₀.length = none) := by
  have hB := bufSize_ge hsz
  generalize bufSize sz = B at *
  obtain ⟨s, a1, a2, a3, a4⟩ := ofList_ok (B := B) (by omega) l₀
  have hl := a2.len
  unfold pos at hl
  rw [a4] at hl
  have heo := a2.eoff
  have hbn : s.b.node * B ≤ s.e.node * B := Nat.mul_le_mul_right _ a2.nodes
  refine ⟨s, a1, fun i j hij hj hlt => ?_, fun he => ?_⟩
  · obtain ⟨s', b1, b2⟩ := (eraseRange_ok a2 hij hj false).1 (by
      refine Or.inr (Or.inr ?_)
      have e1 : s.e.node ≤ s.b.node := node_le (B := B) (n := s.b.node) (m := s.e.node) (o := l₀.length) (o' := s.e.off) hlt (by omega)
      have e2 := Nat.mul_le_mul_right B e1
      unfold OneBuffer
      split_ifs <;> omega)
    exact ⟨s', b1, b2.shows⟩
  · refine (eraseRange_ok a2 (by omega) (Nat.le_refl _) false).2 rfl (by omega) ?_
    unfold OneBuffer
    rw [if_neg (by omega)]
    have e1 : s.e.off = 0 := by
      have := pos_inj (B := B) (n := s.e.node) (m := s.b.node + 1) (o := s.e.off) (o' := 0) heo (by omega) (by rw [Nat.add_mul]; omega)
      exact this.2
    omega

/-- Elements of 8 bytes: 512 cells in a buffer. -/
example : bufSize 8 = 512 := rfl

end Verif.Deque
