import Mathlib.Data.Nat.Notation
import Mathlib.Data.Int.Notation
import Mathlib.Data.List.Basic
/-!
# What a double-ended queue, a queue and a stack are, in terms of lists
-/
namespace Verif.DequeSpec

variable {α : Type}

/-- The operations of a deque which change it. -/
inductive Op (α : Type) where
  | pushFront (v : α)
  | pushBack (v : α)
  | popFront
  | popBack
  | insert (i : ℕ) (v : α)
  | erase (i : ℕ)
  | assign (i : ℕ) (v : α)
  | clear
  | shrinkToFit

/-- The effect of an operation on the sequence of elements; `none` when the
operation must not be called. -/
def Op.apply : Op α → List α → Option (List α)
  | .pushFront v, l => some (v :: l)
  | .pushBack v, l => some (l ++ [v])
  | .popFront, [] => none
  | .popFront, _ :: l => some l
  | .popBack, l => if l.isEmpty then none else some l.dropLast
  | .insert i v, l => if i ≤ l.length then some (l.take i ++ v :: l.drop i) else none
  | .erase i, l => if i < l.length then some (l.take i ++ l.drop (i + 1)) else none
  | .assign i v, l => if i < l.length then some (l.set i v) else none
  | .clear, _ => some []
  | .shrinkToFit, l => some l

/-- A history of operations. -/
def history (ops : List (Op α)) (l : List α) : Option (List α) :=
  ops.foldlM (fun l op => op.apply l) l

/-- Pushes minus pops at the front, for one operation. -/
def Op.frontNet : Op α → ℤ
  | .pushFront _ => 1
  | .popFront => -1
  | _ => 0

/-- Only pushes, pops and assignments. -/
def Op.isEnd : Op α → Bool
  | .pushFront _ | .pushBack _ | .popFront | .popBack | .assign _ _ => true
  | _ => false

def Op.isClear : Op α → Bool
  | .clear => true
  | _ => false

/-! ### operations on several elements -/

/-- The operations of a deque which change it, also those on several elements. -/
inductive BulkOp (α : Type) where
  | one (op : Op α)
  | insertFill (i n : ℕ) (v : α)
  | insertRange (i : ℕ) (vs : List α)
  | eraseRange (i j : ℕ)
  | resize (n : ℕ) (v : α)
  | assignFill (n : ℕ) (v : α)
  | assignRange (vs : List α)

/-- The effect on the sequence; `none` when the operation must not be called. -/
def BulkOp.apply : BulkOp α → List α → Option (List α)
  | .one op, l => op.apply l
  | .insertFill i n v, l => if i ≤ l.length then some (l.take i ++ List.replicate n v ++ l.drop i) else none
  | .insertRange i vs, l => if i ≤ l.length then some (l.take i ++ vs ++ l.drop i) else none
  | .eraseRange i j, l => if i ≤ j ∧ j ≤ l.length then some (l.take i ++ l.drop j) else none
  | .resize n v, l => some (l.take n ++ List.replicate (n - l.length) v)
  | .assignFill n v, _ => some (List.replicate n v)
  | .assignRange vs, _ => some vs

/-- The operation removes no range of elements, or all elements at once. -/
def BulkOp.keeps : BulkOp α → List α → Prop
  | .one _, _ | .insertFill _ _ _, _ | .insertRange _ _, _ => True
  | .eraseRange i j, l => i = j ∨ (i = 0 ∧ j = l.length)
  | .resize n _, l | .assignFill n _, l => l.length ≤ n ∨ n = 0
  | .assignRange vs, l => l.length ≤ vs.length ∨ vs.length = 0

/-- The operations lead from one sequence to another; every single one is legal. -/
inductive Legal (triv : Bool) : List (BulkOp α) → List α → List α → Prop where
  | nil (l : List α) : Legal triv [] l l
  | cons {op : BulkOp α} {ops : List (BulkOp α)} {l m r : List α} :
      op.apply l = some m → (triv = true ∨ op.keeps l) → Legal triv ops m r → Legal triv (op :: ops) l r

end Verif.DequeSpec
