import Verif.Vector

/-!
# Specification for C44: two sequences and what each operation does to them

The operations act on the first of two vectors; `swap` exchanges them, so that every operation can reach both.  `spec` is written with
`take`, `drop` and `++` only; it is `none` where the caller breaks the precondition (a position outside the sequence, `pop_back` of an
empty vector, a reference to an element that does not exist).
-/

namespace Verif.Vector

variable {α : Type}

inductive Op (α : Type) where
  | pushBack (value : Ref α)
  | popBack
  | insert (pos : Nat) (value : Ref α)
  | emplace (pos : Nat) (v : α)
  | erase (pos : Nat)
  | eraseRange (first last : Nat)
  | insertN (pos n : Nat) (value : Ref α)
  | insertRange (pos : Nat) (w : List α)
  | resize (n : Nat) (value : Ref α)
  | assignN (n : Nat) (value : Ref α)
  | assignRange (w : List α)
  | clear
  | reserve (n : Nat)
  | shrink
  | copyFrom
  | moveFrom
  | swap
  | newFill (n : Nat) (v : α)
  | newRange (w : List α)
  | newCopy

/-- the value a reference denotes -/
def Ref.val (l : List α) : Ref α → Option α
  | .copy v => some v
  | .elem i => l[i]?

/-- what the operation means for the two sequences -/
def spec : Op α → List α × List α → Option (List α × List α)
  | .pushBack r, (x, y) => (r.val x).map fun v => (x ++ [v], y)
  | .popBack, (x, y) => if x = [] then none else some (x.take (x.length - 1), y)
  | .insert pos r, (x, y) => if pos ≤ x.length then (r.val x).map fun v => (x.take pos ++ [v] ++ x.drop pos, y) else none
  | .emplace pos v, (x, y) => if pos ≤ x.length then some (x.take pos ++ [v] ++ x.drop pos, y) else none
  | .erase pos, (x, y) => if pos < x.length then some (x.take pos ++ x.drop (pos + 1), y) else none
  | .eraseRange first last, (x, y) => if first ≤ last ∧ last ≤ x.length then some (x.take first ++ x.drop last, y) else none
  | .insertN pos n r, (x, y) =>
    if pos ≤ x.length then (r.val x).map fun v => (x.take pos ++ List.replicate n v ++ x.drop pos, y) else none
  | .insertRange pos w, (x, y) => if pos ≤ x.length then some (x.take pos ++ w ++ x.drop pos, y) else none
  | .resize n r, (x, y) => (r.val x).map fun v => (x.take n ++ List.replicate (n - x.length) v, y)
  | .assignN n r, (x, y) => (r.val x).map fun v => (List.replicate n v, y)
  | .assignRange w, (_, y) => some (w, y)
  | .clear, (_, y) => some ([], y)
  | .reserve _, s => some s
  | .shrink, s => some s
  | .copyFrom, (_, y) => some (y, y)
  | .moveFrom, (_, y) => some (y, [])
  | .swap, (x, y) => some (y, x)
  | .newFill n v, (_, y) => some (List.replicate n v, y)
  | .newRange w, (_, y) => some (w, y)
  | .newCopy, (_, y) => some (y, y)

/-- the argument of the operation is not an element of the vector itself -/
def Op.NoAlias : Op α → Prop
  | .pushBack r | .insert _ r | .insertN _ _ r | .resize _ r | .assignN _ r => ∃ v, r = .copy v
  | _ => True

/-- the operation on the two vectors.  `clear()` — vector.h:270; `swap` — vector.h:537-547; constructions replace the first vector. -/
def step (triv : Bool) (mx : Nat) : Op α → Vec α × Vec α → M (Vec α × Vec α)
  | .pushBack r, (a, b) => do pure (← pushBack triv mx r a, b)
  | .popBack, (a, b) => do pure (← popBack a, b)
  | .insert pos r, (a, b) => do pure ((← insert triv mx pos r a).1, b)
  | .emplace pos v, (a, b) => do pure ((← emplace triv mx pos (.copy v) a).1, b)
  | .erase pos, (a, b) => do pure ((← eraseAt triv pos a).1, b)
  | .eraseRange first last, (a, b) => do pure ((← eraseRange triv first last a).1, b)
  | .insertN pos n r, (a, b) => do pure ((← fillInsert triv mx pos n r a).1, b)
  | .insertRange pos w, (a, b) => do pure (← copyInsert triv mx pos w a, b)
  | .resize n r, (a, b) => do pure (← resize triv mx n r a, b)
  | .assignN n r, (a, b) => do pure (← fillAssign triv n r a, b)
  | .assignRange w, (a, b) => do pure (← rangeAssign w a, b)
  | .clear, (a, b) => do pure ((← eraseRange triv 0 a.size a).1, b)
  | .reserve n, (a, b) => do pure (← reserve triv mx n a, b)
  | .shrink, (a, b) => do pure (← shrink triv a, b)
  | .copyFrom, (a, b) => do pure (← copyAssign a b, b)
  | .moveFrom, (a, b) => do pure (← moveAssign a b, null)
  | .swap, (a, b) => pure (b, a)
  | .newFill n v, (a, b) => do let _ ← destroyN a.size 0 a.mem; pure (← fillInit n v, b)
  | .newRange w, (a, b) => do let _ ← destroyN a.size 0 a.mem; pure (← rangeInit w, b)
  | .newCopy, (a, b) => do
    let _ ← destroyN a.size 0 a.mem
    let l ← contents b.size 0 b.mem
    pure (← rangeInit l, b)

/-- a history of operations -/
def run (triv : Bool) (mx : Nat) : List (Op α) → Vec α × Vec α → M (Vec α × Vec α)
  | [], s => pure s
  | op :: ops, s => do run triv mx ops (← step triv mx op s)

/-- the same history on sequences -/
def specRun : List (Op α) → List α × List α → Option (List α × List α)
  | [], s => some s
  | op :: ops, s => (spec op s).bind (specRun ops)

/-- the vector can be read as the sequence `l`, and its size, capacity and allocation are in order -/
structure Holds (a : Vec α) (l : List α) : Prop where
  read : contents a.size 0 a.mem = .ok l
  size : a.size = l.length
  size_le : a.size ≤ a.cap
  cap_le : a.cap ≤ a.mem.length

end Verif.Vector
