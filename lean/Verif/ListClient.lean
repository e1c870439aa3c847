import Verif.ListModel
import Verif.ListSpec

/-!
# A client of `mystl::list`: memory, list objects and the calls on them (used by C81)

The objects are named by numbers; an object with a null `node_` is one that has not been created, has been destroyed or has been moved from.  The bound given to the loops is the number of elements of
the lists involved plus one; that it is enough is part of the theorem.
-/

namespace Verif.DList

open Function (update)

variable {α : Type}

structure World (α : Type) where
  heap : Heap α
  obj : Nat → Lst

/-- no list exists, nothing is allocated -/
def World.empty : World α := ⟨fun _ => none, fun _ => ⟨0, 0⟩⟩

/-- `next(begin(), k)` — list.h:306-313, iterator.h -/
def posAt (h : Heap α) (o : Lst) (k : Nat) : Option Nat := do
  let b ← nxt h o.node
  advance h k b

/-- the values from `rbegin()` to `rend()`: `*--i` until `begin()` — list.h:315-322 -/
def readBack (b : Nat) (h : Heap α) : Nat → Nat → Option (List α)
  | 0, _ => none
  | n + 1, i =>
    if i ≠ b then do
      let i ← prv h i
      let v ← value h i
      let vs ← readBack b h n i
      pure (v :: vs)
    else some []

/-- the values of a list from `rbegin()` to `rend()` — list.h:315-322 -/
def contentsBack (fuel : Nat) (o : Lst) (h : Heap α) : Option (List α) := do
  let b ← nxt h o.node
  readBack b h fuel o.node

/-- one call -/
def step (fresh : Heap α → Nat) (w : World α) : Op α → Option (World α)
  | .create i vs => do
    let (o, h) ← copyInit fresh vs w.heap
    pure ⟨h, update w.obj i o⟩
  | .copy i j => do
    let vs ← contents ((w.obj j).size + 1) (w.obj j) w.heap
    let (o, h) ← copyInit fresh vs w.heap
    pure ⟨h, update w.obj i o⟩
  | .moveNew i j => some ⟨w.heap, update (update w.obj i (moveInit (w.obj j)).1) j (moveInit (w.obj j)).2⟩
  | .destroy i => do
    let h ← destruct ((w.obj i).size + 1) (w.obj i) w.heap
    pure ⟨h, update w.obj i ⟨0, 0⟩⟩
  | .pushFront i v => do
    let (o, h) ← pushFront fresh (w.obj i) v w.heap
    pure ⟨h, update w.obj i o⟩
  | .pushBack i v => do
    let (o, h) ← pushBack fresh (w.obj i) v w.heap
    pure ⟨h, update w.obj i o⟩
  | .popFront i => do
    let (o, h) ← popFront (w.obj i) w.heap
    pure ⟨h, update w.obj i o⟩
  | .popBack i => do
    let (o, h) ← popBack (w.obj i) w.heap
    pure ⟨h, update w.obj i o⟩
  | .insert i k v => do
    let pos ← posAt w.heap (w.obj i) k
    let (_, o, h) ← insert1 fresh (w.obj i) pos v w.heap
    pure ⟨h, update w.obj i o⟩
  | .emplace i k v => do
    let pos ← posAt w.heap (w.obj i) k
    let (_, o, h) ← emplace fresh (w.obj i) pos v w.heap
    pure ⟨h, update w.obj i o⟩
  | .insertRange i k vs => do
    let pos ← posAt w.heap (w.obj i) k
    let (_, o, h) ← insertRange fresh (w.obj i) pos vs w.heap
    pure ⟨h, update w.obj i o⟩
  | .erase i k => do
    let pos ← posAt w.heap (w.obj i) k
    let (_, o, h) ← erase (w.obj i) pos w.heap
    pure ⟨h, update w.obj i o⟩
  | .eraseRange i k n => do
    let first ← posAt w.heap (w.obj i) k
    let last ← posAt w.heap (w.obj i) (k + n)
    let (o, h) ← eraseRange ((w.obj i).size + 1) (w.obj i) first last w.heap
    pure ⟨h, update w.obj i o⟩
  | .clear i => do
    let (o, h) ← clear ((w.obj i).size + 1) (w.obj i) w.heap
    pure ⟨h, update w.obj i o⟩
  | .resize i n v => do
    let (o, h) ← resize fresh ((w.obj i).size + 1) (w.obj i) n v w.heap
    pure ⟨h, update w.obj i o⟩
  | .assign i vs => do
    let (o, h) ← assign fresh ((w.obj i).size + 1) (w.obj i) vs w.heap
    pure ⟨h, update w.obj i o⟩
  | .copyAssign i j =>
    if i = j then some w
    else do
      let vs ← contents ((w.obj j).size + 1) (w.obj j) w.heap
      let (o, h) ← assign fresh ((w.obj i).size + 1) (w.obj i) vs w.heap
      pure ⟨h, update w.obj i o⟩
  | .moveAssign i j =>
    if i = j then do
      let (o, h) ← moveAssignSelf ((w.obj i).size + 1) (w.obj i) w.heap
      pure ⟨h, update w.obj i o⟩
    else do
      let (o, x, h) ← moveAssign ((w.obj i).size + 1) (w.obj i) (w.obj j) w.heap
      pure ⟨h, update (update w.obj i o) j x⟩
  | .swap i j => some ⟨w.heap, update (update w.obj i (w.obj j)) j (w.obj i)⟩
  | .splice i k j => do
    let pos ← posAt w.heap (w.obj i) k
    let (o, x, h) ← splice pos (w.obj i) (w.obj j) w.heap
    pure ⟨h, update (update w.obj i o) j x⟩
  | .spliceOne i k j m => do
    let pos ← posAt w.heap (w.obj i) k
    let it ← posAt w.heap (w.obj j) m
    let (o, x, h) ← spliceOne pos it (w.obj i) (w.obj j) w.heap
    pure ⟨h, update (update w.obj i o) j x⟩
  | .spliceOneSelf i k m => do
    let pos ← posAt w.heap (w.obj i) k
    let it ← posAt w.heap (w.obj i) m
    let (o, h) ← spliceOneSelf pos it (w.obj i) w.heap
    pure ⟨h, update w.obj i o⟩
  | .spliceRange i k j m n => do
    let pos ← posAt w.heap (w.obj i) k
    let first ← posAt w.heap (w.obj j) m
    let last ← posAt w.heap (w.obj j) (m + n)
    let (o, x, h) ← spliceRange ((w.obj j).size + 1) pos first last (w.obj i) (w.obj j) w.heap
    pure ⟨h, update (update w.obj i o) j x⟩
  | .removeIf i p => do
    let (o, h) ← removeIf p ((w.obj i).size + 1) (w.obj i) w.heap
    pure ⟨h, update w.obj i o⟩
  | .unique i p => do
    let (o, h) ← unique p ((w.obj i).size + 1) (w.obj i) w.heap
    pure ⟨h, update w.obj i o⟩
  | .merge i j lt =>
    if i = j then some w
    else do
      let (o, x, h) ← merge lt ((w.obj i).size + (w.obj j).size + 1) (w.obj i) (w.obj j) w.heap
      pure ⟨h, update (update w.obj i o) j x⟩
  | .sort i lt => do
    let h ← sort lt ((w.obj i).size + 1) (w.obj i) w.heap
    pure ⟨h, w.obj⟩
  | .reverse i => do
    let h ← reverse ((w.obj i).size + 1) (w.obj i) w.heap
    pure ⟨h, w.obj⟩

/-- a history of calls -/
def run (fresh : Heap α → Nat) : World α → List (Op α) → Option (World α)
  | w, [] => some w
  | w, op :: ops => do
    let w ← step fresh w op
    run fresh w ops

end Verif.DList
