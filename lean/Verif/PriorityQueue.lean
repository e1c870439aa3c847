import Verif.Sort

/-!
# `mystl::priority_queue` — /repo/mylib/mystl/queue.h:183-326

The underlying `mystl::vector` is the sequence of its elements (its own model is `Verif/Vector.lean`, property C44); `comp_` is a value of the comparison type `κ`, whose default value is `dflt`.
The heap operations are those of `Verif/Sort.lean` on the whole sequence.
-/

namespace Verif.Pq

open Verif.Sort

variable {α κ : Type}

/-- the members `c_` and `comp_` — queue.h:199-200 -/
structure Queue (α κ : Type) where
  c : List α
  comp : κ

variable (less : κ → α → α → Bool) (dflt : κ)

/-- the constructors that take elements: copies the elements, then `make_heap` with the default `comp_` — queue.h:211-244 (`n` elements, `n` copies, a range, a list, a container) -/
def ofList (l : List α) : Option (Queue α κ) := do
  let c ← makeHeap (less dflt) l 0 l.length
  pure ⟨c, dflt⟩

/-- copying and moving the contents: `make_heap` again — queue.h:246-269 -/
def copyOf (q : Queue α κ) : Option (Queue α κ) := do
  let c ← makeHeap (less q.comp) q.c 0 q.c.length
  pure ⟨c, q.comp⟩

/-- `top()` — queue.h:284; `front()` of an empty vector is outside -/
def top (q : Queue α κ) : Option α := q.c[0]?

/-- `push(value)`, `emplace(args…)` — queue.h:291-307 -/
def push (q : Queue α κ) (x : α) : Option (Queue α κ) := do
  let c ← pushHeap (less q.comp) (q.c ++ [x]) 0 (q.c ++ [x]).length
  pure ⟨c, q.comp⟩

/-- `pop()` — queue.h:309-313 -/
def pop (q : Queue α κ) : Option (Queue α κ) := do
  let c ← popHeap (less q.comp) q.c 0 q.c.length
  pure ⟨c.dropLast, q.comp⟩

/-- `clear()` — queue.h:315-319: pops until it is empty; the number of rounds is bounded by `fuel` -/
def clearLoop : Nat → Queue α κ → Option (Queue α κ)
  | 0, _ => none
  | fuel + 1, q =>
    if q.c.length = 0 then some q
    else do
      let q ← pop less q
      clearLoop fuel q

def clear (q : Queue α κ) : Option (Queue α κ) := clearLoop less (q.c.length + 1) q

/-! ## Several queues -/

/-- what a client can do -/
inductive Op (α κ : Type)
  | new (i : Nat)
  | newComp (i : Nat) (k : κ)
  | ofList (i : Nat) (l : List α)
  | copy (i j : Nat)
  | move (i j : Nat)
  | assign (i j : Nat)
  | moveAssign (i j : Nat)
  | assignList (i : Nat) (l : List α)
  | push (i : Nat) (x : α)
  | pop (i : Nat)
  | clear (i : Nat)
  | swap (i j : Nat)

abbrev World (α κ : Type) := Nat → Option (Queue α κ)

def put (w : World α κ) (i : Nat) (q : Queue α κ) : World α κ := fun k => if k = i then some q else w k

/-- one call; `i` is the queue it is made on, `j` the argument — queue.h:204-326.  A moved-from vector is empty (vector.h:95-103 and its move assignment); `swap` exchanges both members. -/
def step (w : World α κ) : Op α κ → Option (World α κ)
  | .new i => some (put w i ⟨[], dflt⟩)
  | .newComp i k => some (put w i ⟨[], k⟩)
  | .ofList i l => do
    let q ← ofList less dflt l
    pure (put w i q)
  | .copy i j => do
    let q ← w j
    let q ← copyOf less q
    pure (put w i q)
  | .move i j => do
    let q ← w j
    let p ← copyOf less q
    pure (put (put w j ⟨[], q.comp⟩) i p)
  | .assign i j => do
    let _ ← w i
    let q ← w j
    let q ← copyOf less q
    pure (put w i q)
  | .moveAssign i j => do
    let _ ← w i
    let q ← w j
    let p ← copyOf less q
    pure (put (put w j ⟨[], q.comp⟩) i p)
  | .assignList i l => do
    let _ ← w i
    let q ← ofList less dflt l
    pure (put w i q)
  | .push i x => do
    let q ← w i
    let q ← push less q x
    pure (put w i q)
  | .pop i => do
    let q ← w i
    let q ← pop less q
    pure (put w i q)
  | .clear i => do
    let q ← w i
    let q ← clear less q
    pure (put w i q)
  | .swap i j => do
    let p ← w i
    let q ← w j
    pure (put (put w i q) j p)

/-- a history of calls -/
def run (w : World α κ) : List (Op α κ) → Option (World α κ)
  | [] => some w
  | o :: os => do
    let w ← step less dflt w o
    run w os

end Verif.Pq
