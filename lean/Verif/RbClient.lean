import Verif.RbTree
import Verif.MapSpec

/-!
# A client of `map`

The programs behind `MapSpec.Op`: they use only the operations of RbTree.lean.  `alloc n h` is the address the allocator returns in the `n`-th operation when the memory is `h`.
-/

namespace Verif.Rb

open Verif.MapSpec

variable {K V : Type} {α : Type}

/-- `*it` — rb_tree.h:271-272 -/
def deref (h : Heap α) (p : Ptr) : Option α := do
  let c ← h p
  c.val

/-- `begin()` is the left link of the header — rb_tree.h:757, 776-777 -/
def begin' (h : Heap α) (t : Tree0) : Option Ptr := do
  let c ← h t.hd
  pure c.left

/-- `for (; it != end(); ++it)`: the pairs seen -/
def walk (h : Heap α) (t : Tree0) : Nat → Ptr → Option (List α)
  | 0, _ => none
  | n + 1, p =>
    if p = t.hd then pure []
    else do
      let v ← deref h p
      let q ← inc (t.count + 1) h p
      let l ← walk h t n q
      pure (v :: l)

/-- `while (it != begin()) { --it; … }`: the pairs seen -/
def back (h : Heap α) (t : Tree0) : Nat → Ptr → Option (List α)
  | 0, _ => none
  | n + 1, p => do
    let b ← begin' h t
    if p = b then pure []
    else do
      let q ← dec (t.count + 1) h p
      let v ← deref h q
      let l ← back h t n q
      pure (v :: l)

/-- `for (; i > 0 && it != end(); --i) ++it` -/
def advance (h : Heap α) (t : Tree0) : Nat → Ptr → Option Ptr
  | 0, p => pure p
  | n + 1, p => if p = t.hd then pure p else do
    let q ← inc (t.count + 1) h p
    advance h t n q

/-- the `i`-th iterator, `end()` if there are fewer elements -/
def nth (h : Heap α) (t : Tree0) (i : Nat) : Option Ptr := do
  let b ← begin' h t
  advance h t i b

/-- what the client sees at an iterator: nothing at `end()` -/
def look (h : Heap α) (t : Tree0) (p : Ptr) : Option (Option α) := if p = t.hd then pure none else (deref h p).map some

/-- `it->second = v` through the reference `operator[]` returns -/
def setSecond (h : Heap (K × V)) (p : Ptr) (v : V) : Option (Heap (K × V)) := do
  let c ← h p
  let x ← c.val
  pure (put h p (some { c with val := some (x.1, v) }))

/-- the loop of `erase(first, last)` — rb_tree.h:1234-1235 -/
def eraseRangeLoop : Nat → Ptr → Ptr → Heap α → Tree0 → Option (Heap α × Tree0)
  | 0, _, _, _, _ => none
  | n + 1, first, last, h, t =>
    if first = last then pure (h, t)
    else do
      let next ← inc (t.count + 1) h first
      let (_, h, t) ← erase h t first
      eraseRangeLoop n next last h t

/-- `erase(first, last)` — rb_tree.h:1224-1237 -/
def eraseRange (h : Heap α) (t : Tree0) (first last : Ptr) : Option (Heap α × Tree0) := do
  let b ← begin' h t
  if first = b ∧ last = t.hd then clear h t else eraseRangeLoop (t.count + 1) first last h t

/-- `insert_unique(first, last)` with an allocator — rb_tree.h:866-873: each element is inserted with the hint `end()` -/
def insertList (lt : K → K → Bool) (alloc : Heap (K × V) → Ptr) : List (K × V) → Heap (K × V) → Tree0 → Option (Heap (K × V) × Tree0)
  | [], h, t => pure (h, t)
  | v :: l, h, t => do
    let (_, h, t) ← emplaceHint lt h t t.hd (alloc h) v
    insertList lt alloc l h t

/-- one operation of the client -/
def runOp (lt : K → K → Bool) (d : V) (alloc : Heap (K × V) → Ptr) : Op K V → Heap (K × V) → Tree0 → Option (Out K V × Heap (K × V) × Tree0)
  | .insert v, h, t => do
    let (r, h, t) ← insertUnique lt h t (alloc h) v
    pure (.flag r.2, h, t)
  | .insertAt i v, h, t => do
    let p ← nth h t i
    let (_, h, t) ← emplaceHint lt h t p (alloc h) v
    pure (.none, h, t)
  | .insertList l, h, t => do
    let (h, t) ← insertList lt alloc l h t
    pure (.none, h, t)
  | .assign k v, h, t => do
    let (p, h, t) ← index lt h t (alloc h) k d
    let h ← setSecond h p v
    pure (.none, h, t)
  | .get k, h, t => do
    let (p, h, t) ← index lt h t (alloc h) k d
    let x ← deref h p
    pure (.value (some x.2), h, t)
  | .erase k, h, t => do
    let (n, h, t) ← eraseUnique lt h t k
    pure (.num n, h, t)
  | .eraseAt i, h, t => do
    let p ← nth h t i
    if p = t.hd then pure (.flag false, h, t)
    else do
      let (_, h, t) ← erase h t p
      pure (.flag true, h, t)
  | .eraseRange i j, h, t =>
    if i ≤ j then do
      let p ← nth h t i
      let q ← nth h t j
      let (h, t) ← eraseRange h t p q
      pure (.none, h, t)
    else pure (.none, h, t)
  | .clear, h, t => do
    let (h, t) ← clear h t
    pure (.none, h, t)
  | .find k, h, t => do
    let p ← find lt h t k
    let x ← look h t p
    pure (.item x, h, t)
  | .lower k, h, t => do
    let p ← lowerBound lt h t k
    let x ← look h t p
    pure (.item x, h, t)
  | .upper k, h, t => do
    let p ← upperBound lt h t k
    let x ← look h t p
    pure (.item x, h, t)
  | .at k, h, t => do
    let x ← at' lt h t k
    pure (.value x, h, t)
  | .count k, h, t => do
    let p ← find lt h t k
    pure (.num (if p ≠ t.hd then 1 else 0), h, t)
  | .size, h, t => pure (.num t.count, h, t)
  | .items, h, t => do
    let b ← begin' h t
    let l ← walk h t (t.count + 1) b
    pure (.items l, h, t)
  | .itemsBack, h, t => do
    let l ← back h t (t.count + 1) t.hd
    pure (.items l, h, t)

/-- a history -/
def runAll (lt : K → K → Bool) (d : V) (alloc : Nat → Heap (K × V) → Ptr) : Nat → List (Op K V) → Heap (K × V) → Tree0 → Option (List (Out K V) × Heap (K × V) × Tree0)
  | _, [], h, t => pure ([], h, t)
  | n, o :: ops, h, t => do
    let (out, h, t) ← runOp lt d (alloc n) o h t
    let (outs, h, t) ← runAll lt d alloc (n + 1) ops h t
    pure (out :: outs, h, t)

end Verif.Rb
