import Verif.RbClient
import Verif.MultiSpec

/-!
# `multimap` and `multiset`

The functions of `rb_tree` with keys that may occur several times, and a client of them.  `multimap` (map.h:306-490) and `multiset` (set.h:250-425) only pass their arguments on to these functions; in a `multiset`
the element is the key (here: `V = Unit`).
-/

namespace Verif.Rb

open Verif.MultiSpec
open Verif.MapSpec (Out)

variable {K V : Type} {α : Type}

/-- `get_insert_multi_pos` — rb_tree.h:1468-1483: the parent of the place and whether the place is on its left; the loop is that of `get_insert_unique_pos` -/
def insertMultiPos (lt : K → K → Bool) (h : Heap (K × V)) (t : Tree0) (key : K) : Option (Ptr × Bool) := do
  let r ← root h t.hd
  posLoop lt h key (t.count + 1) t.hd true r

/-- `insert_multi(value)`, `emplace_multi`, `multimap::insert`, `multimap::emplace` — rb_tree.h:1032-1043, 1155-1164, map.h:431-450; `np` is the address the allocator returns -/
def insertMulti (lt : K → K → Bool) (h : Heap (K × V)) (t : Tree0) (np : Ptr) (v : K × V) : Option (Ptr × Heap (K × V) × Tree0) := do
  let h := createNode h np v
  let res ← insertMultiPos lt h t v.1
  insertNodeAt h t res.1 np res.2

/-- the end of the functions with a hint — rb_tree.h:1082-1083, 1095-1096, 1608-1609 -/
def hintEndMulti (lt : K → K → Bool) (h : Heap (K × V)) (t : Tree0) (np : Ptr) (key : K) : Option (Ptr × Heap (K × V) × Tree0) := do
  let pos ← insertMultiPos lt h t key
  insertNodeAt h t pos.1 np pos.2

/-- `insert_multi_use_hint` — rb_tree.h:1587-1610 -/
def insertMultiUseHint (lt : K → K → Bool) (h : Heap (K × V)) (t : Tree0) (hint np : Ptr) (key : K) : Option (Ptr × Heap (K × V) × Tree0) := do
  let before ← dec (t.count + 1) h hint
  let kb ← keyAt h before
  let cb ← h before
  let kh ← (if lt key kb = false then (keyAt h hint).map (fun k => !lt k key) else some false)
  let ch ← h hint
  if kh ∧ cb.right = 0 then insertNodeAt h t before np false
  else if kh ∧ ch.left = 0 then insertNodeAt h t hint np true
  else hintEndMulti lt h t np key

/-- `emplace_multi_use_hint`, `insert_multi(hint, value)`, `multimap::emplace_hint` — rb_tree.h:1062-1102, 833-840, map.h:437-456 -/
def emplaceHintMulti (lt : K → K → Bool) (h : Heap (K × V)) (t : Tree0) (hint np : Ptr) (v : K × V) : Option (Ptr × Heap (K × V) × Tree0) := do
  let h := createNode h np v
  if t.count = 0 then insertNodeAt h t t.hd np true
  else do
    let ch ← h t.hd
    if hint = ch.left then do
      let k ← keyAt h hint
      if lt v.1 k then insertNodeAt h t hint np true else hintEndMulti lt h t np v.1
    else if hint = t.hd then do
      let k ← keyAt h ch.right
      if lt v.1 k = false then insertNodeAt h t ch.right np false else hintEndMulti lt h t np v.1
    else insertMultiUseHint lt h t hint np v.1

/-- `insert_multi(first, last)` — rb_tree.h:842-849: each element is inserted with the hint `end()` -/
def insertListMulti (lt : K → K → Bool) (alloc : Heap (K × V) → Ptr) : List (K × V) → Heap (K × V) → Tree0 → Option (Heap (K × V) × Tree0)
  | [], h, t => pure (h, t)
  | v :: l, h, t => do
    let (_, h, t) ← emplaceHintMulti lt h t t.hd (alloc h) v
    insertListMulti lt alloc l h t

/-- `mystl::distance(first, last)` on these iterators — iterator.h:155-167 -/
def distance (h : Heap α) (t : Tree0) : Nat → Ptr → Ptr → Option Nat
  | 0, _, _ => none
  | n + 1, first, last =>
    if first = last then pure 0
    else do
      let next ← inc (t.count + 1) h first
      let m ← distance h t n next last
      pure (m + 1)

/-- `equal_range_multi(key)` — rb_tree.h:906-915 -/
def equalRangeMulti (lt : K → K → Bool) (h : Heap (K × V)) (t : Tree0) (key : K) : Option (Ptr × Ptr) := do
  let p ← lowerBound lt h t key
  let q ← upperBound lt h t key
  pure (p, q)

/-- `count_multi(key)` — rb_tree.h:889-893 -/
def countMulti (lt : K → K → Bool) (h : Heap (K × V)) (t : Tree0) (key : K) : Option Nat := do
  let p ← equalRangeMulti lt h t key
  distance h t (t.count + 1) p.1 p.2

/-- `erase_multi(key)` — rb_tree.h:1197-1207 -/
def eraseMulti (lt : K → K → Bool) (h : Heap (K × V)) (t : Tree0) (key : K) : Option (Nat × Heap (K × V) × Tree0) := do
  let p ← equalRangeMulti lt h t key
  let n ← distance h t (t.count + 1) p.1 p.2
  let (h, t) ← eraseRange h t p.1 p.2
  pure (n, h, t)

/-- `for (; first != last; ++first)`: the pairs seen -/
def walkTo (h : Heap α) (t : Tree0) : Nat → Ptr → Ptr → Option (List α)
  | 0, _, _ => none
  | n + 1, first, last =>
    if first = last then pure []
    else do
      let v ← deref h first
      let next ← inc (t.count + 1) h first
      let l ← walkTo h t n next last
      pure (v :: l)

/-- the position of an iterator: `distance(begin(), it)` -/
def position (h : Heap α) (t : Tree0) (p : Ptr) : Option Nat := do
  let b ← begin' h t
  distance h t (t.count + 1) b p

/-- one operation of the client -/
def runOpM (lt : K → K → Bool) (alloc : Heap (K × V) → Ptr) : Op K V → Heap (K × V) → Tree0 → Option (Out K V × Heap (K × V) × Tree0)
  | .insert v, h, t => do
    let (p, h, t) ← insertMulti lt h t (alloc h) v
    let n ← position h t p
    pure (.num n, h, t)
  | .insertAt i v, h, t => do
    let p ← nth h t i
    let (p, h, t) ← emplaceHintMulti lt h t p (alloc h) v
    let n ← position h t p
    pure (.num n, h, t)
  | .insertList l, h, t => do
    let (h, t) ← insertListMulti lt alloc l h t
    pure (.none, h, t)
  | .erase k, h, t => do
    let (n, h, t) ← eraseMulti lt h t k
    pure (.num n, h, t)
  | .eraseAt i, h, t => do
    let p ← nth h t i
    if p = t.hd then pure (.flag false, h, t)
    else do
      let (_, h, t) ← erase h t p
      pure (.flag true, h, t)
  | .eraseRange i j, h, t =>
    if i ≤ j then do
      let p ← nth h t i
      let q ← nth h t j
      let (h, t) ← eraseRange h t p q
      pure (.none, h, t)
    else pure (.none, h, t)
  | .clear, h, t => do
    let (h, t) ← clear h t
    pure (.none, h, t)
  | .find k, h, t => do
    let p ← find lt h t k
    let x ← look h t p
    pure (.item x, h, t)
  | .lower k, h, t => do
    let p ← lowerBound lt h t k
    let n ← position h t p
    pure (.num n, h, t)
  | .upper k, h, t => do
    let p ← upperBound lt h t k
    let n ← position h t p
    pure (.num n, h, t)
  | .equalRange k, h, t => do
    let p ← equalRangeMulti lt h t k
    let l ← walkTo h t (t.count + 1) p.1 p.2
    pure (.items l, h, t)
  | .count k, h, t => do
    let n ← countMulti lt h t k
    pure (.num n, h, t)
  | .size, h, t => pure (.num t.count, h, t)
  | .items, h, t => do
    let b ← begin' h t
    let l ← walk h t (t.count + 1) b
    pure (.items l, h, t)
  | .itemsBack, h, t => do
    let l ← back h t (t.count + 1) t.hd
    pure (.items l, h, t)

/-- a history -/
def runAllM (lt : K → K → Bool) (alloc : Nat → Heap (K × V) → Ptr) : Nat → List (Op K V) → Heap (K × V) → Tree0 → Option (List (Out K V) × Heap (K × V) × Tree0)
  | _, [], h, t => pure ([], h, t)
  | n, o :: ops, h, t => do
    let (out, h, t) ← runOpM lt (alloc n) o h t
    let (outs, h, t) ← runAllM lt alloc (n + 1) ops h t
    pure (out :: outs, h, t)

end Verif.Rb
