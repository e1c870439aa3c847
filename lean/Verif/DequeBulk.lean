import Verif.Deque
/-!
# Operations of the deque on several elements (`mylib/mystl/deque.h`)

Same memory model as `Deque.lean`.  `uninitialized_copy` and
`uninitialized_fill` are the versions which construct (uninitialized.h 26-44,
102-118); for trivially copyable types the library assigns instead, which has
the same effect on the cells.  Ranges that are inserted or assigned come from
outside the deque and are given by the list of their values.  `catch` blocks
are not modelled.
-/
namespace Verif.Deque

variable {α : Type}

/-- uninitialized.h 26-53: `uninitialized_copy` of `k` elements of the deque;
the second component is the iterator returned. -/
def uninitCopy (B : ℕ) (s : St α) (src dst : It) : ℕ → Option (St α × It)
  | 0 => some (s, dst)
  | k + 1 => do
    let v ← read B s src
    let s ← construct B s dst.buf dst.off v
    let src ← inc B s src
    let dst ← inc B s dst
    uninitCopy B s src dst k

/-- uninitialized.h 26-53: `uninitialized_copy` of values from outside. -/
def uninitList (B : ℕ) (s : St α) (dst : It) : List α → Option (St α × It)
  | [] => some (s, dst)
  | v :: vs => do
    let s ← construct B s dst.buf dst.off v
    let dst ← inc B s dst
    uninitList B s dst vs

/-- uninitialized.h 102-160: `uninitialized_fill` and `uninitialized_fill_n`. -/
def uninitFill (B : ℕ) (s : St α) (dst : It) (v : α) : ℕ → Option (St α × It)
  | 0 => some (s, dst)
  | k + 1 => do
    let s ← construct B s dst.buf dst.off v
    let dst ← inc B s dst
    uninitFill B s dst v k

/-- algobase.h 379-387, 425-430: `fill` of `k` elements. -/
def fillUp (B : ℕ) (s : St α) (dst : It) (v : α) : ℕ → Option (St α)
  | 0 => some s
  | k + 1 => do
    let s ← write B s dst v
    let dst ← inc B s dst
    fillUp B s dst v k

/-- algobase.h 86-96: `copy` of values from outside; the second component is
the iterator returned. -/
def writeList (B : ℕ) (s : St α) (dst : It) : List α → Option (St α × It)
  | [] => some (s, dst)
  | v :: vs => do
    let s ← write B s dst v
    let dst ← inc B s dst
    writeList B s dst vs

/-- deque.h 742-745: `n` copies before the first element. -/
def fillFront (B : ℕ) (s : St α) (n : ℕ) (v : α) : Option (St α) := do
  let s ← requireFront B s n
  let newBegin ← add B s s.b (-(n : ℤ))
  let r ← uninitFill B s newBegin v n
  some { r.1 with b := newBegin }

/-- deque.h 749-752: `n` copies behind the last element. -/
def fillBack (B : ℕ) (s : St α) (n : ℕ) (v : α) : Option (St α) := do
  let s ← requireBack B s n
  let newEnd ← add B s s.e n
  let r ← uninitFill B s s.e v n
  some { r.1 with e := newEnd }

/-- deque.h 1086-1108: the first branch of `fill_insert`. -/
def fillMidFront (B : ℕ) (s : St α) (before n : ℕ) (v : α) : Option (St α) := do
  let s ← requireFront B s n
  let newBegin ← add B s s.b (-(n : ℤ))
  let position ← add B s s.b before
  if n ≤ before then do
    let beginN ← add B s s.b n
    let r ← uninitCopy B s s.b newBegin (diff B beginN s.b).toNat
    let t ← copyUp B { r.1 with b := newBegin } beginN s.b (diff B position beginN).toNat
    let p ← add B t position (-(n : ℤ))
    fillUp B t p v (diff B position p).toNat
  else do
    let r ← uninitCopy B s s.b newBegin (diff B position s.b).toNat
    let q ← uninitFill B r.1 r.2 v (diff B s.b r.2).toNat
    fillUp B { q.1 with b := newBegin } s.b v (diff B position s.b).toNat

/-- deque.h 1119-1143: the second branch of `fill_insert`. -/
def fillMidBack (B : ℕ) (s : St α) (after n : ℕ) (v : α) : Option (St α) := do
  let s ← requireBack B s n
  let newEnd ← add B s s.e n
  let position ← add B s s.e (-(after : ℤ))
  if n < after then do
    let endN ← add B s s.e (-(n : ℤ))
    let r ← uninitCopy B s endN s.e (diff B s.e endN).toNat
    let t ← copyDown B { r.1 with e := newEnd } endN s.e (diff B endN position).toNat
    let p ← add B t position n
    fillUp B t position v (diff B p position).toNat
  else do
    let p ← add B s position n
    let r ← uninitFill B s s.e v (diff B p s.e).toNat
    let p ← add B r.1 position n
    let q ← uninitCopy B r.1 position p (diff B s.e position).toNat
    fillUp B { q.1 with e := newEnd } position v (diff B s.e position).toNat

/-- deque.h 737-758, 1077-1153: `insert(begin() + i, n, value)`. -/
def insertFill (B : ℕ) (s : St α) (i n : ℕ) (v : α) : Option (St α) := do
  let pos ← add B s s.b i
  if itEq pos s.b then fillFront B s n v
  else if itEq pos s.e then fillBack B s n v
  else
    if (diff B pos s.b).toNat < (size B s).toNat / 2 then fillMidFront B s (diff B pos s.b).toNat n v
    else fillMidBack B s ((size B s).toNat - (diff B pos s.b).toNat) n v

/-- deque.h 1263-1278: a range before the first element. -/
def copyFront (B : ℕ) (s : St α) (vs : List α) : Option (St α) := do
  let s ← requireFront B s vs.length
  let newBegin ← add B s s.b (-(vs.length : ℤ))
  let r ← uninitList B s newBegin vs
  some { r.1 with b := newBegin }

/-- deque.h 1279-1294: a range behind the last element. -/
def copyBack (B : ℕ) (s : St α) (vs : List α) : Option (St α) := do
  let s ← requireBack B s vs.length
  let newEnd ← add B s s.e vs.length
  let r ← uninitList B s s.e vs
  some { r.1 with e := newEnd }

/-- deque.h 1164-1192: the first branch of `copy_insert`. -/
def copyMidFront (B : ℕ) (s : St α) (before : ℕ) (vs : List α) : Option (St α) := do
  let s ← requireFront B s vs.length
  let newBegin ← add B s s.b (-(vs.length : ℤ))
  let position ← add B s s.b before
  if vs.length ≤ before then do
    let beginN ← add B s s.b vs.length
    let r ← uninitCopy B s s.b newBegin (diff B beginN s.b).toNat
    let t ← copyUp B { r.1 with b := newBegin } beginN s.b (diff B position beginN).toNat
    let p ← add B t position (-(vs.length : ℤ))
    (writeList B t p vs).map Prod.fst
  else do
    let r ← uninitCopy B s s.b newBegin (diff B position s.b).toNat
    let q ← uninitList B r.1 r.2 (vs.take (vs.length - before))
    (writeList B { q.1 with b := newBegin } s.b (vs.drop (vs.length - before))).map Prod.fst

/-- deque.h 1200-1229: the second branch of `copy_insert`. -/
def copyMidBack (B : ℕ) (s : St α) (after : ℕ) (vs : List α) : Option (St α) := do
  let s ← requireBack B s vs.length
  let newEnd ← add B s s.e vs.length
  let position ← add B s s.e (-(after : ℤ))
  if vs.length < after then do
    let endN ← add B s s.e (-(vs.length : ℤ))
    let r ← uninitCopy B s endN s.e (diff B s.e endN).toNat
    let t ← copyDown B { r.1 with e := newEnd } endN s.e (diff B endN position).toNat
    (writeList B t position vs).map Prod.fst
  else do
    let r ← uninitList B s s.e (vs.drop after)
    let q ← uninitCopy B r.1 position r.2 (diff B s.e position).toNat
    (writeList B { q.1 with e := newEnd } position (vs.take after)).map Prod.fst

/-- deque.h 1156-1234, 1255-1299: `insert(begin() + i, first, last)`. -/
def insertRange (B : ℕ) (s : St α) (i : ℕ) (vs : List α) : Option (St α) := do
  let pos ← add B s s.b i
  if vs.length = 0 then some s
  else if itEq pos s.b then copyFront B s vs
  else if itEq pos s.e then copyBack B s vs
  else
    if (diff B pos s.b).toNat < (size B s).toNat / 2 then copyMidFront B s (diff B pos s.b).toNat vs
    else copyMidBack B s ((size B s).toNat - (diff B pos s.b).toNat) vs

/-- construct.h 62-78 `destroy(x.cur, y.cur)` on *pointers*, as `erase` calls
it: for a trivially destructible type (`triv`) nothing is executed, the
elements from `x` to `y` just end; otherwise the loop runs from pointer to
pointer and is undefined unless both lie in one buffer. -/
def destroySpan (triv : Bool) (B : ℕ) (s : St α) (x y : It) : Option (St α) :=
  if triv then
    some { s with mem := fun id o =>
      if (∃ n, n < s.mapSize ∧ s.map n = some id ∧ x.node * B + x.off ≤ n * B + o ∧ n * B + o < y.node * B + y.off) then none else s.mem id o }
  else if x.buf = y.buf ∧ x.off ≤ y.off then destroyRange B s x.buf x.off (y.off - x.off)
  else none

/-- deque.h 792-800: `erase(first, last)`, closing the gap from the front. -/
def eraseFront (triv : Bool) (B : ℕ) (s : St α) (first last : It) (len : ℕ) : Option (St α) := do
  let t ← copyDown B s first last (diff B first s.b).toNat
  let newBegin ← add B t t.b len
  let t ← destroySpan triv B t t.b newBegin
  some { t with b := newBegin }

/-- deque.h 801-807: `erase(first, last)`, closing the gap from the back. -/
def eraseBack (triv : Bool) (B : ℕ) (s : St α) (first last : It) (len : ℕ) : Option (St α) := do
  let t ← copyUp B s last first (diff B s.e last).toNat
  let newEnd ← add B t t.e (-(len : ℤ))
  let t ← destroySpan triv B t newEnd t.e
  some { t with e := newEnd }

/-- deque.h 782-811: `erase(begin() + i, begin() + j)`. -/
def eraseRange (triv : Bool) (B : ℕ) (s : St α) (i j : ℕ) : Option (St α) := do
  let first ← add B s s.b i
  let last ← add B s s.b j
  if itEq first s.b ∧ itEq last s.e then clear B s
  else
    if (diff B first s.b).toNat < ((size B s).toNat - (diff B last first).toNat) / 2 then eraseFront triv B s first last (diff B last first).toNat
    else eraseBack triv B s first last (diff B last first).toNat

/-- deque.h 520-532: `resize(n, value)`. -/
def resize (triv : Bool) (B : ℕ) (s : St α) (n : ℕ) (v : α) : Option (St α) :=
  if n < (size B s).toNat then eraseRange triv B s n (size B s).toNat
  else insertFill B s (size B s).toNat (n - (size B s).toNat) v

/-- deque.h 982-997: `assign(n, value)`. -/
def assignFill (triv : Bool) (B : ℕ) (s : St α) (n : ℕ) (v : α) : Option (St α) :=
  if (size B s).toNat < n then do
    let t ← fillUp B s s.b v (diff B s.e s.b).toNat
    insertFill B t (size B t).toNat (n - (size B t).toNat) v
  else do
    let t ← eraseRange triv B s n (size B s).toNat
    fillUp B t t.b v (diff B t.e t.b).toNat

/-- deque.h 1021-1040 `assign(first, last)` with forward iterators, and
484-503 `operator=`: existing elements are overwritten, the rest is inserted or
erased. -/
def assignList (triv : Bool) (B : ℕ) (s : St α) (vs : List α) : Option (St α) :=
  if (size B s).toNat < vs.length then do
    let r ← writeList B s s.b (vs.take (size B s).toNat)
    insertRange B r.1 (size B r.1).toNat (vs.drop (size B s).toNat)
  else do
    let r ← writeList B s s.b vs
    eraseRange triv B r.1 (diff B r.2 r.1.b).toNat (size B r.1).toNat

end Verif.Deque
