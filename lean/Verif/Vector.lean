import Mathlib.Data.Int.Notation

/-!
# `mystl::vector` — /repo/mylib/mystl/vector.h

A vector is its allocated cells together with `end_ - begin_` (`size`) and `cap_ - begin_` (`cap`).  A cell is raw memory, holds a
value, or holds a moved-from object.  `triv` tells whether the element type is trivially copyable: then moving is copying.
Reading raw or moved-from cells, assigning to or destroying raw cells, and touching anything outside the allocated cells is an error
(`Err.ub`); `Err.length` is the `length_error` exception.  Constructing over a cell that is not raw is allowed (the code does it: it
leaks the old object of a non-trivial type).  Failure of the allocator (`bad_alloc`) is not modelled, nor is debug-mode checking.
`mx` is `max_size()`.
-/

namespace Verif.Vector

/-- a cell of allocated memory -/
inductive Cell (α : Type) where
  | raw
  | live (v : α)
  | moved

/-- ways to fail -/
inductive Err where
  | ub
  | length
deriving DecidableEq

/-- outcome of an operation -/
abbrev M := Except Err

/-- vector.h:67-70 -/
structure Vec (α : Type) where
  mem : List (Cell α)
  size : Nat
  cap : Nat

variable {α : Type}

abbrev Mem (α : Type) := List (Cell α)

/-- read `*p` -/
def rd (m : Mem α) (i : Nat) : M α :=
  match m[i]? with
  | some (.live v) => .ok v
  | _ => .error .ub

/-- `construct(p, v)` -/
def construct (m : Mem α) (i : Nat) (v : α) : M (Mem α) := if i < m.length then .ok (m.set i (.live v)) else .error .ub

/-- `*p = v` -/
def assign (m : Mem α) (i : Nat) (v : α) : M (Mem α) :=
  match m[i]? with
  | some .raw => .error .ub
  | some _ => .ok (m.set i (.live v))
  | none => .error .ub

/-- `std::move(*p)` used as a source -/
def moveOut (triv : Bool) (m : Mem α) (i : Nat) : M (α × Mem α) := do
  let v ← rd m i
  pure (v, if triv then m else m.set i .moved)

/-- `destroy(p)` -/
def destroy (m : Mem α) (i : Nat) : M (Mem α) :=
  match m[i]? with
  | some .raw => .error .ub
  | some _ => .ok (m.set i .raw)
  | none => .error .ub

/-- `destroy(p, p + n)` — construct.h:61-76 -/
def destroyN : Nat → Nat → Mem α → M (Mem α)
  | 0, _, m => .ok m
  | n + 1, i, m => do destroyN n (i + 1) (← destroy m i)

/-- `uninitialized_fill_n(p, n, v)` — uninitialized.h:138-176 -/
def uninitFill (v : α) : Nat → Nat → Mem α → M (Mem α)
  | 0, _, m => .ok m
  | n + 1, i, m => do uninitFill v n (i + 1) (← construct m i v)

/-- `fill_n(p, n, v)` — algobase.h -/
def fillN (v : α) : Nat → Nat → Mem α → M (Mem α)
  | 0, _, m => .ok m
  | n + 1, i, m => do fillN v n (i + 1) (← assign m i v)

/-- `uninitialized_copy` of the values of another sequence — uninitialized.h:19-53 -/
def uninitCopy : List α → Nat → Mem α → M (Mem α)
  | [], _, m => .ok m
  | v :: l, i, m => do uninitCopy l (i + 1) (← construct m i v)

/-- `copy` of the values of another sequence over existing elements — algobase.h:72-124 -/
def copyOver : List α → Nat → Mem α → M (Mem α)
  | [], _, m => .ok m
  | v :: l, i, m => do copyOver l (i + 1) (← assign m i v)

/-- `uninitialized_copy(p + s, p + s + n, p + d)` inside one block -/
def uninitCopyIn : Nat → Nat → Nat → Mem α → M (Mem α)
  | 0, _, _, m => .ok m
  | n + 1, s, d, m => do
    let v ← rd m s
    uninitCopyIn n (s + 1) (d + 1) (← construct m d v)

/-- `copy_backward(p + s, p + s + n, p + d + n)` — algobase.h:129-182 -/
def copyBackward (s d : Nat) : Nat → Mem α → M (Mem α)
  | 0, m => .ok m
  | n + 1, m => do
    let v ← rd m (s + n)
    copyBackward s d n (← assign m (d + n) v)

/-- `move_backward(p + s, p + s + n, p + d + n)` — algobase.h -/
def moveBackward (triv : Bool) (s d : Nat) : Nat → Mem α → M (Mem α)
  | 0, m => .ok m
  | n + 1, m => do
    let (v, m) ← moveOut triv m (s + n)
    moveBackward triv s d n (← assign m (d + n) v)

/-- `move(p + s, p + s + n, p + d)` — algobase.h -/
def moveForward (triv : Bool) : Nat → Nat → Nat → Mem α → M (Mem α)
  | 0, _, _, m => .ok m
  | n + 1, s, d, m => do
    let (v, m) ← moveOut triv m s
    moveForward triv n (s + 1) (d + 1) (← assign m d v)

/-- `uninitialized_move(p + s, p + s + n, p + d)` inside one block — uninitialized.h -/
def uninitMoveIn (triv : Bool) : Nat → Nat → Nat → Mem α → M (Mem α)
  | 0, _, _, m => .ok m
  | n + 1, s, d, m => do
    let (v, m) ← moveOut triv m s
    uninitMoveIn triv n (s + 1) (d + 1) (← construct m d v)

/-- `uninitialized_move(p + s, p + s + n, q + d)` from one block to another: old block, new block -/
def uninitMoveTo (triv : Bool) : Nat → Nat → Nat → Mem α → Mem α → M (Mem α × Mem α)
  | 0, _, _, m, q => .ok (m, q)
  | n + 1, s, d, m, q => do
    let (v, m) ← moveOut triv m s
    uninitMoveTo triv n (s + 1) (d + 1) m (← construct q d v)

/-- `allocate(n)` -/
def allocate (n : Nat) : Mem α := List.replicate n .raw

/-- an argument `const T& value`: a separate object, or an element of the same vector -/
inductive Ref (α : Type) where
  | copy (v : α)
  | elem (i : Nat)

/-- reading through the reference -/
def Ref.get (m : Mem α) : Ref α → M α
  | .copy v => .ok v
  | .elem i => rd m i

/-- `vector()` — vector.h:74-75, 553-569 -/
def empty16 : Vec α := ⟨allocate 16, 0, 16⟩

/-- a moved-from vector — vector.h:96-104 -/
def null : Vec α := ⟨[], 0, 0⟩

/-- `vector(n, value)` — vector.h:80-81, 571-597 -/
def fillInit (n : Nat) (v : α) : M (Vec α) := do
  let cap := max 16 n
  pure ⟨← uninitFill v n 0 (allocate cap), n, cap⟩

/-- `vector(first, last)`, `vector(const vector&)`, `vector(initializer_list)` — vector.h:83-94, 106-109, 600-610 -/
def rangeInit (l : List α) : M (Vec α) := do
  let cap := max l.length 16
  pure ⟨← uninitCopy l 0 (allocate cap), l.length, cap⟩

/-- the elements, as another object reads them -/
def contents : Nat → Nat → Mem α → M (List α)
  | 0, _, _ => .ok []
  | n + 1, i, m => do
    let v ← rd m i
    pure (v :: (← contents n (i + 1) m))

/-- `operator=(const vector& rhs)`, `this != &rhs` — vector.h:328-354: the third case sets `cap_` to the new end -/
def copyAssign (a b : Vec α) : M (Vec α) := do
  let l ← contents b.size 0 b.mem
  if l.length > a.cap then do
    let t ← rangeInit l
    let _ ← destroyN a.size 0 a.mem
    pure t
  else if a.size ≥ l.length then do
    let m ← copyOver l 0 a.mem
    let m ← destroyN (a.size - l.length) l.length m
    pure ⟨m, l.length, a.cap⟩
  else do
    let m ← copyOver (l.take a.size) 0 a.mem
    let m ← uninitCopy (l.drop a.size) a.size m
    pure ⟨m, l.length, l.length⟩

/-- `operator=(vector&& rhs)`, `this != &rhs` — vector.h:356-368: the new value of `*this`; `rhs` becomes `null` -/
def moveAssign (a b : Vec α) : M (Vec α) := do
  let _ ← destroyN a.size 0 a.mem
  pure b

/-- `reserve(n)` — vector.h:370-386 -/
def reserve (triv : Bool) (mx : Nat) (n : Nat) (a : Vec α) : M (Vec α) := do
  if a.cap < n then
    if n > mx then .error .length
    else do
      let (_, q) ← uninitMoveTo triv a.size 0 0 a.mem (allocate n)
      pure ⟨q, a.size, n⟩
  else pure a

/-- `shrink_to_fit()` — vector.h:388-396, 867-885 -/
def shrink (triv : Bool) (a : Vec α) : M (Vec α) := do
  if a.size < a.cap then do
    let (_, q) ← uninitMoveTo triv a.size 0 0 a.mem (allocate a.size)
    pure ⟨q, a.size, a.size⟩
  else pure a

/-- `get_new_cap(add)` — vector.h:622-638 -/
def newCap (mx old add : Nat) : M Nat :=
  if old > mx - add then .error .length
  else if old > mx - old / 2 then .ok (if old + add > mx - 16 then old + add else old + add + 16)
  else .ok (if old = 0 then max add 16 else max (old + old / 2) (old + add))

/-- `reallocate_insert(pos, value)`, `reallocate_emplace` — vector.h:712-763: the elements before `pos` are moved first, then the
reference is read -/
def reallocInsert (triv : Bool) (mx : Nat) (pos : Nat) (value : Ref α) (a : Vec α) : M (Vec α) := do
  let cap ← newCap mx a.cap 1
  let (m, q) ← uninitMoveTo triv pos 0 0 a.mem (allocate cap)
  let v ← value.get m
  let q ← construct q pos v
  let (m, q) ← uninitMoveTo triv (a.size - pos) pos (pos + 1) m q
  let _ ← destroyN a.size 0 m
  pure ⟨q, a.size + 1, cap⟩

/-- `push_back(const T&)` — vector.h:444-457; `emplace_back`, `push_back(T&&)` — vector.h:429-441, 244-245 -/
def pushBack (triv : Bool) (mx : Nat) (value : Ref α) (a : Vec α) : M (Vec α) := do
  if a.size ≠ a.cap then do
    let v ← value.get a.mem
    pure ⟨← construct a.mem a.size v, a.size + 1, a.cap⟩
  else reallocInsert triv mx a.size value a

/-- `pop_back()` — vector.h:459-465 -/
def popBack (a : Vec α) : M (Vec α) := do
  if a.size = 0 then .error .ub
  else pure ⟨← destroy a.mem (a.size - 1), a.size - 1, a.cap⟩

/-- `insert(pos, const T&)` — vector.h:468-496: the value is copied before elements are shifted -/
def insert (triv : Bool) (mx : Nat) (pos : Nat) (value : Ref α) (a : Vec α) : M (Vec α × Nat) := do
  if a.size ≠ a.cap ∧ pos = a.size then do
    let v ← value.get a.mem
    pure (⟨← construct a.mem a.size v, a.size + 1, a.cap⟩, pos)
  else if a.size ≠ a.cap then do
    let x ← rd a.mem (a.size - 1)
    let m ← construct a.mem a.size x
    let v ← value.get m
    let m ← copyBackward pos (pos + 1) (a.size - 1 - pos) m
    let m ← assign m pos v
    pure (⟨m, a.size + 1, a.cap⟩, pos)
  else do
    let a ← reallocInsert triv mx pos value a
    pure (a, pos)

/-- `emplace(pos, arg)` — vector.h:399-426 (and `insert(pos, T&&)`, 250-251): the argument is read after the elements are shifted -/
def emplace (triv : Bool) (mx : Nat) (pos : Nat) (value : Ref α) (a : Vec α) : M (Vec α × Nat) := do
  if a.size ≠ a.cap ∧ pos = a.size then do
    let v ← value.get a.mem
    pure (⟨← construct a.mem a.size v, a.size + 1, a.cap⟩, pos)
  else if a.size ≠ a.cap then do
    let x ← rd a.mem (a.size - 1)
    let m ← construct a.mem a.size x
    let m ← copyBackward pos (pos + 1) (a.size - 1 - pos) m
    let v ← value.get m
    let m ← assign m pos v
    pure (⟨m, a.size + 1, a.cap⟩, pos)
  else do
    let a ← reallocInsert triv mx pos value a
    pure (a, pos)

/-- `erase(pos)` — vector.h:498-508 -/
def eraseAt (triv : Bool) (pos : Nat) (a : Vec α) : M (Vec α × Nat) := do
  if a.size ≤ pos then .error .ub
  else do
    let m ← moveForward triv (a.size - (pos + 1)) (pos + 1) pos a.mem
    let m ← destroy m (a.size - 1)
    pure (⟨m, a.size - 1, a.cap⟩, pos)

/-- `erase(first, last)` — vector.h:511-521; `clear()` — 270 -/
def eraseRange (triv : Bool) (first last : Nat) (a : Vec α) : M (Vec α × Nat) := do
  if a.size < last ∨ last < first then .error .ub
  else do
    let n := last - first
    let m ← moveForward triv (a.size - last) last first a.mem
    let m ← destroyN n (first + (a.size - last)) m
    pure (⟨m, a.size - n, a.cap⟩, first)

/-- `insert(pos, n, value)` — vector.h:253-257, 765-814: in the reallocating branch the reference is read after moving -/
def fillInsert (triv : Bool) (mx : Nat) (pos n : Nat) (value : Ref α) (a : Vec α) : M (Vec α × Nat) := do
  if n = 0 then pure (a, pos)
  else do
    let v ← value.get a.mem
    if a.cap - a.size ≥ n then do
      let after := a.size - pos
      if after > n then do
        let m ← uninitCopyIn n (a.size - n) a.size a.mem
        let m ← moveBackward triv pos (pos + n) (a.size - n - pos) m
        let m ← uninitFill v n pos m
        pure (⟨m, a.size + n, a.cap⟩, pos)
      else do
        let m ← uninitFill v (n - after) a.size a.mem
        let m ← uninitMoveIn triv after pos (a.size + (n - after)) m
        let m ← uninitFill v after pos m
        pure (⟨m, a.size + (n - after) + after, a.cap⟩, pos)
    else do
      let cap ← newCap mx a.cap n
      let (m, q) ← uninitMoveTo triv pos 0 0 a.mem (allocate cap)
      let v ← value.get m
      let q ← uninitFill v n pos q
      let (_, q) ← uninitMoveTo triv (a.size - pos) pos (pos + n) m q
      pure (⟨q, a.size + n, cap⟩, pos)

/-- `insert(pos, first, last)` from another sequence — vector.h:259-265, 817-863 -/
def copyInsert (triv : Bool) (mx : Nat) (pos : Nat) (l : List α) (a : Vec α) : M (Vec α) := do
  if l = [] then pure a
  else do
    let n := l.length
    if a.cap - a.size ≥ n then do
      let after := a.size - pos
      if after > n then do
        let m ← uninitCopyIn n (a.size - n) a.size a.mem
        let m ← moveBackward triv pos (pos + n) (a.size - n - pos) m
        let m ← uninitCopy l pos m
        pure ⟨m, a.size + n, a.cap⟩
      else do
        let m ← uninitCopy (l.drop after) a.size a.mem
        let m ← uninitMoveIn triv after pos (a.size + (n - after)) m
        let m ← uninitCopy (l.take after) pos m
        pure ⟨m, a.size + (n - after) + after, a.cap⟩
    else do
      let cap ← newCap mx a.cap n
      let (m, q) ← uninitMoveTo triv pos 0 0 a.mem (allocate cap)
      let q ← uninitCopy l pos q
      let (_, q) ← uninitMoveTo triv (a.size - pos) pos (pos + n) m q
      pure ⟨q, a.size + n, cap⟩

/-- `resize(n, value)` — vector.h:524-535 -/
def resize (triv : Bool) (mx : Nat) (n : Nat) (value : Ref α) (a : Vec α) : M (Vec α) := do
  if n < a.size then do
    let (a, _) ← eraseRange triv n a.size a
    pure a
  else do
    let (a, _) ← fillInsert triv mx a.size (n - a.size) value a
    pure a

/-- `fill_n(p, n, value)` with the value read through the reference in every round -/
def fillRef (value : Ref α) : Nat → Nat → Mem α → M (Mem α)
  | 0, _, m => .ok m
  | n + 1, i, m => do
    let v ← value.get m
    fillRef value n (i + 1) (← assign m i v)

/-- `assign(n, value)` — vector.h:222-223, 641-659 -/
def fillAssign (triv : Bool) (n : Nat) (value : Ref α) (a : Vec α) : M (Vec α) := do
  if n > a.cap then do
    let v ← value.get a.mem
    let t ← fillInit n v
    let _ ← destroyN a.size 0 a.mem
    pure t
  else if n > a.size then do
    let m ← fillRef value a.size 0 a.mem
    let v ← value.get m
    let m ← uninitFill v (n - a.size) a.size m
    pure ⟨m, n, a.cap⟩
  else do
    let m ← fillRef value n 0 a.mem
    let (a, _) ← eraseRange triv n a.size ⟨m, a.size, a.cap⟩
    pure a

/-- `assign(first, last)` from another sequence — vector.h:225-234, 684-708 -/
def rangeAssign (l : List α) (a : Vec α) : M (Vec α) := do
  if l.length > a.cap then do
    let t ← rangeInit l
    let _ ← destroyN a.size 0 a.mem
    pure t
  else if a.size ≥ l.length then do
    let m ← copyOver l 0 a.mem
    let m ← destroyN (a.size - l.length) l.length m
    pure ⟨m, l.length, a.cap⟩
  else do
    let m ← copyOver (l.take a.size) 0 a.mem
    let m ← uninitCopy (l.drop a.size) a.size m
    pure ⟨m, l.length, a.cap⟩

end Verif.Vector
