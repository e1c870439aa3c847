import Mathlib.Data.Int.Notation
import Mathlib.Logic.Function.Basic

/-!
# `mystl::list` — /repo/mylib/mystl/list.h

Model at the level of pointers.  A heap maps addresses to cells; `none` is an address that is not (or no longer) allocated, so every access through a null or dangling pointer makes the program
`none`.  A cell is a `list_node_base` with, unless it is the end node, a value.  Exceptions of the element's constructors, the length error of `max_size()` and the representation of `size_t` are not
modelled; a size that would go below zero makes the program `none`.  The loops take fuel; running out of it is `none`, and the theorems show that this does not happen.  `fresh` is the allocator: the
address it returns for a heap.  Element ranges given by iterators are modelled by the list of the values they denote, read before the call (no function writes to an element it still has to read,
except as stated at `removeRef`).
-/

namespace Verif.DList

/-- addresses; 0 is `nullptr` -/
scoped notation "Ptr" => Nat

/-- `list_node_base<T>` and `list_node<T>` — list.h:41-94; the end node has no value -/
structure Cell (α : Type) where
  prev : Ptr
  next : Ptr
  val : Option α

/-- the memory -/
abbrev Heap (α : Type) := Ptr → Option (Cell α)

/-- `node_` and `size_` — list.h:237-239 -/
structure Lst where
  node : Ptr
  size : Nat

variable {α : Type}

/-- change one address -/
def put (h : Heap α) (p : Ptr) (c : Option (Cell α)) : Heap α := fun q => if q = p then c else h q

/-- `p->next` — list.h:122-127 -/
def nxt (h : Heap α) (p : Ptr) : Option Ptr := (h p).map (fun c => c.next)
/-- `p->prev` — list.h:128-145 -/
def prv (h : Heap α) (p : Ptr) : Option Ptr := (h p).map (fun c => c.prev)
/-- `p->as_node()->value`, `*iterator` — list.h:119 -/
def value (h : Heap α) (p : Ptr) : Option α := (h p).bind (fun c => c.val)

/-- `p->next = v` — list.h:47-48 -/
def setNext (h : Heap α) (p v : Ptr) : Option (Heap α) := (h p).map (fun c => put h p (some { c with next := v }))
/-- `p->prev = v` — list.h:47-48 -/
def setPrev (h : Heap α) (p v : Ptr) : Option (Heap α) := (h p).map (fun c => put h p (some { c with prev := v }))
/-- `*iterator = v`; the end node has no value — list.h:119 -/
def setVal (h : Heap α) (p : Ptr) (v : α) : Option (Heap α) := do
  let c ← h p
  let _ ← c.val
  pure (put h p (some { c with val := some v }))

/-- `create_node` — list.h:820-838 -/
def createNode (fresh : Heap α → Ptr) (h : Heap α) (v : α) : Ptr × Heap α := (fresh h, put h (fresh h) (some ⟨0, 0, some v⟩))

/-- `destroy_node` — list.h:840-846; the cell must be one with a value -/
def destroyNode (h : Heap α) (p : Ptr) : Option (Heap α) := do
  let _ ← value h p
  pure (put h p none)

/-- `link_nodes(pos, first, last)` — list.h:918-926 -/
def linkNodes (pos first last : Ptr) (h : Heap α) : Option (Heap α) := do
  let x ← prv h pos
  let h ← setNext h x first
  let x ← prv h pos
  let h ← setPrev h first x
  let h ← setPrev h pos last
  setNext h last pos

/-- `link_nodes_at_front(first, last)` — list.h:928-936 -/
def linkFront (node first last : Ptr) (h : Heap α) : Option (Heap α) := do
  let h ← setPrev h first node
  let y ← nxt h node
  let h ← setNext h last y
  let y ← nxt h last
  let h ← setPrev h y last
  setNext h node first

/-- `link_nodes_at_back(first, last)` — list.h:938-946 -/
def linkBack (node first last : Ptr) (h : Heap α) : Option (Heap α) := do
  let h ← setNext h last node
  let x ← prv h node
  let h ← setPrev h first x
  let x ← prv h first
  let h ← setNext h x first
  setPrev h node last

/-- `unlink_nodes(first, last)` — list.h:948-954 -/
def unlinkNodes (first last : Ptr) (h : Heap α) : Option (Heap α) := do
  let x ← prv h first
  let y ← nxt h last
  let h ← setNext h x y
  let y ← nxt h last
  let x ← prv h first
  setPrev h y x

/-- `link_iter_node(pos, link_node)` — list.h:898-916 -/
def linkIterNode (node pos p : Ptr) (h : Heap α) : Option (Heap α) := do
  let b ← nxt h node
  if pos = b then linkFront node p p h
  else if pos = node then linkBack node p p h
  else linkNodes pos p p h

/-- `base_allocator::allocate(1)`, `node_->unlink()` — list.h:852-853 and 57-60 -/
def allocNode (fresh : Heap α → Ptr) (h : Heap α) : Ptr × Heap α := (fresh h, put h (fresh h) (some ⟨fresh h, fresh h, none⟩))

/-- the loops of `fill_init` and `copy_init` — list.h:857-862 and 883-888 -/
def initLoop (fresh : Heap α → Ptr) (node : Ptr) : List α → Heap α → Option (Heap α)
  | [], h => some h
  | v :: vs, h => do
    let (p, h) := createNode fresh h v
    let h ← linkBack node p p h
    initLoop fresh node vs h

/-- `copy_init`, and `fill_init(n, value)` with `n` copies — list.h:848-896 -/
def copyInit (fresh : Heap α → Ptr) (vs : List α) (h : Heap α) : Option (Lst × Heap α) := do
  let (node, h) := allocNode fresh h
  let h ← initLoop fresh node vs h
  pure (⟨node, vs.length⟩, h)

/-- `emplace_front`, `push_front` — list.h:384-392 and 448-459 -/
def pushFront (fresh : Heap α → Ptr) (o : Lst) (v : α) (h : Heap α) : Option (Lst × Heap α) := do
  let (p, h) := createNode fresh h v
  let h ← linkFront o.node p p h
  pure (⟨o.node, o.size + 1⟩, h)

/-- `emplace_back`, `push_back` — list.h:394-401 and 461-472 -/
def pushBack (fresh : Heap α → Ptr) (o : Lst) (v : α) (h : Heap α) : Option (Lst × Heap α) := do
  let (p, h) := createNode fresh h v
  let h ← linkBack o.node p p h
  pure (⟨o.node, o.size + 1⟩, h)

/-- `emplace(pos, args)` — list.h:403-411 -/
def emplace (fresh : Heap α → Ptr) (o : Lst) (pos : Ptr) (v : α) (h : Heap α) : Option (Ptr × Lst × Heap α) := do
  let (p, h) := createNode fresh h v
  let h ← linkNodes pos p p h
  pure (p, ⟨o.node, o.size + 1⟩, h)

/-- `insert(pos, value)` — list.h:415-429 -/
def insert1 (fresh : Heap α → Ptr) (o : Lst) (pos : Ptr) (v : α) (h : Heap α) : Option (Ptr × Lst × Heap α) := do
  let (p, h) := createNode fresh h v
  let h ← linkIterNode o.node pos p h
  pure (p, ⟨o.node, o.size + 1⟩, h)

/-- the loops of `fill_insert` and `copy_insert` — list.h:1013-1018 and 1055-1060; returns the last node of the chain -/
def chainLoop (fresh : Heap α → Ptr) : List α → Ptr → Heap α → Option (Ptr × Heap α)
  | [], e, h => some (e, h)
  | v :: vs, e, h => do
    let (p, h) := createNode fresh h v
    let h ← setNext h e p
    let h ← setPrev h p e
    chainLoop fresh vs p h

/-- `copy_insert(pos, n, first)`, and `fill_insert(pos, n, value)` with `n` copies — list.h:998-1080 (also 431-444) -/
def insertRange (fresh : Heap α → Ptr) (o : Lst) (pos : Ptr) (vs : List α) (h : Heap α) : Option (Ptr × Lst × Heap α) :=
  match vs with
  | [] => some (pos, o, h)
  | v :: vs => do
    let (r, h) := createNode fresh h v
    let h ← setPrev h r 0
    let (e, h) ← chainLoop fresh vs r h
    let h ← linkNodes pos r e h
    pure (r, ⟨o.node, o.size + (vs.length + 1)⟩, h)

/-- `--size_` -/
def decr (o : Lst) : Option Lst := if o.size = 0 then none else some ⟨o.node, o.size - 1⟩

/-- `erase(pos)` — list.h:579-591; the assertion `pos != cend()` is the failure of `destroyNode` -/
def erase (o : Lst) (pos : Ptr) (h : Heap α) : Option (Ptr × Lst × Heap α) := do
  let next ← nxt h pos
  let h ← unlinkNodes pos pos h
  let h ← destroyNode h pos
  let o ← decr o
  pure (next, o, h)

/-- `pop_front` — list.h:476-483 -/
def popFront (o : Lst) (h : Heap α) : Option (Lst × Heap α) := do
  let n ← nxt h o.node
  let h ← unlinkNodes n n h
  let h ← destroyNode h n
  let o ← decr o
  pure (o, h)

/-- `pop_back` — list.h:485-492 -/
def popBack (o : Lst) (h : Heap α) : Option (Lst × Heap α) := do
  let n ← prv h o.node
  let h ← unlinkNodes n n h
  let h ← destroyNode h n
  let o ← decr o
  pure (o, h)

/-- the loop of `erase(first, last)` — list.h:601-607 -/
def eraseLoop (last : Ptr) : Nat → Ptr → Lst → Heap α → Option (Lst × Heap α)
  | 0, _, _, _ => none
  | n + 1, first, o, h =>
    if first ≠ last then do
      let next ← nxt h first
      let h ← destroyNode h first
      let o ← decr o
      eraseLoop last n next o h
    else some (o, h)

/-- `erase(first, last)` — list.h:593-610 -/
def eraseRange (fuel : Nat) (o : Lst) (first last : Ptr) (h : Heap α) : Option (Lst × Heap α) :=
  if first ≠ last then do
    let l ← prv h last
    let h ← unlinkNodes first l h
    eraseLoop last fuel first o h
  else some (o, h)

/-- the loop of `clear` — list.h:619-622 -/
def clearLoop (node : Ptr) : Nat → Ptr → Ptr → Heap α → Option (Heap α)
  | 0, _, _, _ => none
  | n + 1, cur, next, h =>
    if cur ≠ node then do
      let h ← destroyNode h cur
      let next' ← nxt h next
      clearLoop node n next next' h
    else some h

/-- `clear` — list.h:612-626 -/
def clear (fuel : Nat) (o : Lst) (h : Heap α) : Option (Lst × Heap α) :=
  if o.size ≠ 0 then do
    let cur ← nxt h o.node
    let next ← nxt h cur
    let h ← clearLoop o.node fuel cur next h
    let h ← setPrev h o.node o.node
    let h ← setNext h o.node o.node
    pure (⟨o.node, 0⟩, h)
  else some (o, h)

/-- `~list` — list.h:293-302 -/
def destruct (fuel : Nat) (o : Lst) (h : Heap α) : Option (Heap α) :=
  if o.node ≠ 0 then do
    let (o, h) ← clear fuel o h
    let _ ← h o.node
    pure (put h o.node none)
  else some h

/-- the loop of `resize` — list.h:634-638 -/
def resizeLoop (e : Ptr) (newSize : Nat) (h : Heap α) : Nat → Ptr → Nat → Option (Ptr × Nat)
  | 0, _, _ => none
  | n + 1, i, len =>
    if i ≠ e ∧ len < newSize then do
      let i ← nxt h i
      resizeLoop e newSize h n i (len + 1)
    else some (i, len)

/-- `resize(new_size, value)` — list.h:628-647 -/
def resize (fresh : Heap α → Ptr) (fuel : Nat) (o : Lst) (newSize : Nat) (v : α) (h : Heap α) : Option (Lst × Heap α) := do
  let i ← nxt h o.node
  let (i, len) ← resizeLoop o.node newSize h fuel i 0
  if len = newSize then eraseRange fuel o i o.node h
  else do
    let (_, o, h) ← insertRange fresh o o.node (List.replicate (newSize - len) v) h
    pure (o, h)

/-- the loops of `fill_assign` and `copy_assign` — list.h:962-965 and 983-986: the place reached and the values left -/
def assignLoop (e : Ptr) : List α → Ptr → Heap α → Option (Ptr × List α × Heap α)
  | [], i, h => some (i, [], h)
  | v :: vs, i, h =>
    if i ≠ e then do
      let h ← setVal h i v
      let i ← nxt h i
      assignLoop e vs i h
    else some (i, v :: vs, h)

/-- `copy_assign(f2, l2)`, and `fill_assign(n, value)` with `n` copies — list.h:956-995 (also 372-381) -/
def assign (fresh : Heap α → Ptr) (fuel : Nat) (o : Lst) (vs : List α) (h : Heap α) : Option (Lst × Heap α) := do
  let i ← nxt h o.node
  let (i, rest, h) ← assignLoop o.node vs i h
  match rest with
  | [] => eraseRange fuel o i o.node h
  | v :: r => do
    let (_, o, h) ← insertRange fresh o o.node (v :: r) h
    pure (o, h)

/-- the values from `i` to `e`: what a loop `for (; i != e; ++i) … *i …` reads — list.h:122-127 -/
def readFrom (e : Ptr) (h : Heap α) : Nat → Ptr → Option (List α)
  | 0, _ => none
  | n + 1, i =>
    if i ≠ e then do
      let v ← value h i
      let i ← nxt h i
      let vs ← readFrom e h n i
      pure (v :: vs)
    else some []

/-- the values of a list from `begin()` to `end()` — list.h:306-313 -/
def contents (fuel : Nat) (o : Lst) (h : Heap α) : Option (List α) := do
  let i ← nxt h o.node
  readFrom o.node h fuel i

/-- `empty()` — list.h:334-335 -/
def isEmpty (o : Lst) (h : Heap α) : Option Bool := do
  let i ← nxt h o.node
  pure (decide (i = o.node))

/-- `front()` — list.h:344-354 -/
def front (o : Lst) (h : Heap α) : Option α := do
  let i ← nxt h o.node
  value h i

/-- `back()` — list.h:356-366 -/
def back (o : Lst) (h : Heap α) : Option α := do
  let i ← prv h o.node
  value h i

/-- `splice(pos, x)` — list.h:649-667; returns both lists -/
def splice (pos : Ptr) (o x : Lst) (h : Heap α) : Option (Lst × Lst × Heap α) := do
  let e ← isEmpty x h
  if e = false then do
    let f ← nxt h x.node
    let l ← prv h x.node
    let h ← unlinkNodes f l h
    let h ← linkNodes pos f l h
    pure (⟨o.node, o.size + x.size⟩, ⟨x.node, 0⟩, h)
  else some (o, x, h)

/-- `splice(pos, x, it)` for two different lists — list.h:669-685 -/
def spliceOne (pos it : Ptr) (o x : Lst) (h : Heap α) : Option (Lst × Lst × Heap α) :=
  if pos ≠ it then do
    let n ← nxt h it
    if pos ≠ n then do
      let h ← unlinkNodes it it h
      let h ← linkNodes pos it it h
      let x ← decr x
      pure (⟨o.node, o.size + 1⟩, x, h)
    else some (o, x, h)
  else some (o, x, h)

/-- `splice(pos, *this, it)` within one list: `++size_; --x.size_;` cancel — list.h:669-685 -/
def spliceOneSelf (pos it : Ptr) (o : Lst) (h : Heap α) : Option (Lst × Heap α) :=
  if pos ≠ it then do
    let n ← nxt h it
    if pos ≠ n then do
      let h ← unlinkNodes it it h
      let h ← linkNodes pos it it h
      pure (o, h)
    else some (o, h)
  else some (o, h)

/-- `distance(first, last)` — list.h:693 (iterator.h) -/
def distance (last : Ptr) (h : Heap α) : Nat → Ptr → Option Nat
  | 0, _ => none
  | n + 1, i =>
    if i ≠ last then do
      let i ← nxt h i
      let d ← distance last h n i
      pure (d + 1)
    else some 0

/-- `splice(pos, x, first, last)` for two different lists — list.h:687-705 -/
def spliceRange (fuel : Nat) (pos first last : Ptr) (o x : Lst) (h : Heap α) : Option (Lst × Lst × Heap α) :=
  if first ≠ last then do
    let n ← distance last h fuel first
    let l ← prv h last
    let h ← unlinkNodes first l h
    let h ← linkNodes pos first l h
    if x.size < n then none else pure (⟨o.node, o.size + n⟩, ⟨x.node, x.size - n⟩, h)
  else some (o, x, h)

/-- `splice(pos, *this, first, last)` within one list: the condition `this != &x` fails — list.h:691 -/
def spliceRangeSelf (_pos _first _last : Ptr) (o : Lst) (h : Heap α) : Option (Lst × Heap α) := some (o, h)

/-- the loop of `remove_if` — list.h:713-720; here `next == f` at the head of the loop -/
def removeLoop (p : α → Bool) (l : Ptr) : Nat → Ptr → Lst → Heap α → Option (Lst × Heap α)
  | 0, _, _, _ => none
  | n + 1, f, o, h =>
    if f ≠ l then do
      let next ← nxt h f
      let v ← value h f
      if p v then do
        let (_, o, h) ← erase o f h
        removeLoop p l n next o h
      else removeLoop p l n next o h
    else some (o, h)

/-- `remove_if(pred)` — list.h:707-721 -/
def removeIf (p : α → Bool) (fuel : Nat) (o : Lst) (h : Heap α) : Option (Lst × Heap α) := do
  let f ← nxt h o.node
  removeLoop p o.node fuel f o h

/-- the loop of `remove(value)` where `value` is a reference to the element at the address `r`, read again at every comparison — list.h:518-519 and 713-720 -/
def removeRefLoop (eq : α → α → Bool) (r l : Ptr) : Nat → Ptr → Lst → Heap α → Option (Lst × Heap α)
  | 0, _, _, _ => none
  | n + 1, f, o, h =>
    if f ≠ l then do
      let next ← nxt h f
      let v ← value h f
      let w ← value h r
      if eq v w then do
        let (_, o, h) ← erase o f h
        removeRefLoop eq r l n next o h
      else removeRefLoop eq r l n next o h
    else some (o, h)

/-- `remove(value)` with a reference to an element — list.h:518-519 -/
def removeRef (eq : α → α → Bool) (r : Ptr) (fuel : Nat) (o : Lst) (h : Heap α) : Option (Lst × Heap α) := do
  let f ← nxt h o.node
  removeRefLoop eq r o.node fuel f o h

/-- the loop of `unique` — list.h:732-745 -/
def uniqueLoop (p : α → α → Bool) (e : Ptr) : Nat → Ptr → Ptr → Lst → Heap α → Option (Lst × Heap α)
  | 0, _, _, _, _ => none
  | n + 1, i, j, o, h =>
    if j ≠ e then do
      let a ← value h i
      let b ← value h j
      if p a b then do
        let (_, o, h) ← erase o j h
        let j ← nxt h i
        uniqueLoop p e n i j o h
      else do
        let i := j
        let j ← nxt h i
        uniqueLoop p e n i j o h
    else some (o, h)

/-- `unique(pred)` — list.h:723-746 -/
def unique (p : α → α → Bool) (fuel : Nat) (o : Lst) (h : Heap α) : Option (Lst × Heap α) := do
  let i ← nxt h o.node
  let j ← nxt h i
  uniqueLoop p o.node fuel i j o h

/-- `for (; next != l2 && comp(*next, *f1); ++next);` — list.h:768-769, 1113-1114 and 1137-1138 -/
def runEnd (lt : α → α → Bool) (l2 : Ptr) (v1 : α) (h : Heap α) : Nat → Ptr → Option Ptr
  | 0, _ => none
  | n + 1, m =>
    if m ≠ l2 then do
      let v ← value h m
      if lt v v1 then do
        let m ← nxt h m
        runEnd lt l2 v1 h n m
      else some m
    else some m

/-- the loop of `merge` — list.h:761-783; returns `f2` -/
def mergeLoop (lt : α → α → Bool) (l1 l2 : Ptr) : Nat → Ptr → Ptr → Heap α → Option (Ptr × Heap α)
  | 0, _, _, _ => none
  | n + 1, f1, f2, h =>
    if f1 ≠ l1 ∧ f2 ≠ l2 then do
      let v2 ← value h f2
      let v1 ← value h f1
      if lt v2 v1 then do
        let m ← nxt h f2
        let m ← runEnd lt l2 v1 h (n + 1) m
        let l ← prv h m
        let h ← unlinkNodes f2 l h
        let h ← linkNodes f1 f2 l h
        let f1 ← nxt h f1
        mergeLoop lt l1 l2 n f1 m h
      else do
        let f1 ← nxt h f1
        mergeLoop lt l1 l2 n f1 f2 h
    else some (f2, h)

/-- `merge(x, comp)` for two different lists — list.h:748-796 -/
def merge (lt : α → α → Bool) (fuel : Nat) (o x : Lst) (h : Heap α) : Option (Lst × Lst × Heap α) := do
  let f1 ← nxt h o.node
  let f2 ← nxt h x.node
  let (f2, h) ← mergeLoop lt o.node x.node fuel f1 f2 h
  let h ← (if f2 ≠ x.node then do
      let l ← prv h x.node
      let h ← unlinkNodes f2 l h
      linkNodes o.node f2 l h
    else some h)
  pure (⟨o.node, o.size + x.size⟩, ⟨x.node, 0⟩, h)

/-- the loop of `reverse` — list.h:808-812 -/
def reverseLoop (e : Ptr) : Nat → Ptr → Heap α → Option (Heap α)
  | 0, _, _ => none
  | n + 1, i, h =>
    if i ≠ e then do
      let a ← prv h i
      let b ← nxt h i
      let h ← setPrev h i b
      let h ← setNext h i a
      let i ← prv h i
      reverseLoop e n i h
    else some h

/-- `reverse` — list.h:798-814 -/
def reverse (fuel : Nat) (o : Lst) (h : Heap α) : Option (Heap α) :=
  if o.size ≤ 1 then some h
  else do
    let i ← nxt h o.node
    let h ← reverseLoop o.node fuel i h
    let a ← prv h o.node
    let b ← nxt h o.node
    let h ← setPrev h o.node b
    setNext h o.node a

/-- `advance(l, n)` — forwards — list.h:1104 (iterator.h) -/
def advance (h : Heap α) : Nat → Ptr → Option Ptr
  | 0, p => some p
  | n + 1, p => do
    let p ← nxt h p
    advance h n p

/-- moving the run that starts at `f2` before `f1` — list.h:1111-1124 and 1135-1149: `m`, `f1` afterwards and the heap -/
def moveRun (lt : α → α → Bool) (fuel : Nat) (l2 f1 f2 : Ptr) (v1 : α) (h : Heap α) : Option (Ptr × Ptr × Heap α) := do
  let m ← nxt h f2
  let m ← runEnd lt l2 v1 h fuel m
  let l ← prv h m
  let h ← unlinkNodes f2 l h
  let m1 ← nxt h f1
  let h ← linkNodes f1 f2 l h
  pure (m, m1, h)

/-- the second loop of `list_sort` — list.h:1131-1155 -/
def sortLoop (lt : α → α → Bool) (l2 : Ptr) : Nat → Ptr → Ptr → Ptr → Heap α → Option (Heap α)
  | 0, _, _, _, _ => none
  | n + 1, f1, l1, f2, h =>
    if f1 ≠ l1 ∧ f2 ≠ l2 then do
      let v2 ← value h f2
      let v1 ← value h f1
      if lt v2 v1 then do
        let (m, f1, h) ← moveRun lt (n + 1) l2 f1 f2 v1 h
        let l1 := if l1 = f2 then m else l1
        sortLoop lt l2 n f1 l1 m h
      else do
        let f1 ← nxt h f1
        sortLoop lt l2 n f1 l1 f2 h
    else some h

/-- `list_sort(f1, l2, n, comp)` — list.h:1082-1157; `d` bounds the depth of the recursion, `fuel` the loops -/
def listSort (lt : α → α → Bool) (fuel : Nat) : Nat → Ptr → Ptr → Nat → Heap α → Option (Ptr × Heap α)
  | 0, _, _, _, _ => none
  | d + 1, f1, l2, n, h =>
    if n < 2 then some (f1, h)
    else if n = 2 then do
      let l2 ← prv h l2
      let v2 ← value h l2
      let v1 ← value h f1
      if lt v2 v1 then do
        let h ← unlinkNodes l2 l2 h
        let h ← linkNodes f1 l2 l2 h
        pure (l2, h)
      else some (f1, h)
    else do
      let n2 := n / 2
      let l1 ← advance h n2 f1
      let (f1, h) ← listSort lt fuel d f1 l1 n2 h
      let (f2, h) ← listSort lt fuel d l1 l2 (n - n2) h
      let v2 ← value h f2
      let v1 ← value h f1
      if lt v2 v1 then do
        let (m, f1', h) ← moveRun lt fuel l2 f1 f2 v1 h
        let h ← sortLoop lt l2 fuel f1' m m h
        pure (f2, h)
      else do
        let f1' ← nxt h f1
        let h ← sortLoop lt l2 fuel f1' f2 f2 h
        pure (f1, h)

/-- `sort(comp)` — list.h:533-537 -/
def sort (lt : α → α → Bool) (fuel : Nat) (o : Lst) (h : Heap α) : Option (Heap α) := do
  let f ← nxt h o.node
  let (_, h) ← listSort lt fuel (o.size + 1) f o.node o.size h
  pure h

/-- the loop of `operator==` — list.h:1166-1168 -/
def equalLoop (eq : α → α → Bool) (h : Heap α) (l1 l2 : Ptr) : Nat → Ptr → Ptr → Option Bool
  | 0, _, _ => none
  | n + 1, f1, f2 =>
    if f1 ≠ l1 ∧ f2 ≠ l2 then do
      let a ← value h f1
      let b ← value h f2
      if eq a b then do
        let f1 ← nxt h f1
        let f2 ← nxt h f2
        equalLoop eq h l1 l2 n f1 f2
      else some false
    else some (decide (f1 = l1 ∧ f2 = l2))

/-- `operator==` — list.h:1159-1169 -/
def equal (eq : α → α → Bool) (fuel : Nat) (o x : Lst) (h : Heap α) : Option Bool := do
  let f1 ← nxt h o.node
  let f2 ← nxt h x.node
  equalLoop eq h o.node x.node fuel f1 f2

/-- `list(list&&)` — list.h:263-268: the new list and the old one -/
def moveInit (o : Lst) : Lst × Lst := (o, ⟨0, 0⟩)

/-- `operator=(list&&)` for two different lists — list.h:279-284 -/
def moveAssign (fuel : Nat) (o x : Lst) (h : Heap α) : Option (Lst × Lst × Heap α) := do
  let (o, h) ← clear fuel o h
  splice o.node o x h

/-- `operator=(list&&)` of a list to itself: the list has just been cleared, so `x.empty()` — list.h:279-284 -/
def moveAssignSelf (fuel : Nat) (o : Lst) (h : Heap α) : Option (Lst × Heap α) := do
  let (o, h) ← clear fuel o h
  let e ← isEmpty o h
  if e then pure (o, h) else none

end Verif.DList
