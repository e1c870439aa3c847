import Mathlib.Data.Nat.Notation
import Mathlib.Data.Int.Notation
import Mathlib.Data.List.Basic
/-!
# The double-ended queue (`mylib/mystl/deque.h`)

Elements live in buffers of `B` cells.  The object holds a *map*, an array of
buffer pointers, and two iterators.  Buffers are numbered by the allocator;
`live` is the list of the buffers allocated and not yet released.  A cell is
`none` when no object has been constructed in it.

Every operation returns `none` when it would do something that the language
does not define: reading, overwriting or destroying a cell without an object,
constructing over an object, touching a released buffer, leaving the map.
Releasing a buffer in which an object still lives is counted as such a fault
too.  Two simplifications: allocation never throws (so the `catch` blocks are
not modelled), and sizes are unbounded naturals.
-/
namespace Verif.Deque

variable {α : Type}

/-- deque.h 51-71: `deque_iterator`.  `node` is the index in the map, `buf` the
cached `first` pointer (the buffer's number), `off` is `cur - first`; `last` is
always `first + buffer_size` and is not kept. -/
structure It where
  node : ℕ
  buf : ℕ
  off : ℕ

/-- deque.h 232-237: the four data members of `deque`, together with the
allocator's memory. -/
structure St (α : Type) where
  /-- the pointers in the map, `none` for a null pointer -/
  map : ℕ → Option ℕ
  mapSize : ℕ
  b : It
  e : It
  mem : ℕ → ℕ → Option α
  live : List ℕ
  next : ℕ

/-- replace one value of a function (an array store) -/
def upd {β : Type} (f : ℕ → β) (k : ℕ) (v : β) : ℕ → β :=
  fun x => if x = k then v else f x

/-! ### memory -/

/-- allocator.h `construct` at one cell (deque.h 558 and others). -/
def construct (B : ℕ) (s : St α) (buf off : ℕ) (v : α) : Option (St α) :=
  if buf ∈ s.live ∧ off < B ∧ (s.mem buf off).isNone then
    some { s with mem := upd s.mem buf (upd (s.mem buf) off (some v)) }
  else none

/-- allocator.h `destroy` at one cell (deque.h 662 and others). -/
def destroy (B : ℕ) (s : St α) (buf off : ℕ) : Option (St α) :=
  if buf ∈ s.live ∧ off < B ∧ (s.mem buf off).isSome then
    some { s with mem := upd s.mem buf (upd (s.mem buf) off none) }
  else none

/-- deque.h 119: reading `*it`. -/
def read (B : ℕ) (s : St α) (it : It) : Option α :=
  if it.buf ∈ s.live ∧ it.off < B then s.mem it.buf it.off else none

/-- deque.h 119: assigning to `*it`. -/
def write (B : ℕ) (s : St α) (it : It) (v : α) : Option (St α) :=
  if it.buf ∈ s.live ∧ it.off < B ∧ (s.mem it.buf it.off).isSome then
    some { s with mem := upd s.mem it.buf (upd (s.mem it.buf) it.off (some v)) }
  else none

/-- deque.h 863-885: `create_buffer`, `k` slots of the map from slot `n` on.
The previous contents of the slots are overwritten, as in the source. -/
def createBuffer (s : St α) (n : ℕ) : ℕ → Option (St α)
  | 0 => some s
  | k + 1 =>
    if n < s.mapSize then
      createBuffer
        { s with
          map := upd s.map n (some s.next)
          mem := upd s.mem s.next (fun _ => none)
          live := s.next :: s.live
          next := s.next + 1 } (n + 1) k
    else none

/-- deque.h 890-898 and 539-548: release the buffer of one slot and store a
null pointer there (releasing a null pointer is allowed and does nothing). -/
def freeSlot (B : ℕ) (s : St α) (n : ℕ) : Option (St α) :=
  if n < s.mapSize then
    match s.map n with
    | none => some s
    | some id =>
      if id ∈ s.live ∧ (List.range B).all (fun o => (s.mem id o).isNone) then
        some { s with map := upd s.map n none, live := s.live.erase id }
      else none
  else none

/-- deque.h 536-549: a loop of `freeSlot` over the slots `n, …, n + k - 1`. -/
def freeSlots (B : ℕ) (s : St α) (n : ℕ) : ℕ → Option (St α)
  | 0 => some s
  | k + 1 => do
    let s' ← freeSlot B s n
    freeSlots B s' (n + 1) k

/-! ### iterators -/

/-- deque.h 111-116: `set_node` together with the choice of `cur`.  A null
pointer in the slot is counted as a fault. -/
def setNode (s : St α) (n off : ℕ) : Option It :=
  if n < s.mapSize then
    match s.map n with
    | some id => some ⟨n, id, off⟩
    | none => none
  else none

/-- deque.h 128-137: `operator++`. -/
def inc (B : ℕ) (s : St α) (it : It) : Option It :=
  if it.off + 1 = B then setNode s (it.node + 1) 0
  else some { it with off := it.off + 1 }

/-- deque.h 145-154: `operator--`. -/
def dec (B : ℕ) (s : St α) (it : It) : Option It :=
  if it.off = 0 then
    if it.node = 0 then none else setNode s (it.node - 1) (B - 1)
  else some { it with off := it.off - 1 }

/-- deque.h 162-178, 185-187: `operator+=` for an offset of either sign
(`operator-=` negates it). -/
def add (B : ℕ) (s : St α) (it : It) (n : ℤ) : Option It :=
  let offset : ℤ := n + it.off
  if 0 ≤ offset ∧ offset < B then some { it with off := offset.toNat }
  else
    let nodeOffset : ℤ := if 0 < offset then offset / B else -((-offset - 1) / B) - 1
    let node : ℤ := it.node + nodeOffset
    if node < 0 then none
    else setNode s node.toNat (offset - nodeOffset * B).toNat

/-- deque.h 122-126: `operator-`. -/
def diff (B : ℕ) (x y : It) : ℤ :=
  (B : ℤ) * ((x.node : ℤ) - y.node) + x.off - y.off

/-- deque.h 197: `operator==` compares `cur`, that is buffer and offset. -/
def itEq (x y : It) : Bool := x.buf = y.buf ∧ x.off = y.off

/-! ### growing -/

/-- deque.h 852-860, 1327-1350: `reallocate_map_at_front`.  The loop which
copies the old pointers is written as one function. -/
def reallocFront (s : St α) (need : ℕ) : Option (St α) := do
  let newSize := max (2 * s.mapSize) (s.mapSize + need + 8)
  let old := s.e.node - s.b.node + 1
  let begin := (newSize - (old + need)) / 2
  let mid := begin + need
  let s1 ← createBuffer { s with map := fun _ => none, mapSize := newSize } begin need
  if mid + old ≤ newSize ∧ s.b.node + old ≤ s.mapSize then
    let m := fun x => if mid ≤ x ∧ x < mid + old then s.map (s.b.node + (x - mid)) else s1.map x
    let s2 := { s1 with map := m }
    let b ← setNode s2 mid s.b.off
    let e ← setNode s2 (mid + old - 1) s.e.off
    some { s2 with b := b, e := e }
  else none

/-- deque.h 852-860, 1353-1376: `reallocate_map_at_back`. -/
def reallocBack (s : St α) (need : ℕ) : Option (St α) := do
  let newSize := max (2 * s.mapSize) (s.mapSize + need + 8)
  let old := s.e.node - s.b.node + 1
  let begin := (newSize - (old + need)) / 2
  let mid := begin + old
  if begin + old ≤ newSize ∧ s.b.node + old ≤ s.mapSize then
    let m := fun x => if begin ≤ x ∧ x < begin + old then s.map (s.b.node + (x - begin)) else none
    let s2 ← createBuffer { s with map := m, mapSize := newSize } mid need
    let b ← setNode s2 begin s.b.off
    let e ← setNode s2 (mid - 1) s.e.off
    some { s2 with b := b, e := e }
  else none

/-- deque.h 1302-1313: `require_capacity(n, true)`. -/
def requireFront (B : ℕ) (s : St α) (n : ℕ) : Option (St α) :=
  if s.b.off < n then
    let need := (n - s.b.off) / B + 1
    if s.b.node < need then reallocFront s need
    else createBuffer s (s.b.node - need) need
  else some s

/-- deque.h 1314-1324: `require_capacity(n, false)`. -/
def requireBack (B : ℕ) (s : St α) (n : ℕ) : Option (St α) :=
  if B - s.e.off - 1 < n then
    let need := (n - (B - s.e.off - 1)) / B + 1
    if s.mapSize - s.e.node - 1 < need then reallocBack s need
    else createBuffer s (s.e.node + 1) need
  else some s

/-! ### both ends -/

/-- deque.h 552-575, 614-636: `push_front` and `emplace_front`. -/
def pushFront (B : ℕ) (s : St α) (v : α) : Option (St α) :=
  if s.b.off ≠ 0 then do
    let s' ← construct B s s.b.buf (s.b.off - 1) v
    some { s' with b := { s.b with off := s.b.off - 1 } }
  else do
    let s' ← requireFront B s 1
    let b ← dec B s' s'.b
    let s'' ← construct B s' b.buf b.off v
    some { s'' with b := b }

/-- deque.h 578-592, 639-653: `push_back` and `emplace_back`. -/
def pushBack (B : ℕ) (s : St α) (v : α) : Option (St α) :=
  if s.e.off ≠ B - 1 then do
    let s' ← construct B s s.e.buf s.e.off v
    some { s' with e := { s.e with off := s.e.off + 1 } }
  else do
    let s' ← requireBack B s 1
    let s'' ← construct B s' s'.e.buf s'.e.off v
    let e ← inc B s'' s''.e
    some { s'' with e := e }

/-- deque.h 656-671: `pop_front`. -/
def popFront (B : ℕ) (s : St α) : Option (St α) :=
  if s.b.off ≠ B - 1 then do
    let s' ← destroy B s s.b.buf s.b.off
    some { s' with b := { s.b with off := s.b.off + 1 } }
  else do
    let s' ← destroy B s s.b.buf s.b.off
    let b ← inc B s' s'.b
    freeSlot B { s' with b := b } (b.node - 1)

/-- deque.h 674-689: `pop_back`. -/
def popBack (B : ℕ) (s : St α) : Option (St α) :=
  if s.e.off ≠ 0 then
    destroy B { s with e := { s.e with off := s.e.off - 1 } } s.e.buf (s.e.off - 1)
  else do
    let e ← dec B s s.e
    let s' ← destroy B { s with e := e } e.buf e.off
    freeSlot B s' (e.node + 1)

/-! ### element access -/

/-- deque.h 334: `size()`. -/
def size (B : ℕ) (s : St α) : ℤ := diff B s.e s.b

/-- deque.h 333: `empty()`. -/
def empty (s : St α) : Bool := itEq s.b s.e

/-- deque.h 341-350: `operator[]`. -/
def get (B : ℕ) (s : St α) (n : ℕ) : Option α := do
  let it ← add B s s.b n
  read B s it

/-- deque.h 341-345: assignment through `operator[]`. -/
def setAt (B : ℕ) (s : St α) (n : ℕ) (v : α) : Option (St α) := do
  let it ← add B s s.b n
  write B s it v

/-- deque.h 363-372: `front()`. -/
def front (B : ℕ) (s : St α) : Option α := read B s s.b

/-- deque.h 373-382: `back()`, `*(end() - 1)`. -/
def back (B : ℕ) (s : St α) : Option α := do
  let it ← add B s s.e (-1)
  read B s it

/-! ### the middle -/

/-- algobase.h `copy` on random access iterators: `k` steps upwards. -/
def copyUp (B : ℕ) (s : St α) (src dst : It) : ℕ → Option (St α)
  | 0 => some s
  | k + 1 => do
    let v ← read B s src
    let s' ← write B s dst v
    let src' ← inc B s' src
    let dst' ← inc B s' dst
    copyUp B s' src' dst' k

/-- algobase.h `copy_backward`: `k` steps downwards. -/
def copyDown (B : ℕ) (s : St α) (src dst : It) : ℕ → Option (St α)
  | 0 => some s
  | k + 1 => do
    let src' ← dec B s src
    let dst' ← dec B s dst
    let v ← read B s src'
    let s' ← write B s dst' v
    copyDown B s' src' dst' k

/-- deque.h 1043-1074: `insert_aux`, at the element number `i`. -/
def insertAux (B : ℕ) (s : St α) (pos : It) (v : α) : Option (St α) := do
  let before := (diff B pos s.b).toNat
  if before < (size B s).toNat / 2 then
    let x ← front B s
    let s ← pushFront B s x
    let front1 ← inc B s s.b
    let front2 ← inc B s front1
    let pos ← add B s s.b before
    let pos1 ← inc B s pos
    let s' ← copyUp B s front2 front1 (diff B pos1 front2).toNat
    write B s' pos v
  else
    let x ← back B s
    let s ← pushBack B s x
    let back1 ← dec B s s.e
    let back2 ← dec B s back1
    let pos ← add B s s.b before
    let s' ← copyDown B s back2 back1 (diff B back2 pos).toNat
    write B s' pos v

/-- deque.h 597-610, 693-735: `insert(begin() + i, value)` and `emplace`. -/
def insertAt (B : ℕ) (s : St α) (i : ℕ) (v : α) : Option (St α) := do
  let pos ← add B s s.b i
  if itEq pos s.b then pushFront B s v
  else if itEq pos s.e then pushBack B s v
  else insertAux B s pos v

/-- deque.h 762-780: `erase(begin() + i)`. -/
def eraseAt (B : ℕ) (s : St α) (i : ℕ) : Option (St α) := do
  let pos ← add B s s.b i
  let nxt ← inc B s pos
  let before := (diff B pos s.b).toNat
  if before < (size B s).toNat / 2 then
    let s' ← copyDown B s pos nxt (diff B pos s.b).toNat
    popFront B s'
  else
    let s' ← copyUp B s nxt pos (diff B s.e nxt).toNat
    popBack B s'

/-! ### clearing and releasing -/

/-- construct.h `destroy(first, last)` inside one buffer: `k` cells from `o`. -/
def destroyRange (B : ℕ) (s : St α) (buf o : ℕ) : ℕ → Option (St α)
  | 0 => some s
  | k + 1 => do
    let s' ← destroy B s buf o
    destroyRange B s' buf (o + 1) k

/-- deque.h 818-821: the full buffers of `k` slots from slot `n`. -/
def destroyNodes (B : ℕ) (s : St α) (n : ℕ) : ℕ → Option (St α)
  | 0 => some s
  | k + 1 => do
    let it ← setNode s n 0
    let s' ← destroyRange B s it.buf 0 B
    destroyNodes B s' (n + 1) k

/-- deque.h 535-549: `shrink_to_fit`. -/
def shrink (B : ℕ) (s : St α) : Option (St α) := do
  let s' ← freeSlots B s 0 s.b.node
  freeSlots B s' (s.e.node + 1) (s.mapSize - (s.e.node + 1))

/-- deque.h 814-833: `clear`. -/
def clear (B : ℕ) (s : St α) : Option (St α) := do
  let s1 ← destroyNodes B s (s.b.node + 1) (s.e.node - (s.b.node + 1))
  let s2 ← (if s.b.node ≠ s.e.node then do
      let t ← destroyRange B s1 s.b.buf s.b.off (B - s.b.off)
      destroyRange B t s.e.buf 0 s.e.off
    else destroyRange B s1 s.b.buf s.b.off (s.e.off - s.b.off))
  let s3 ← shrink B s2
  some { s3 with e := s3.b }

/-- deque.h 289-299: `~deque` (with a map).  The result is the list of the
buffers which are still allocated when the object is gone. -/
def destructor (B : ℕ) (s : St α) : Option (List ℕ) := do
  let s1 ← clear B s
  let s2 ← freeSlot B s1 s1.b.node
  some s2.live

/-! ### construction -/

/-- deque.h 901-935: `map_init` on an empty heap. -/
def mapInit (B n : ℕ) : Option (St α) := do
  let nNode := n / B + 1
  let msize := max 8 (nNode + 2)
  let start := (msize - nNode) / 2
  let s0 : St α := ⟨fun _ => none, msize, ⟨0, 0, 0⟩, ⟨0, 0, 0⟩, fun _ _ => none, [], 0⟩
  let s1 ← createBuffer s0 start nNode
  let b ← setNode s1 start 0
  let e ← setNode s1 (start + nNode - 1) (n % B)
  some { s1 with b := b, e := e }

/-- uninitialized.h `uninitialized_copy` into one buffer from cell `o` on. -/
def constructList (B : ℕ) (s : St α) (buf o : ℕ) : List α → Option (St α)
  | [] => some s
  | v :: vs => do
    let s' ← construct B s buf o v
    constructList B s' buf (o + 1) vs

/-- deque.h 971-979: the loop of `copy_init` over the full buffers. -/
def copyNodes (B : ℕ) (s : St α) (n : ℕ) : ℕ → List α → Option (St α × List α)
  | 0, l => some (s, l)
  | k + 1, l => do
    let it ← setNode s n 0
    let s' ← constructList B s it.buf 0 (l.take B)
    copyNodes B s' (n + 1) k (l.drop B)

/-- deque.h 258-265, 966-980: construction from a range of forward iterators,
from an initializer list and by copying another deque. -/
def ofList (B : ℕ) (l : List α) : Option (St α) := do
  let s ← mapInit B l.length
  let r ← copyNodes B s s.b.node (s.e.node - s.b.node) l
  constructList B r.1 r.1.e.buf 0 r.2

/-- deque.h 943-946: the loop of `fill_init`. -/
def fillNodes (B : ℕ) (s : St α) (v : α) (n : ℕ) : ℕ → Option (St α)
  | 0 => some s
  | k + 1 => do
    let it ← setNode s n 0
    let s' ← constructList B s it.buf 0 (List.replicate B v)
    fillNodes B s' v (n + 1) k

/-- deque.h 242-250, 938-951: `deque()`, `deque(n)` and `deque(n, value)`. -/
def ofFill (B n : ℕ) (v : α) : Option (St α) := do
  let s ← mapInit B n
  if n ≠ 0 then
    let s' ← fillNodes B s v s.b.node (s.e.node - s.b.node)
    constructList B s' s'.e.buf 0 (List.replicate (s'.e.off - 0) v)
  else some s

/-- deque.h 952-962: construction from a range of input iterators; `map_init`
already places `end_` after `n` cells. -/
def ofInput (B : ℕ) (l : List α) : Option (St α) := do
  let s ← mapInit B l.length
  l.foldlM (fun s v => pushBack B s v) s

/-! ### the adaptors -/

/-- queue.h 116-117: `pop`. -/
def queuePop (B : ℕ) (s : St α) : Option (St α) := popFront B s

/-- queue.h 111-114: `push`. -/
def queuePush (B : ℕ) (s : St α) (v : α) : Option (St α) := pushBack B s v

/-- queue.h 97-98: `front`. -/
def queueFront (B : ℕ) (s : St α) : Option α := front B s

/-- queue.h 99-100: `back`. -/
def queueBack (B : ℕ) (s : St α) : Option α := back B s

/-- queue.h 119-123: `clear`, `while (!empty()) pop();` with a bound on the
number of turns (`none` when it is reached). -/
def queueClear (B : ℕ) (s : St α) : ℕ → Option (St α)
  | 0 => if empty s then some s else none
  | k + 1 => if empty s then some s else do
    let s' ← queuePop B s
    queueClear B s' k

/-- stack.h 105-108: `push`. -/
def stackPush (B : ℕ) (s : St α) (v : α) : Option (St α) := pushBack B s v

/-- stack.h 110-111: `pop`. -/
def stackPop (B : ℕ) (s : St α) : Option (St α) := popBack B s

/-- stack.h 92-93: `top`. -/
def stackTop (B : ℕ) (s : St α) : Option α := back B s

/-- stack.h 113-117: `clear`. -/
def stackClear (B : ℕ) (s : St α) : ℕ → Option (St α)
  | 0 => if empty s then some s else none
  | k + 1 => if empty s then some s else do
    let s' ← stackPop B s
    stackClear B s' k

/-- deque.h 44-48: `deque_buf_size`, cells per buffer for elements of `sz` bytes. -/
def bufSize (sz : ℕ) : ℕ := if sz < 256 then 4096 / sz else 16

end Verif.Deque
