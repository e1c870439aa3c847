import Mathlib.Data.Nat.Notation
/-!
# The temporary buffer — /repo/mylib/mystl/memory.h, `get_temporary_buffer` and class `temporary_buffer`

The machine's memory manager is arbitrary: `m k n` is its answer to the call number `k` of `malloc`, for `n` bytes (`none`: refused).
Addresses are numbers.  Freeing what is not allocated, freeing a pointer that was never set, and running a destructor where there is no
object are undefined behaviour (`none`).  The range has `n` elements, `n` being its distance (a valid range is not negative).
-/

namespace Verif.TempBuffer

/-- the allocated blocks with their sizes in bytes, and the number of calls of `malloc` so far -/
structure Heap where
  block : ℕ → Option ℕ
  calls : ℕ

/-- a pointer variable: never set, null, or an address -/
inductive Ptr where
  | junk
  | null
  | to (p : ℕ)

def upd {β : Type} (f : ℕ → β) (i : ℕ) (v : β) : ℕ → β := fun j => if j = i then v else f j

/-- `free(ptr)`, and `release_temporary_buffer` — memory.h:58-62 -/
def free (h : Heap) : Ptr → Option Heap
  | .junk => none
  | .null => some h
  | .to p => if (h.block p).isSome then some { h with block := upd h.block p none } else none

/-- the loop asking for less and less — memory.h:35-41 and 124-130; `len` is not negative here, `b` is what the pointer variable holds before -/
def request (m : ℕ → ℕ → Option ℕ) (sz : ℕ) (h : Heap) (b : Ptr) (len : ℕ) : Heap × Ptr × ℕ :=
  if len > 0 then
    match m h.calls (len * sz) with
    | some p => ({ block := upd h.block p (some (len * sz)), calls := h.calls + 1 }, .to p, len)
    | none => request m sz { h with calls := h.calls + 1 } .null (len / 2)
  else (h, b, len)
  termination_by len
  decreasing_by omega

/-- the longest length asked for — memory.h:33-34 and 122-123 (`INT_MAX / sizeof(T)`) -/
def limit (sz n : ℕ) : ℕ := if n > 2147483647 / sz then 2147483647 / sz else n

/-- `get_buffer_helper`, `get_temporary_buffer` — memory.h:30-55; `tmp` is local, the answer without a block is the null pointer and 0 -/
def getBuffer (m : ℕ → ℕ → Option ℕ) (sz : ℕ) (h : Heap) (n : ℕ) : Heap × Ptr × ℕ :=
  match request m sz h .null (limit sz n) with
  | (h, .to p, l) => (h, .to p, l)
  | (h, _, _) => (h, .null, 0)

/-- the members — memory.h:71-73, and the objects of the buffer that exist -/
structure Buf where
  orig : ℕ
  len : ℕ
  buffer : Ptr
  obj : ℕ → Bool

/-- running the destructors from slot `a`, `k` of them — construct.h:72-76 -/
def destroyFrom (o : ℕ → Bool) (a : ℕ) : ℕ → Option (ℕ → Bool)
  | 0 => some o
  | k + 1 => if o a then destroyFrom (upd o a false) (a + 1) k else none

/-- `destroy(first, last)` for a type whose destructor is trivial (`dt`) or not — construct.h:68-83 -/
def destroy (dt : Bool) (o : ℕ → Bool) (a k : ℕ) : Option (ℕ → Bool) := if dt then some o else destroyFrom o a k

/-- the loop of `uninitialized_fill_n`: from slot `cur`, `k` copies to make, the copy into slot `i` fails when `throws i`; the answer tells
whether all were made, and where it stopped — uninitialized.h:149-155 -/
def fillGo (throws : ℕ → Bool) (o : ℕ → Bool) (cur : ℕ) : ℕ → (ℕ → Bool) × ℕ × Bool
  | 0 => (o, cur, true)
  | k + 1 => if throws cur then (o, cur, false) else fillGo throws (upd o cur true) (cur + 1) k

/-- `uninitialized_fill_n(buffer, len, value)` — uninitialized.h:145-163: on an exception the copies made are destroyed again, and the
exception ends there -/
def fill (dt : Bool) (throws : ℕ → Bool) (o : ℕ → Bool) (len : ℕ) : Option (ℕ → Bool) :=
  match fillGo throws o 0 len with
  | (o, _, true) => some o
  | (o, cur, false) => destroy dt o 0 cur

/-- the constructor — memory.h:99-132, with `initialize_buffer` 89-91; `triv` is `is_trivially_default_constructible`.  The `catch` is reached
only if `distance` throws, which a range of `n` elements here does not do. -/
def construct (m : ℕ → ℕ → Option ℕ) (sz : ℕ) (triv dt : Bool) (throws : ℕ → Bool) (h : Heap) (n : ℕ) : Option (Heap × Buf) :=
  let (h, b, l) := request m sz h .junk (limit sz n)
  if l > 0 ∧ triv = false then do
    let o ← fill dt throws (fun _ => false) l
    some (h, { orig := n, len := l, buffer := b, obj := o })
  else some (h, { orig := n, len := l, buffer := b, obj := fun _ => false })

/-- the destructor — memory.h:79-83 -/
def destruct (dt : Bool) (h : Heap) (b : Buf) : Option (Heap × (ℕ → Bool)) := do
  let o ← destroy dt b.obj 0 b.len
  let h ← free h b.buffer
  some (h, o)

end Verif.TempBuffer
