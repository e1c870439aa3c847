import Mathlib.Data.Nat.Notation
/-!
# Construction in raw memory — /repo/mylib/mystl/uninitialized.h, construct.h, and the vectors made with it

The memory is a function from addresses to objects, `none` where there is no object.  Copying or moving element number `i` of a range fails
(throws) when `throws i`.  Reading, moving from or destroying what does not exist, and constructing over a living object, are undefined
behaviour (`none`).  A type has the value that copying gives; `moved` is what a move leaves in the source, `spoilt` what a failed move leaves.
-/

namespace Verif.Uninit

variable {V : Type}

/-- the memory -/
abbrev Mem (V : Type) := ℕ → Option V

def upd {β : Type} (f : ℕ → β) (i : ℕ) (v : β) : ℕ → β := fun j => if j = i then v else f j

/-- how a function ends: it returns an address, it returns nothing, or the exception leaves it -/
inductive Out where
  | ret (p : ℕ)
  | void
  | exc

/-- how a loop ends: all done, or at this address when the exception was thrown -/
inductive Stop where
  | all (cur : ℕ)
  | threw (cur : ℕ)

/-- `construct(&*cur, value)` — construct.h:27-43 -/
def construct (m : Mem V) (a : ℕ) (v : V) : Option (Mem V) := if (m a).isNone then some (upd m a (some v)) else none

/-- `destroy(Ty*)`, `destroy_one` — construct.h:47-63; `dt`: the destructor is trivial -/
def destroyOne (dt : Bool) (m : Mem V) (a : ℕ) : Option (Mem V) :=
  if dt then some m else if (m a).isSome then some (upd m a none) else none

/-- upwards, `k` objects from `a` on: `destroy(first, last)` — construct.h:65-83, and the loops of uninitialized.h:120-121, 159-160, 238-239 -/
def destroyUp (dt : Bool) (m : Mem V) (a : ℕ) : ℕ → Option (Mem V)
  | 0 => some m
  | k + 1 => do destroyUp dt (← destroyOne dt m a) (a + 1) k

/-- downwards, as the loops of `uninitialized_copy` do it: `for (; result != cur; --cur) destroy(&*cur)` with `cur = result + k` —
uninitialized.h:40-41, 80-81 -/
def destroyDown (dt : Bool) (m : Mem V) (result : ℕ) : ℕ → Option (Mem V)
  | 0 => some m
  | k + 1 => do destroyDown dt (← destroyOne dt m (result + (k + 1))) result k

/-- assignment of a range, element by element; for types whose assignment is trivial this also begins the life of the target — `copy`, `move`
called in uninitialized.h:23, 63, 182, 221 -/
def assignGo (left : V → V) (m : Mem V) (first cur : ℕ) : ℕ → Option (Mem V × ℕ)
  | 0 => some (m, cur)
  | k + 1 => do
    let v ← m first
    assignGo left (upd (upd m first (some (left v))) cur (some v)) (first + 1) (cur + 1) k

/-- `fill`, `fill_n` called in uninitialized.h:103, 142 -/
def assignFill (v : V) (m : Mem V) (cur : ℕ) : ℕ → Mem V × ℕ
  | 0 => (m, cur)
  | k + 1 => assignFill v (upd m cur (some v)) (cur + 1) k

/-- the loops of construction from another range, `i` elements made so far, `k` to go — uninitialized.h:33-36, 73-76 (copy: `left` and `spoilt`
are the identity), 192-195, 231-234 (move) -/
def buildGo (throws : ℕ → Bool) (left spoilt : V → V) (m : Mem V) (first cur i : ℕ) : ℕ → Option (Mem V × Stop)
  | 0 => some (m, .all cur)
  | k + 1 => do
    let v ← m first
    if throws i then some (upd m first (some (spoilt v)), .threw cur)
    else buildGo throws left spoilt (← construct (upd m first (some (left v))) cur v) (first + 1) (cur + 1) (i + 1) k

/-- the loops of construction from one value — uninitialized.h:113-116, 152-155 -/
def fillGo (throws : ℕ → Bool) (v : V) (m : Mem V) (cur i : ℕ) : ℕ → Option (Mem V × Stop)
  | 0 => some (m, .all cur)
  | k + 1 =>
    if throws i then some (m, .threw cur)
    else do fillGo throws v (← construct m cur v) (cur + 1) (i + 1) k

/-- `uninitialized_copy` — uninitialized.h:18-53, the range has `n` elements; `ct` is `is_trivially_copy_assignable` -/
def uninitCopy (ct dt : Bool) (throws : ℕ → Bool) (m : Mem V) (first n result : ℕ) : Option (Mem V × Out) :=
  if ct then do
    let (m, p) ← assignGo id m first result n
    some (m, .ret p)
  else do
    match ← buildGo throws id id m first result 0 n with
    | (m, .all cur) => some (m, .ret cur)
    | (m, .threw cur) => some (← destroyDown dt m result (cur - result), .ret result)

/-- `uninitialized_copy_n` — uninitialized.h:58-93 -/
def uninitCopyN (ct dt : Bool) (throws : ℕ → Bool) (m : Mem V) (first n result : ℕ) : Option (Mem V × Out) :=
  if ct then do
    let (m, p) ← assignGo id m first result n
    some (m, .ret p)
  else do
    match ← buildGo throws id id m first result 0 n with
    | (m, .all cur) => some (m, .ret cur)
    | (m, .threw cur) => some (← destroyDown dt m result (cur - result), .ret result)

/-- `uninitialized_fill` — uninitialized.h:98-132 -/
def uninitFill (ct dt : Bool) (throws : ℕ → Bool) (m : Mem V) (first n : ℕ) (v : V) : Option (Mem V × Out) :=
  if ct then some ((assignFill v m first n).1, .void)
  else do
    match ← fillGo throws v m first 0 n with
    | (m, .all _) => some (m, .void)
    | (m, .threw cur) => some (← destroyUp dt m first (cur - first), .void)

/-- `uninitialized_fill_n` — uninitialized.h:137-172 -/
def uninitFillN (ct dt : Bool) (throws : ℕ → Bool) (m : Mem V) (first n : ℕ) (v : V) : Option (Mem V × Out) :=
  if ct then some ((assignFill v m first n).1, .ret (assignFill v m first n).2)
  else do
    match ← fillGo throws v m first 0 n with
    | (m, .all cur) => some (m, .ret cur)
    | (m, .threw cur) => some (← destroyUp dt m first (cur - first), .ret cur)

/-- `uninitialized_move` — uninitialized.h:177-211; `mt` is `is_trivially_move_assignable` -/
def uninitMove (mt dt : Bool) (throws : ℕ → Bool) (left spoilt : V → V) (m : Mem V) (first n result : ℕ) : Option (Mem V × Out) :=
  if mt then do
    let (m, p) ← assignGo left m first result n
    some (m, .ret p)
  else do
    match ← buildGo throws left spoilt m first result 0 n with
    | (m, .all cur) => some (m, .ret cur)
    | (m, .threw cur) => some (← destroyUp dt m result (cur - result), .ret cur)

/-- `uninitialized_move_n` — uninitialized.h:216-253: here the exception is thrown on -/
def uninitMoveN (mt dt : Bool) (throws : ℕ → Bool) (left spoilt : V → V) (m : Mem V) (first n result : ℕ) : Option (Mem V × Out) :=
  if mt then do
    let (m, p) ← assignGo left m first result n
    some (m, .ret p)
  else do
    match ← buildGo throws left spoilt m first result 0 n with
    | (m, .all cur) => some (m, .ret cur)
    | (m, .threw cur) => some (← destroyUp dt m result (cur - result), .exc)

/-- `vector(n, value)` in the `max(16, n)` raw cells from `base` on: memory, `begin_`, `end_` — vector.h:79-80, 570-598 -/
def vectorFill (ct dt : Bool) (throws : ℕ → Bool) (m : Mem V) (base n : ℕ) (v : V) : Option (Mem V × Option (ℕ × ℕ)) := do
  match ← uninitFillN ct dt throws m base n v with
  | (m, .exc) => some (m, none)
  | (m, _) => some (m, some (base, base + n))

/-- `vector(first, last)` — vector.h:82-88, 600-610 -/
def vectorRange (ct dt : Bool) (throws : ℕ → Bool) (m : Mem V) (base first n : ℕ) : Option (Mem V × Option (ℕ × ℕ)) := do
  match ← uninitCopy ct dt throws m first n base with
  | (m, .exc) => some (m, none)
  | (m, _) => some (m, some (base, base + n))

/-- `~vector` up to the release of the memory — vector.h:120-124, 612-620 -/
def vectorDestroy (dt : Bool) (m : Mem V) (b e : ℕ) : Option (Mem V) := destroyUp dt m b (e - b)

end Verif.Uninit
