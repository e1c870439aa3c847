import Verif.DequeBulk
/-!
# Several deques: copies, moves, swaps — /repo/mylib/mystl/deque.h

Every deque variable has its own map and buffers; the memory that no variable reaches any more is counted.
-/
namespace Verif.Deque

variable {α : Type}

/-- A deque variable: with a map, or moved from (`map_` is null; `begin_` and `end_` still point where they pointed). -/
inductive Var (α : Type) where
  | full (s : St α)
  | hollow

/-- The variables, and the buffers and maps allocated which no variable reaches any more. -/
structure World (α : Type) where
  var : ℕ → Option (Var α)
  lostBuffers : ℕ
  lostMaps : ℕ

/-- Reading `k` elements from `it` on with an iterator (deque.h 966-980 read the range of a copy construction this way). -/
def readFrom (B : ℕ) (s : St α) (it : It) : ℕ → Option (List α)
  | 0 => some []
  | k + 1 => do
    let v ← read B s it
    let it ← inc B s it
    let r ← readFrom B s it k
    some (v :: r)

/-- The elements from `begin()` to `end()`. -/
def elements (B : ℕ) (s : St α) : Option (List α) := readFrom B s s.b (size B s).toNat

def setVar (w : World α) (h : ℕ) (v : Option (Var α)) : World α := { w with var := upd w.var h v }

/-- The deque of a variable that has one. -/
def full (w : World α) (h : ℕ) : Option (St α) :=
  match w.var h with
  | some (.full s) => some s
  | _ => none

/-- deque.h 289-299: the destructor; a variable moved from has nothing to release. -/
def drop (B : ℕ) (w : World α) (v : Var α) : Option (World α) :=
  match v with
  | .full s => do
    let left ← destructor B s
    some { w with lostBuffers := w.lostBuffers + left.length }
  | .hollow => some w

/-- deque.h 265-267: the copy constructor. -/
def copyCon (B : ℕ) (w : World α) (h g : ℕ) : Option (World α) := do
  let s ← full w g
  let l ← elements B s
  let t ← ofList B l
  some (setVar w h (some (.full t)))

/-- deque.h 269-277: the move constructor. -/
def moveCon (w : World α) (h g : ℕ) : Option (World α) := do
  let v ← w.var g
  some (setVar (setVar w h (some v)) g (some .hollow))

/-- deque.h 486-503: the copy assignment. -/
def copyAssign (triv : Bool) (B : ℕ) (w : World α) (h g : ℕ) : Option (World α) :=
  if h ≠ g then do
    let t ← full w h
    let s ← full w g
    let l ← elements B s
    let t ← assignList triv B t l
    some (setVar w h (some (.full t)))
  else some w

/-- deque.h 507-517: the move assignment: what `clear` leaves of the target is not released. -/
def moveAssign (B : ℕ) (w : World α) (h g : ℕ) : Option (World α) := do
  let t ← full w h
  let t ← clear B t
  let w1 : World α := { w with lostBuffers := w.lostBuffers + t.live.length, lostMaps := w.lostMaps + 1 }
  let w2 ← (if h = g then some w1 else do
    let v ← w.var g
    some (setVar w1 h (some v)))
  some (setVar w2 g (some .hollow))

/-- deque.h 837-846: `swap`. -/
def swapVars (w : World α) (h g : ℕ) : Option (World α) :=
  if h ≠ g then do
    let v ← w.var h
    let u ← w.var g
    some (setVar (setVar w h (some u)) g (some v))
  else some w

/-- deque.h 282-287: assignment of a list: a new deque, `swap`, and the destructor of the old one. -/
def listAssign (B : ℕ) (w : World α) (h : ℕ) (l : List α) : Option (World α) := do
  let tmp ← ofList B l
  let v ← w.var h
  drop B (setVar w h (some (.full tmp))) v

/-- `h = g` directly after `h` was moved into the deque `owner` (deque.h 486-503): the iterators of `h` point into the buffers of
`owner`, and `size()` is still what it was.  Only the case in which `map_` (null) is not needed: as many elements as before, not none. -/
def hollowAssign (triv : Bool) (B : ℕ) (owner : St α) (vs : List α) : Option (St α) :=
  if vs.length = (size B owner).toNat ∧ 0 < vs.length then assignList triv B owner vs else none

end Verif.Deque
