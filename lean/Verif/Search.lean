import Mathlib.Data.Int.Notation

/-!
# Binary searches — /repo/mylib/mystl/algo.h:518-943

A range `[first, last)` of iterators is a pair of positions in a list; dereferencing outside the list is undefined (`none`).
`lt x y` is `x < y`, or `comp(x, y)` in the overloads with a comparison object (the two versions of every function differ in
nothing else, except where noted).  Loops carry the number of rounds left; it suffices because `len` shrinks each round.
-/

namespace Verif.Search

variable {α : Type}

/-- the loop of `lbound_dispatch` — algo.h:553-574, 615-636 (random access), 525-548, 587-610 (forward): `p x` is `*middle < value` -/
def lbLoop (p : α → Bool) (l : List α) : Nat → Nat → Nat → Option Nat
  | 0, _, _ => none
  | fuel + 1, first, len =>
    if len > 0 then do
      let half := len / 2
      let middle := first + half
      if p (← l[middle]?) then lbLoop p l fuel (middle + 1) (len - half - 1)
      else lbLoop p l fuel first half
    else some first

/-- `lower_bound(first, last, value)` — algo.h:576-581, 638-643 -/
def lowerBound (lt : α → α → Bool) (l : List α) (first last : Nat) (value : α) : Option Nat :=
  lbLoop (fun x => lt x value) l (last - first + 1) first (last - first)

/-- the loop of `ubound_dispatch` — algo.h:680-701, 742-763, 652-675, 714-737: `q x` is `value < *middle` -/
def ubLoop (q : α → Bool) (l : List α) : Nat → Nat → Nat → Option Nat
  | 0, _, _ => none
  | fuel + 1, first, len =>
    if len > 0 then do
      let half := len / 2
      let middle := first + half
      if q (← l[middle]?) then ubLoop q l fuel first half
      else ubLoop q l fuel (middle + 1) (len - half - 1)
    else some first

/-- `upper_bound(first, last, value)` — algo.h:703-708, 765-770 -/
def upperBound (lt : α → α → Bool) (l : List α) (first last : Nat) (value : α) : Option Nat :=
  ubLoop (fun x => lt value x) l (last - first + 1) first (last - first)

/-- `binary_search(first, last, value)` — algo.h:776-781 -/
def binarySearch (lt : α → α → Bool) (l : List α) (first last : Nat) (value : α) : Option Bool := do
  let i ← lowerBound lt l first last value
  if i ≠ last then pure (!lt value (← l[i]?)) else pure false

/-- `binary_search(first, last, value, comp)` — algo.h:784-789: the lower bound is looked up with `operator<` (`lt`), not `comp` -/
def binarySearchComp (lt comp : α → α → Bool) (l : List α) (first last : Nat) (value : α) : Option Bool := do
  let i ← lowerBound lt l first last value
  if i ≠ last then pure (!comp value (← l[i]?)) else pure false

/-- the loop of `erange_dispatch`, random access version — algo.h:834-861, 909-936 -/
def erLoop (lt : α → α → Bool) (l : List α) (last : Nat) (value : α) : Nat → Nat → Nat → Option (Nat × Nat)
  | 0, _, _ => none
  | fuel + 1, first, len =>
    if len > 0 then do
      let half := len / 2
      let middle := first + half
      let x ← l[middle]?
      if lt x value then erLoop lt l last value fuel (middle + 1) (len - half - 1)
      else if lt value x then erLoop lt l last value fuel first half
      else do
        let left ← lowerBound lt l first middle value
        let right ← upperBound lt l (middle + 1) (first + len) value
        pure (left, right)
    else some (last, last)

/-- `equal_range(first, last, value)` on random access iterators — algo.h:863-868, 938-943 -/
def equalRange (lt : α → α → Bool) (l : List α) (first last : Nat) (value : α) : Option (Nat × Nat) :=
  erLoop lt l last value (last - first + 1) first (last - first)

/-- the loop of `erange_dispatch`, forward version — algo.h:799-829, 874-904: the left end is searched in `[first, last)` -/
def erLoopF (lt : α → α → Bool) (l : List α) (last : Nat) (value : α) : Nat → Nat → Nat → Option (Nat × Nat)
  | 0, _, _ => none
  | fuel + 1, first, len =>
    if len > 0 then do
      let half := len / 2
      let middle := first + half
      let x ← l[middle]?
      if lt x value then erLoopF lt l last value fuel (middle + 1) (len - half - 1)
      else if lt value x then erLoopF lt l last value fuel first half
      else do
        let left ← lowerBound lt l first last value
        let right ← upperBound lt l (middle + 1) (first + len) value
        pure (left, right)
    else some (last, last)

/-- `equal_range(first, last, value)` on forward iterators — algo.h:863-868, 938-943 -/
def equalRangeF (lt : α → α → Bool) (l : List α) (first last : Nat) (value : α) : Option (Nat × Nat) :=
  erLoopF lt l last value (last - first + 1) first (last - first)

end Verif.Search
