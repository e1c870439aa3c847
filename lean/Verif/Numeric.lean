import Verif.Sort

/-!
# The numeric algorithms of `mystl` — /repo/mylib/mystl/numeric.h

Ranges are index ranges of one array, so that the output of `adjacent_difference` and `partial_sum` may overlap their input; a read or write outside the array makes the program stop (`none`).
The versions without an operation are the versions with `+`, `-`, `*` (numeric.h:18-25, 44-57, 82-89, 125-137); a loop is followed for at most `last - first` rounds more than it needs.
-/

namespace Verif.Numeric

open Verif.Sort

variable {α β : Type}

/-- `accumulate(first, last, init, binary_op)` — numeric.h:17-37 -/
def accumulate (op : β → α → β) (a : List α) (last : Nat) : Nat → Nat → β → Option β
  | 0, _, _ => none
  | fuel + 1, first, init =>
    if first = last then some init
    else do
      let x ← a[first]?
      accumulate op a last fuel (first + 1) (op init x)

/-- the loop of `adjacent_difference` — numeric.h:50-56, 68-74 -/
def diffLoop (op : α → α → α) (last : Nat) : Nat → List α → Nat → Nat → α → Option (List α × Nat)
  | 0, _, _, _, _ => none
  | fuel + 1, a, first, result, value =>
    if first + 1 = last then some (a, result + 1)
    else do
      let tmp ← a[first + 1]?
      let a ← wr a (result + 1) (op tmp value)
      diffLoop op last fuel a (first + 1) (result + 1) tmp

/-- `adjacent_difference(first, last, result, binary_op)` — numeric.h:43-75: the array afterwards and the returned position -/
def adjacentDifference (op : α → α → α) (a : List α) (first last result : Nat) : Option (List α × Nat) :=
  if first = last then some (a, result)
  else do
    let x ← a[first]?
    let a ← wr a result x
    let value ← a[first]?
    diffLoop op last (last - first) a first result value

/-- `inner_product(first1, last1, first2, init, binary_op1, binary_op2)` — numeric.h:81-101; the two ranges lie in arrays `a` and `b` -/
def innerProduct {γ δ : Type} (op1 : β → δ → β) (op2 : α → γ → δ) (a : List α) (b : List γ) (last1 : Nat) : Nat → Nat → Nat → β → Option β
  | 0, _, _, _ => none
  | fuel + 1, first1, first2, init =>
    if first1 = last1 then some init
    else do
      let x ← a[first1]?
      let y ← b[first2]?
      innerProduct op1 op2 a b last1 fuel (first1 + 1) (first2 + 1) (op1 init (op2 x y))

/-- `iota(first, last, value)` — numeric.h:107-115; `inc` is `++value` -/
def iota (inc : α → α) (last : Nat) : Nat → List α → Nat → α → Option (List α)
  | 0, _, _, _ => none
  | fuel + 1, a, first, value =>
    if first = last then some a
    else do
      let a ← wr a first value
      iota inc last fuel a (first + 1) (inc value)

/-- the loop of `partial_sum` — numeric.h:129-134, 146-151 -/
def sumLoop (op : α → α → α) (last : Nat) : Nat → List α → Nat → Nat → α → Option (List α × Nat)
  | 0, _, _, _, _ => none
  | fuel + 1, a, first, result, value =>
    if first + 1 = last then some (a, result + 1)
    else do
      let x ← a[first + 1]?
      let a ← wr a (result + 1) (op value x)
      sumLoop op last fuel a (first + 1) (result + 1) (op value x)

/-- `partial_sum(first, last, result, binary_op)` — numeric.h:122-152 -/
def partialSum (op : α → α → α) (a : List α) (first last result : Nat) : Option (List α × Nat) :=
  if first = last then some (a, result)
  else do
    let x ← a[first]?
    let a ← wr a result x
    let value ← a[first]?
    sumLoop op last (last - first) a first result value

end Verif.Numeric
