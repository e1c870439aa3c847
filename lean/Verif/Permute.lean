import Verif.Sort

/-!
# Reversing, rotating and permuting a range — /repo/mylib/mystl/algo.h:1198-1214, 1370-1397, 1450-1581, 1695-1805

An array is a list; iterators are positions in it; reading, writing or stepping outside it is undefined behaviour (`none`).  Moving an
element (`mystl::move`) is copying its value.  `lt x y` is `x < y` (or `comp(x, y)` in the overloads with a comparison object, which
are otherwise identical).  Loops carry a number of rounds (`none` when exceeded): that it suffices is part of what is proved.
-/

namespace Verif.Permute

open Verif.Sort (wr)

variable {α : Type}

/-- the iterator categories the library distinguishes here — algo.h:1459, 1490, 1526, 1376, 1389 -/
inductive Cat
  | fwd
  | bi
  | ra

/-- `mystl::swap(*i, *j)` (util.h:39-44), `mystl::iter_swap(i, j)` (algobase.h:62-66) -/
def swp (a : List α) (i j : Nat) : Option (List α) := do
  let tmp ← a[i]?
  let y ← a[j]?
  let a ← wr a i y
  wr a j tmp

/-- `--it` on a position -/
def dec (i : Nat) : Option Nat := if i = 0 then none else some (i - 1)

/-- `reverse_dispatch`, bidirectional — algo.h:1374-1383 -/
def reverseBi : Nat → List α → Nat → Nat → Option (List α)
  | 0, _, _, _ => none
  | fuel + 1, a, first, last =>
    if first = last then some a
    else do
      let last ← dec last
      if first = last then some a
      else do
        let a ← swp a first last
        reverseBi fuel a (first + 1) last

/-- `reverse_dispatch`, random access — algo.h:1386-1392 -/
def reverseRa : Nat → List α → Nat → Nat → Option (List α)
  | 0, _, _, _ => none
  | fuel + 1, a, first, last =>
    if first < last then do
      let last ← dec last
      let a ← swp a first last
      reverseRa fuel a (first + 1) last
    else some a

/-- `reverse` — algo.h:1394-1397 (needs at least bidirectional iterators) -/
def reverse (c : Cat) (a : List α) (first last : Nat) : Option (List α) :=
  match c with
  | .ra => reverseRa (last - first + 1) a first last
  | .bi => reverseBi (last - first + 1) a first last
  | .fwd => none

/-- `swap_ranges` — algo.h:1202-1212 -/
def swapRanges (last1 : Nat) : Nat → List α → Nat → Nat → Option (List α)
  | 0, _, _, _ => none
  | fuel + 1, a, first1, first2 =>
    if first1 ≠ last1 then do
      let a ← swp a first1 first2
      swapRanges last1 fuel a (first1 + 1) (first2 + 1)
    else some a

/-- the first loop of `rotate_dispatch`, forward — algo.h:1461-1467: array, `first` and `middle` when `first2` has reached `last` -/
def rotFwd1 (last : Nat) : Nat → List α → Nat → Nat → Nat → Option (List α × Nat × Nat)
  | 0, _, _, _, _ => none
  | fuel + 1, a, first, middle, first2 => do
    let a ← swp a first first2
    let first := first + 1
    let first2 := first2 + 1
    let middle := if first = middle then first2 else middle
    if first2 ≠ last then rotFwd1 last fuel a first middle first2
    else some (a, first, middle)

/-- the second loop of `rotate_dispatch`, forward — algo.h:1471-1482 -/
def rotFwd2 (last : Nat) : Nat → List α → Nat → Nat → Nat → Option (List α)
  | 0, _, _, _, _ => none
  | fuel + 1, a, first, middle, first2 =>
    if first2 ≠ last then do
      let a ← swp a first first2
      let first := first + 1
      let first2 := first2 + 1
      if first = middle then rotFwd2 last fuel a first first2 first2
      else if first2 = last then rotFwd2 last fuel a first middle middle
      else rotFwd2 last fuel a first middle first2
    else some a

/-- `rotate_dispatch`, forward — algo.h:1455-1484: array and returned position -/
def rotateFwd (a : List α) (first middle last : Nat) : Option (List α × Nat) := do
  let (a, first, middle) ← rotFwd1 last (last - first + 1) a first middle middle
  let a ← rotFwd2 last (last - first + 1) a first middle middle
  some (a, first)

/-- the swapping loop of `rotate_dispatch`, bidirectional — algo.h:1494-1495 -/
def rotBiLoop (middle : Nat) : Nat → List α → Nat → Nat → Option (List α × Nat × Nat)
  | 0, _, _, _ => none
  | fuel + 1, a, first, last =>
    if first ≠ middle ∧ middle ≠ last then do
      let last ← dec last
      let a ← swp a first last
      rotBiLoop middle fuel a (first + 1) last
    else some (a, first, last)

/-- `rotate_dispatch`, bidirectional — algo.h:1487-1506 -/
def rotateBi (a : List α) (first middle last : Nat) : Option (List α × Nat) := do
  let a ← reverseBi (middle - first + 1) a first middle
  let a ← reverseBi (last - middle + 1) a middle last
  let (a, first, last) ← rotBiLoop middle (last - first + 1) a first last
  if first = middle then do
    let a ← reverseBi (last - middle + 1) a middle last
    some (a, last)
  else do
    let a ← reverseBi (middle - first + 1) a first middle
    some (a, first)

/-- `rgcd` — algo.h:1509-1519 -/
def rgcd : Nat → Nat → Nat → Option Nat
  | 0, _, _ => none
  | fuel + 1, m, n => if n ≠ 0 then rgcd fuel n (m % n) else some m

/-- `*p = *q` -/
def cpy (a : List α) (p q : Nat) : Option (List α) := do
  let x ← a[q]?
  wr a p x

/-- the inner loop for `l < r` — algo.h:1544-1554; `n` rounds are left -/
def cycleShort (first l r : Nat) : Nat → List α → Nat → Option (List α × Nat)
  | 0, a, p => some (a, p)
  | n + 1, a, p => do
    let (a, p) ← (if p > first + r then do
        let a ← cpy a p (p - r)
        some (a, p - r)
      else some (a, p))
    let a ← cpy a p (p + l)
    cycleShort first l r n a (p + l)

/-- the inner loop for `l ≥ r` — algo.h:1556-1566 (`last - l` and `p - r` must not leave the array) -/
def cycleLong (last l r : Nat) : Nat → List α → Nat → Option (List α × Nat)
  | 0, a, p => some (a, p)
  | n + 1, a, p => do
    if last < l then none
    else do
      let (a, p) ← (if p < last - l then do
          let a ← cpy a p (p + l)
          some (a, p + l)
        else some (a, p))
      if p < r then none
      else do
        let a ← cpy a p (p - r)
        cycleLong last l r n a (p - r)

/-- the loop over the cycles — algo.h:1538-1569; `k` cycles are left, `first` moves up by one each time -/
def cycles (last l r c : Nat) : Nat → List α → Nat → Option (List α)
  | 0, a, _ => some a
  | k + 1, a, first => do
    let tmp ← a[first]?
    let (a, p) ← (if l < r then cycleShort first l r (r / c) a first
      else cycleLong last l r (l / c - 1) a first)
    let a ← wr a p tmp
    cycles last l r c k a (first + 1)

/-- `rotate_dispatch`, random access — algo.h:1522-1570 -/
def rotateRa (a : List α) (first middle last : Nat) : Option (List α × Nat) := do
  let n := last - first
  let l := middle - first
  let r := n - l
  let result := first + (last - middle)
  if l = r then do
    let a ← swapRanges middle (l + 1) a first middle
    some (a, result)
  else do
    let c ← rgcd (n + l + 1) n l
    let a ← cycles last l r c c a first
    some (a, result)

/-- `rotate` — algo.h:1572-1581: array and returned position -/
def rotate (c : Cat) (a : List α) (first middle last : Nat) : Option (List α × Nat) :=
  if first = middle then some (a, last)
  else if middle = last then some (a, first)
  else match c with
    | .fwd => rotateFwd a first middle last
    | .bi => rotateBi a first middle last
    | .ra => rotateRa a first middle last

variable (lt : α → α → Bool)

/-- `while (!(*i < *--j)) {}` — algo.h:1713, 1740; `x = *i`, the result is the final `j` -/
def findGreater (a : List α) (x : α) : Nat → Nat → Option Nat
  | 0, _ => none
  | fuel + 1, j => do
    let j ← dec j
    let y ← a[j]?
    if !(lt x y) then findGreater a x fuel j else some j

/-- the loop of `next_permutation` — algo.h:1707-1724, 1734-1751 -/
def nextLoop (c : Cat) (first last : Nat) : Nat → List α → Nat → Option (List α × Bool)
  | 0, _, _ => none
  | fuel + 1, a, i => do
    let ii := i
    let i ← dec i
    let x ← a[i]?
    let y ← a[ii]?
    if lt x y then do
      let j ← findGreater lt a x (last + 1) last
      let a ← swp a i j
      let a ← reverse c a ii last
      some (a, true)
    else if i = first then do
      let a ← reverse c a first last
      some (a, false)
    else nextLoop c first last fuel a i

/-- `next_permutation` — algo.h:1701-1725, 1728-1752: the array and what is returned -/
def nextPermutation (c : Cat) (a : List α) (first last : Nat) : Option (List α × Bool) := do
  if first = last then some (a, false)
  else do
    let i ← dec last
    if first = i then some (a, false)
    else nextLoop lt c first last (last - first + 1) a i

/-- `while (!(*--j < *i)) {}` — algo.h:1768, 1794; `x = *i` -/
def findLess (a : List α) (x : α) : Nat → Nat → Option Nat
  | 0, _ => none
  | fuel + 1, j => do
    let j ← dec j
    let y ← a[j]?
    if !(lt y x) then findLess a x fuel j else some j

/-- the loop of `prev_permutation` — algo.h:1762-1778, 1788-1804 -/
def prevLoop (c : Cat) (first last : Nat) : Nat → List α → Nat → Option (List α × Bool)
  | 0, _, _ => none
  | fuel + 1, a, i => do
    let ii := i
    let i ← dec i
    let x ← a[i]?
    let y ← a[ii]?
    if lt y x then do
      let j ← findLess lt a x (last + 1) last
      let a ← swp a i j
      let a ← reverse c a ii last
      some (a, true)
    else if i = first then do
      let a ← reverse c a first last
      some (a, false)
    else prevLoop c first last fuel a i

/-- `prev_permutation` — algo.h:1756-1779, 1782-1805: the array and what is returned -/
def prevPermutation (c : Cat) (a : List α) (first last : Nat) : Option (List α × Bool) := do
  if first = last then some (a, false)
  else do
    let i ← dec last
    if first = i then some (a, false)
    else prevLoop lt c first last (last - first + 1) a i

end Verif.Permute
