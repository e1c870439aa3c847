import Verif.Permute

/-!
# Scanning algorithms — /repo/mylib/mystl/algo.h:94-128, 139-420, 488-516, 1248-1306, 1598-1692, 2287-2341, 2626-2735

An array is a list, iterators are positions in it; reading or writing outside is undefined behaviour (`none`).  Algorithms that copy have
source and destination in one array, so that overlapping ranges are covered.  `eq x y` stands for `x == y` (and `!eq x y` for `x != y`), or
for `comp(x, y)` in the overloads with a comparison object.  Loops carry a number of rounds (`none` when exceeded): that it suffices is part
of what is proved.
-/

namespace Verif.Scan

open Verif.Sort (wr Ref)
open Verif.Permute (swp dec)

variable {α : Type}

/-- `find_if` — algo.h:106-113; `find` (94-101) is the case `p x = (x == value)`, `find_if_not` (118-125) the case of the opposite `p` -/
def findIf (p : α → Bool) (a : List α) (last : Nat) : Nat → Nat → Option Nat
  | 0, _ => none
  | fuel + 1, first =>
    if first = last then some first
    else do
      let x ← a[first]?
      if p x then some first else findIf p a last fuel (first + 1)

/-- `remove_copy_if` — algo.h:1279-1293 -/
def removeCopyIf (p : α → Bool) (last : Nat) : Nat → List α → Nat → Nat → Option (List α × Nat)
  | 0, _, _, _ => none
  | fuel + 1, a, first, result =>
    if first = last then some (a, result)
    else do
      let x ← a[first]?
      if !p x then do
        let a ← wr a result x
        removeCopyIf p last fuel a (first + 1) (result + 1)
      else removeCopyIf p last fuel a (first + 1) result

/-- `remove_if` — algo.h:1298-1306 -/
def removeIf (p : α → Bool) (a : List α) (first last : Nat) : Option (List α × Nat) := do
  let f ← findIf p a last (a.length + 1) first
  if f = last then some (a, f) else removeCopyIf p last (a.length + 1) a (f + 1) f

/-- `find(first, last, value)` with `value` a reference, possibly into the array — algo.h:94-101 -/
def find (eq : α → α → Bool) (v : Ref α) (a : List α) (last : Nat) : Nat → Nat → Option Nat
  | 0, _ => none
  | fuel + 1, first =>
    if first = last then some first
    else do
      let x ← a[first]?
      let w ← v.get a
      if !eq x w then find eq v a last fuel (first + 1) else some first

/-- `remove_copy` with `value` a reference, possibly into the array — algo.h:1248-1260 -/
def removeCopy (eq : α → α → Bool) (v : Ref α) (last : Nat) : Nat → List α → Nat → Nat → Option (List α × Nat)
  | 0, _, _, _ => none
  | fuel + 1, a, first, result =>
    if first = last then some (a, result)
    else do
      let x ← a[first]?
      let w ← v.get a
      if !eq x w then do
        let a ← wr a result x
        removeCopy eq v last fuel a (first + 1) (result + 1)
      else removeCopy eq v last fuel a (first + 1) result

/-- `remove` — algo.h:1267-1273 -/
def remove (eq : α → α → Bool) (v : Ref α) (a : List α) (first last : Nat) : Option (List α × Nat) := do
  let f ← find eq v a last (a.length + 1) first
  if f = last then some (a, f) else removeCopy eq v last (a.length + 1) a (f + 1) f

/-- the loop of `adjacent_find`, `next` already advanced — algo.h:496-500, 511-515 -/
def adjLoop (eq : α → α → Bool) (a : List α) (last : Nat) : Nat → Nat → Nat → Option Nat
  | 0, _, _ => none
  | fuel + 1, first, next =>
    if next = last then some last
    else do
      let x ← a[first]?
      let y ← a[next]?
      if eq x y then some first else adjLoop eq a last fuel next (next + 1)

/-- `adjacent_find` — algo.h:491-517 -/
def adjacentFind (eq : α → α → Bool) (a : List α) (first last : Nat) : Option Nat :=
  if first = last then some last else adjLoop eq a last (a.length + 1) first (first + 1)

/-- the loop of `unique_copy_dispatch`, forward iterators, `first` already advanced — algo.h:2637-2641, 2677-2681 -/
def uniqueFwd (eq : α → α → Bool) (last : Nat) : Nat → List α → Nat → Nat → Option (List α × Nat)
  | 0, _, _, _ => none
  | fuel + 1, a, first, result =>
    if first = last then some (a, result + 1)
    else do
      let r ← a[result]?
      let x ← a[first]?
      if !eq r x then do
        let a ← wr a (result + 1) x
        uniqueFwd eq last fuel a (first + 1) (result + 1)
      else uniqueFwd eq last fuel a (first + 1) result

/-- the loop of `unique_copy_dispatch`, output iterators, `first` already advanced — algo.h:2653-2661, 2693-2701 -/
def uniqueOut (eq : α → α → Bool) (last : Nat) : Nat → List α → Nat → Nat → α → Option (List α × Nat)
  | 0, _, _, _, _ => none
  | fuel + 1, a, first, result, value =>
    if first = last then some (a, result + 1)
    else do
      let x ← a[first]?
      if !eq value x then do
        let a ← wr a (result + 1) x
        uniqueOut eq last fuel a (first + 1) (result + 1) x
      else uniqueOut eq last fuel a (first + 1) result value

/-- `unique_copy` — algo.h:2630-2711; `out` selects the version for pure output iterators -/
def uniqueCopy (eq : α → α → Bool) (out : Bool) (a : List α) (first last result : Nat) : Option (List α × Nat) :=
  if first = last then some (a, result)
  else do
    let x ← a[first]?
    let a ← wr a result x
    if out then uniqueOut eq last (a.length + 1) a (first + 1) result x
    else uniqueFwd eq last (a.length + 1) a (first + 1) result

/-- `unique` — algo.h:2717-2730.  The result of `adjacent_find` is a forward iterator. -/
def unique (eq : α → α → Bool) (a : List α) (first last : Nat) : Option (List α × Nat) := do
  let f ← adjacentFind eq a first last
  uniqueCopy eq false a f last f

/-- the second inner loop of `partition` — algo.h:2302-2305 -/
def partDown (p : α → Bool) (a : List α) (first : Nat) : Nat → Nat → Option Nat
  | 0, _ => none
  | fuel + 1, last =>
    if first = last then some last
    else do
      let x ← a[last]?
      if !p x then do
        let last ← dec last
        partDown p a first fuel last
      else some last

/-- `partition` — algo.h:2292-2312; the first inner loop (2296-2298) is `find_if_not` -/
def partition (p : α → Bool) : Nat → List α → Nat → Nat → Option (List α × Nat)
  | 0, _, _, _ => none
  | fuel + 1, a, first, last => do
    let f ← findIf (fun x => !p x) a last (a.length + 1) first
    if f = last then some (a, f)
    else do
      let l ← dec last
      let l ← partDown p a f (a.length + 1) l
      if f = l then some (a, f)
      else do
        let a ← swp a f l
        partition p fuel a (f + 1) l

/-- `partition_copy` — algo.h:2319-2337 -/
def partitionCopy (p : α → Bool) (last : Nat) : Nat → List α → Nat → Nat → Nat → Option (List α × Nat × Nat)
  | 0, _, _, _, _ => none
  | fuel + 1, a, first, rt, rf =>
    if first = last then some (a, rt, rf)
    else do
      let x ← a[first]?
      if p x then do
        let a ← wr a rt x
        partitionCopy p last fuel a (first + 1) (rt + 1) rf
      else do
        let a ← wr a rf x
        partitionCopy p last fuel a (first + 1) rt (rf + 1)

/-- the loop of `search` — algo.h:151-172, 186-207; `a` holds the text, `b` the pattern, `d2` the length of the pattern -/
def searchLoop (eq : α → α → Bool) (a b : List α) (last1 first2 last2 d2 : Nat) : Nat → Nat → Nat → Nat → Nat → Option Nat
  | 0, _, _, _, _ => none
  | fuel + 1, first1, d1, c1, c2 =>
    if c2 = last2 then some first1
    else do
      let x ← a[c1]?
      let y ← b[c2]?
      if eq x y then searchLoop eq a b last1 first2 last2 d2 fuel first1 d1 (c1 + 1) (c2 + 1)
      else if d1 = d2 then some last1
      else searchLoop eq a b last1 first2 last2 d2 fuel (first1 + 1) (d1 - 1) (first1 + 1) first2

/-- `search` — algo.h:139-210 -/
def search (eq : α → α → Bool) (a : List α) (first1 last1 : Nat) (b : List α) (first2 last2 : Nat) : Option Nat :=
  let d1 := last1 - first1
  let d2 := last2 - first2
  if d1 < d2 then some last1
  else searchLoop eq a b last1 first2 last2 d2 ((d1 + 1) * (d2 + 1)) first1 d1 first1 first2

/-- the inner loop of `search_n` — algo.h:229-233, 270-274: final `i` and `m` -/
def runLoop (p : α → Bool) (a : List α) (last : Nat) : Nat → Nat → Nat → Option (Nat × Nat)
  | 0, _, _ => none
  | fuel + 1, i, m =>
    if i = last then some (i, m)
    else if m = 0 then some (i, m)
    else do
      let x ← a[i]?
      if p x then runLoop p a last fuel (i + 1) (m - 1) else some (i, m)

/-- the outer loop of `search_n` — algo.h:224-244, 263-291 -/
def searchNLoop (p : α → Bool) (a : List α) (last n : Nat) : Nat → Nat → Option Nat
  | 0, _ => none
  | fuel + 1, first =>
    if first = last then some last
    else do
      let (i, m) ← runLoop p a last (a.length + 1) (first + 1) (n - 1)
      if m = 0 then some first
      else do
        let f ← findIf p a last (a.length + 1) i
        searchNLoop p a last n fuel f

/-- `search_n` — algo.h:214-295, `p x` is `x == value` (`comp(x, value)`); a negative count behaves as 0 -/
def searchN (p : α → Bool) (a : List α) (first last n : Nat) : Option Nat :=
  if n = 0 then some first
  else do
    let f ← findIf p a last (a.length + 1) first
    searchNLoop p a last n (a.length + 1) f

/-- the loop of `find_end` for forward iterators — algo.h:312-327, 368-383 -/
def findEndLoop (eq : α → α → Bool) (a : List α) (last1 : Nat) (b : List α) (first2 last2 : Nat) : Nat → Nat → Nat → Option Nat
  | 0, _, _ => none
  | fuel + 1, first1, result => do
    let r ← search eq a first1 last1 b first2 last2
    if r = last1 then some result else findEndLoop eq a last1 b first2 last2 fuel (r + 1) r

/-- `find_end`, forward iterators — algo.h:299-329, 355-385 -/
def findEndFwd (eq : α → α → Bool) (a : List α) (first1 last1 : Nat) (b : List α) (first2 last2 : Nat) : Option Nat :=
  if first2 = last2 then some last1
  else findEndLoop eq a last1 b first2 last2 (last1 - first1 + 1) first1 last1

/-- `find_end`, bidirectional iterators — algo.h:332-352, 388-408.  A reverse iterator with base `i` on an array of `N` elements
(iterator.h:223-320: dereferencing reads cell `i - 1`, `++` decrements the base, the difference is that of the bases the other way round) is
position `N - i` in the reversed array. -/
def findEndBi (eq : α → α → Bool) (a : List α) (first1 last1 : Nat) (b : List α) (first2 last2 : Nat) : Option Nat := do
  let rlast1 := a.length - first1
  let r ← search eq a.reverse (a.length - last1) rlast1 b.reverse (b.length - last2) (b.length - first2)
  if r = rlast1 then some last1
  else if last2 - first2 ≤ a.length - r then some (a.length - r - (last2 - first2)) else none

/-- the first loop of `is_permutation_aux` — algo.h:1614-1619: both iterators -/
def prefixLoop (pred : α → α → Bool) (a : List α) (last1 : Nat) (b : List α) (last2 : Nat) : Nat → Nat → Nat → Option (Nat × Nat)
  | 0, _, _ => none
  | fuel + 1, first1, first2 =>
    if first1 = last1 then some (first1, first2)
    else if first2 = last2 then some (first1, first2)
    else do
      let x ← a[first1]?
      let y ← b[first2]?
      if !pred x y then some (first1, first2) else prefixLoop pred a last1 b last2 fuel (first1 + 1) (first2 + 1)

/-- `for (; j != last; ++j) if (pred(x, *j)) ++c;` — algo.h:1652-1656, 1663-1667.  The counter is an `int` in the code; overflow (more than
2³¹ equal elements) is not modelled. -/
def countLoop (pred : α → α → Bool) (x : α) (a : List α) (last : Nat) : Nat → Nat → Nat → Option Nat
  | 0, _, _ => none
  | fuel + 1, j, c =>
    if j = last then some c
    else do
      let y ← a[j]?
      countLoop pred x a last fuel (j + 1) (if pred x y then c + 1 else c)

/-- the main loop of `is_permutation_aux` — algo.h:1636-1672; the search for an earlier equal element (1639-1646) is `find_if` with
`pred(*j, *i)` -/
def permLoop (pred : α → α → Bool) (a : List α) (first1 last1 : Nat) (b : List α) (first2 last2 : Nat) : Nat → Nat → Option Bool
  | 0, _ => none
  | fuel + 1, i =>
    if i = last1 then some true
    else do
      let x ← a[i]?
      let j ← findIf (fun y => pred y x) a i (a.length + 1) first1
      if j = i then do
        let c2 ← countLoop pred x b last2 (b.length + 1) first2 0
        if c2 = 0 then some false
        else do
          let c1 ← countLoop pred x a last1 (a.length + 1) (i + 1) 1
          if c1 ≠ c2 then some false else permLoop pred a first1 last1 b first2 last2 fuel (i + 1)
      else permLoop pred a first1 last1 b first2 last2 fuel (i + 1)

/-- `is_permutation` — algo.h:1598-1692; `ra`: both iterators are random access -/
def isPermutation (pred : α → α → Bool) (ra : Bool) (a : List α) (first1 last1 : Nat) (b : List α) (first2 last2 : Nat) : Option Bool :=
  if ra && !(last1 - first1 == last2 - first2) then some false
  else do
    let (f1, f2) ← prefixLoop pred a last1 b last2 (a.length + 1) first1 first2
    if ra then
      if f1 = last1 then some true else permLoop pred a f1 last1 b f2 last2 (a.length + 1) f1
    else if last1 - f1 = 0 ∧ last2 - f2 = 0 then some true
    else if last1 - f1 ≠ last2 - f2 then some false
    else permLoop pred a f1 last1 b f2 last2 (a.length + 1) f1

end Verif.Scan
