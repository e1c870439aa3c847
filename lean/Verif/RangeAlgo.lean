import Verif.Sort
/-!
# Scanning, transforming and shuffling ranges — /repo/mylib/mystl/algo.h

An array is a list; iterators are positions in it; reading or writing outside is undefined behaviour (`none`).  `lt x y` is `x < y`
(or `comp(x, y)` in the overloads with a comparison object, which are otherwise identical).  Loops carry a number of rounds (`none`
when exceeded).  Values passed by reference are taken to be copies: they do not refer to an element of the range.
-/

namespace Verif.RangeAlgo
open Verif.Sort

variable {α : Type}

/-- the loop of `is_sorted` — algo.h:1065-1070, 1081-1086 -/
def sortedLoop (lt : α → α → Bool) (a : List α) (last : Nat) : Nat → Nat → Nat → Option Bool
  | 0, _, _ => none
  | fuel + 1, first, next =>
    if next ≠ last then do
      let x ← a[next]?
      let y ← a[first]?
      if lt x y then some false else sortedLoop lt a last fuel next (next + 1)
    else some true

/-- `is_sorted(first, last)` — algo.h:1059-1088 -/
def isSorted (lt : α → α → Bool) (a : List α) (first last : Nat) : Option Bool :=
  if first = last then some true
  else sortedLoop lt a last (last - first + 1) first (first + 1)

/-- the loop of `is_heap` — algo.h:1029-1035, 1045-1051.  The indices are `int` in the code; ranges of 2^31 and more elements are
not considered. -/
def heapLoop (lt : α → α → Bool) (a : List α) (first n : Nat) : Nat → Nat → Nat → Option Bool
  | 0, _, _ => none
  | fuel + 1, parent, child =>
    if child < n then do
      let x ← a[first + parent]?
      let y ← a[first + child]?
      if lt x y then some false
      else heapLoop lt a first n fuel (if child % 2 = 0 then parent + 1 else parent) (child + 1)
    else some true

/-- `is_heap(first, last)` — algo.h:1024-1053 -/
def isHeap (lt : α → α → Bool) (a : List α) (first last : Nat) : Option Bool :=
  heapLoop lt a first (last - first) (last - first + 1) 0 1

/-- the loop of `max_element` — algo.h:1140-1145, 1155-1160; `first` is the position before the increment -/
def maxLoop (lt : α → α → Bool) (a : List α) (last : Nat) : Nat → Nat → Nat → Option Nat
  | 0, _, _ => none
  | fuel + 1, first, result =>
    if first + 1 ≠ last then do
      let x ← a[result]?
      let y ← a[first + 1]?
      maxLoop lt a last fuel (first + 1) (if lt x y then first + 1 else result)
    else some result

/-- `max_element(first, last)` — algo.h:1135-1162 -/
def maxElement (lt : α → α → Bool) (a : List α) (first last : Nat) : Option Nat :=
  if first = last then some first else maxLoop lt a last (last - first + 1) first first

/-- the loop of `min_elememt` — algo.h:1173-1178, 1188-1193 -/
def minLoop (lt : α → α → Bool) (a : List α) (last : Nat) : Nat → Nat → Nat → Option Nat
  | 0, _, _ => none
  | fuel + 1, first, result =>
    if first + 1 ≠ last then do
      let x ← a[first + 1]?
      let y ← a[result]?
      minLoop lt a last fuel (first + 1) (if lt x y then first + 1 else result)
    else some result

/-- `min_elememt(first, last)` (so spelt) — algo.h:1168-1195 -/
def minElement (lt : α → α → Bool) (a : List α) (first last : Nat) : Option Nat :=
  if first = last then some first else minLoop lt a last (last - first + 1) first first

/-- the inner loop of `find_first_of` — algo.h:447-451, 463-467: whether one of the elements matches -/
def anyLoop (eq : α → α → Bool) (x : α) (b : List α) (last2 : Nat) : Nat → Nat → Option Bool
  | 0, _ => none
  | fuel + 1, i =>
    if i ≠ last2 then do
      let y ← b[i]?
      if eq x y then some true else anyLoop eq x b last2 fuel (i + 1)
    else some false

/-- `find_first_of(first1, last1, first2, last2)` — algo.h:439-470 -/
def findFirstOf (eq : α → α → Bool) (a : List α) (last1 : Nat) (b : List α) (first2 last2 : Nat) : Nat → Nat → Option Nat
  | 0, _ => none
  | fuel + 1, first1 =>
    if first1 ≠ last1 then do
      let x ← a[first1]?
      let found ← anyLoop eq x b last2 (last2 - first2 + 1) first2
      if found then some first1 else findFirstOf eq a last1 b first2 last2 fuel (first1 + 1)
    else some last1

/-- `transform(first, last, result, unary_op)` — algo.h:1219-1228; `replace_copy` (1327-1337) is the case
`op x = x == old ? new : x`, `replace_copy_if` (1343-1353) the case `op x = pred(x) ? new : x`.  The array afterwards and the returned position. -/
def transform (op : α → α) (last : Nat) : Nat → List α → Nat → Nat → Option (List α × Nat)
  | 0, _, _, _ => none
  | fuel + 1, a, first, result =>
    if first ≠ last then do
      let x ← a[first]?
      let a ← wr a result (op x)
      transform op last fuel a (first + 1) (result + 1)
    else some (a, result)

/-- `transform(first1, last1, first2, result, binary_op)` — algo.h:1231-1241 -/
def transform2 (op : α → α → α) (last1 : Nat) : Nat → List α → Nat → Nat → Nat → Option (List α × Nat)
  | 0, _, _, _, _ => none
  | fuel + 1, a, first1, first2, result =>
    if first1 ≠ last1 then do
      let x ← a[first1]?
      let y ← a[first2]?
      let a ← wr a result (op x y)
      transform2 op last1 fuel a (first1 + 1) (first2 + 1) (result + 1)
    else some (a, result)

/-- `replace_if(first, last, pred, new_value)` — algo.h:1358-1367; `replace` (1311-1321) is the case `p x = (x == old_value)` -/
def replaceIf (p : α → Bool) (v : α) (last : Nat) : Nat → List α → Nat → Option (List α)
  | 0, _, _ => none
  | fuel + 1, a, first =>
    if first ≠ last then do
      let x ← a[first]?
      if p x then do
        let a ← wr a first v
        replaceIf p v last fuel a (first + 1)
      else replaceIf p v last fuel a (first + 1)
    else some a

/-- `reverse_copy(first, last, result)` — algo.h:1405-1417; `--last` below position 0 is undefined -/
def reverseCopy (first : Nat) : Nat → List α → Nat → Nat → Option (List α × Nat)
  | 0, _, _, _ => none
  | fuel + 1, a, last, result =>
    if first ≠ last then
      if last = 0 then none
      else do
        let x ← a[last - 1]?
        let a ← wr a result x
        reverseCopy first fuel a (last - 1) (result + 1)
    else some (a, result)

/-- `generate(first, last, gen)` — algo.h:949-956 and `generate_n` (962-969): `gen k` is what the `k`-th call returns -/
def generate (gen : Nat → α) (last : Nat) : Nat → List α → Nat → Nat → Option (List α)
  | 0, _, _, _ => none
  | fuel + 1, a, first, k =>
    if first ≠ last then do
      let a ← wr a first (gen k)
      generate gen last fuel a (first + 1) (k + 1)
    else some a

/-- `mystl::iter_swap(i, j)` — algobase.h:62-66 -/
def swap (a : List α) (i j : Nat) : Option (List α) := do
  let x ← a[i]?
  let y ← a[j]?
  let a ← wr a i y
  wr a j x

/-- the loop of `random_shuffle` — algo.h:1430-1433, 1444-1447; `pick i` is the offset of the partner of position `i` -/
def shuffleLoop (first last : Nat) (pick : Nat → Nat) : Nat → List α → Nat → Option (List α)
  | 0, _, _ => none
  | fuel + 1, a, i =>
    if i ≠ last then do
      let a ← swap a i (first + pick i)
      shuffleLoop first last pick fuel a (i + 1)
    else some a

/-- `random_shuffle(first, last)` — algo.h:1424-1434; `rnd i` is what `rand()` returns in the round of position `i` -/
def randomShuffle (rnd : Nat → Nat) (a : List α) (first last : Nat) : Option (List α) :=
  if first = last then some a
  else shuffleLoop first last (fun i => rnd i % (i - first + 1)) (last - first + 1) a (first + 1)

/-- `random_shuffle(first, last, rand)` — algo.h:1437-1448; `rnd i` is what `rand(i - first + 1)` returns -/
def randomShuffleGen (rnd : Nat → Nat) (a : List α) (first last : Nat) : Option (List α) :=
  if first = last then some a
  else shuffleLoop first last (fun i => rnd i % (last - first)) (last - first + 1) a (first + 1)

/-- the first loop of `psort_copy_aux` — algo.h:2219-2224, 2256-2261: array, next position and the rest of the source -/
def fillLoop (resultLast : Nat) : List α → List α → Nat → Option (List α × Nat × List α)
  | [], a, r => some (a, r, [])
  | x :: xs, a, r =>
    if r ≠ resultLast then do
      let a ← wr a r x
      fillLoop resultLast xs a (r + 1)
    else some (a, r, x :: xs)

/-- the second loop of `psort_copy_aux` — algo.h:2226-2234, 2263-2271 -/
def pscLoop (lt : α → α → Bool) (first len : Nat) : List α → List α → Option (List α)
  | [], a => some a
  | x :: xs, a => do
    let y ← a[first]?
    if lt x y then do
      let a ← adjustHeap lt first a 0 len x
      pscLoop lt first len xs a
    else pscLoop lt first len xs a

/-- `partial_sort_copy(first, last, result_first, result_last)` — algo.h:2209-2286; the source range is outside the array -/
def partialSortCopy (lt : α → α → Bool) (src : List α) (a : List α) (rf rl : Nat) : Option (List α × Nat) :=
  if rf = rl then some (a, rl)
  else do
    let (a, r, rest) ← fillLoop rl src a rf
    let a ← makeHeap lt a rf r
    let a ← pscLoop lt rf (r - rf) rest a
    let a ← sortHeap lt rf (r - rf) a
    some (a, r)

end Verif.RangeAlgo
