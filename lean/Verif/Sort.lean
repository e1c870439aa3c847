import Mathlib.Data.Int.Notation

/-!
# Heaps and sorting — /repo/mylib/mystl/heap_algo.h, /repo/mylib/mystl/algo.h:2170-2203, 2342-2580

An array is a list; iterators are positions in it; reading or writing outside the list is undefined behaviour (`none`).  `lt x y` is
`x < y` (or `comp(x, y)` in the overloads with a comparison object, which are otherwise identical).  Loops carry a number of rounds
(`none` when exceeded): that it suffices is part of what is proved.
-/

namespace Verif.Sort

variable {α : Type}

/-- `*(first + i) = v` -/
def wr (a : List α) (i : Nat) (v : α) : Option (List α) := if i < a.length then some (a.set i v) else none

variable (lt : α → α → Bool)

/-- `push_heap_aux` — heap_algo.h:15-27, 42-54 -/
def pushAux (f top : Nat) (value : α) : Nat → List α → Nat → Option (List α)
  | 0, _, _ => none
  | fuel + 1, a, hole =>
    if hole > top then do
      let parent := (hole - 1) / 2
      let x ← a[f + parent]?
      if lt x value then do
        let a ← wr a (f + hole) x
        pushAux f top value fuel a parent
      else wr a (f + hole) value
    else wr a (f + hole) value

/-- `push_heap` — heap_algo.h:29-39, 56-67 -/
def pushHeap (a : List α) (first last : Nat) : Option (List α) := do
  if last = 0 then none
  else do
    let value ← a[last - 1]?
    pushAux lt first 0 value (last - first + 1) a (last - first - 1)

/-- the descent of `adjust_heap` — heap_algo.h:76-91, 116-130: array and hole at the end -/
def downLoop (f len : Nat) : Nat → List α → Nat → Option (List α × Nat)
  | 0, _, _ => none
  | fuel + 1, a, hole =>
    let rchild := 2 * hole + 2
    if rchild < len then do
      let x ← a[f + rchild]?
      let y ← a[f + rchild - 1]?
      let c := if lt x y then rchild - 1 else rchild
      let z ← a[f + c]?
      let a ← wr a (f + hole) z
      downLoop f len fuel a c
    else if rchild = len then do
      let z ← a[f + (rchild - 1)]?
      let a ← wr a (f + hole) z
      pure (a, rchild - 1)
    else pure (a, hole)

/-- `adjust_heap` — heap_algo.h:73-94, 112-133 -/
def adjustHeap (f : Nat) (a : List α) (hole len : Nat) (value : α) : Option (List α) := do
  let (a, h) ← downLoop lt f len (len + 1) a hole
  pushAux lt f hole value (h + 1) a h

/-- `pop_heap_aux(first, last, result, value)` — heap_algo.h:96-103, 135-141 -/
def popAux (a : List α) (first last result : Nat) (value : α) : Option (List α) := do
  let x ← a[first]?
  let a ← wr a result x
  adjustHeap lt first a 0 (last - first) value

/-- `pop_heap` — heap_algo.h:105-109, 143-148 -/
def popHeap (a : List α) (first last : Nat) : Option (List α) := do
  if last = 0 then none
  else do
    let v ← a[last - 1]?
    popAux lt a first (last - 1) (last - 1) v

/-- `sort_heap` — heap_algo.h:154-162, 165-172; `n = last - first` -/
def sortHeap (first : Nat) : Nat → List α → Option (List α)
  | 0, a => some a
  | n + 1, a =>
    if n + 1 > 1 then do
      let a ← popHeap lt a first (first + (n + 1))
      sortHeap first n a
    else some a

/-- the loop of `make_heap_aux` — heap_algo.h:184-192, 208-216 -/
def makeLoop (first len : Nat) : Nat → List α → Option (List α)
  | hole, a => do
    let v ← a[first + hole]?
    let a ← adjustHeap lt first a hole len v
    match hole with
    | 0 => pure a
    | h + 1 => makeLoop first len h a

/-- `make_heap` — heap_algo.h:178-199, 202-223 -/
def makeHeap (a : List α) (first last : Nat) : Option (List α) :=
  if last - first < 2 then some a
  else makeLoop lt first (last - first) ((last - first - 2) / 2) a

/-- the loop of `partial_sort` — algo.h:2179-2185; `n = last - i` -/
def psLoop (first middle : Nat) : Nat → Nat → List α → Option (List α)
  | 0, _, a => some a
  | n + 1, i, a => do
    let x ← a[i]?
    let y ← a[first]?
    if lt x y then do
      let a ← popAux lt a first middle i x
      psLoop first middle n (i + 1) a
    else psLoop first middle n (i + 1) a

/-- `partial_sort(first, middle, last)` — algo.h:2174-2187, 2190-2203 -/
def partialSort (a : List α) (first middle last : Nat) : Option (List α) := do
  let a ← makeHeap lt a first middle
  let a ← psLoop lt first middle (last - middle) middle a
  sortHeap lt first (middle - first) a

/-- `kSmallSectionSize` — algo.h:2346 -/
def kSmall : Nat := 128

/-- `slg2` — algo.h:2349-2356 -/
def slg2 : Nat → Nat → Nat
  | 0, _ => 0
  | fuel + 1, n => if n > 1 then slg2 fuel (n / 2) + 1 else 0

/-- `while (*first < pivot) ++first;` — algo.h:2365-2366, 2477-2478 -/
def scanUp (pivot : α) (a : List α) : Nat → Nat → Option Nat
  | 0, _ => none
  | fuel + 1, f => do
    let x ← a[f]?
    if lt x pivot then scanUp pivot a fuel (f + 1) else pure f

/-- `--last; while (pivot < *last) --last;` — algo.h:2367-2369, 2479-2481; decrementing position 0 is undefined -/
def scanDown (pivot : α) (a : List α) : Nat → Option Nat
  | 0 => none
  | l + 1 => do
    let x ← a[l]?
    if lt pivot x then scanDown pivot a l else pure l

/-- `unchecked_partition(first, last, pivot)` — algo.h:2359-2375, 2470-2487: array and cut -/
def partition (pivot : α) : Nat → List α → Nat → Nat → Option (List α × Nat)
  | 0, _, _, _ => none
  | fuel + 1, a, first, last => do
    let f ← scanUp lt pivot a (a.length + 1) first
    let l ← scanDown lt pivot a last
    if ¬ f < l then pure (a, f)
    else do
      let x ← a[f]?
      let y ← a[l]?
      let a ← wr a f y
      let a ← wr a l x
      partition pivot fuel a (f + 1) l

/-- `median` — algo.h:1094-1109 -/
def median (left mid right : α) : α :=
  if lt left mid then
    if lt mid right then mid else if lt left right then right else left
  else if lt left right then left else if lt mid right then right else mid

/-- `intro_sort` — algo.h:2378-2394, 2490-2507.  `lt0` is the relation `median` uses: `<` in both overloads. -/
def introSort (lt0 : α → α → Bool) : Nat → List α → Nat → Nat → Option (List α)
  | depth, a, first, last =>
    if last - first > kSmall then
      match depth with
      | 0 => partialSort lt a first last last
      | depth + 1 => do
        let x ← a[first]?
        let y ← a[first + (last - first) / 2]?
        let z ← a[last - 1]?
        let (a, cut) ← partition lt (median lt0 x y z) (last - first + 1) a first last
        let a ← introSort lt0 depth a cut last
        introSort lt0 depth a first cut
    else some a

/-- the argument `const T& value` of `unchecked_linear_insert`: bound to a copy, or to the array cell it refers to -/
inductive Ref (α : Type) where
  | copy (v : α)
  | cell (i : Nat)

/-- reading through the reference -/
def Ref.get (a : List α) : Ref α → Option α
  | .copy v => some v
  | .cell i => a[i]?

/-- `unchecked_linear_insert(last, value)` — algo.h:2397-2409, 2510-2522; the position before 0 may not be read -/
def linearInsert (value : Ref α) : Nat → List α → Option (List α)
  | 0, _ => none
  | next + 1, a => do
    let x ← a[next]?
    let v ← value.get a
    if lt v x then do
      let a ← wr a (next + 1) x
      linearInsert value next a
    else wr a (next + 1) v

/-- `unchecked_insertion_sort(first, last)` — algo.h:2412-2419, 2525-2533: `*i` is passed by reference; `n = last - i` -/
def uncheckedInsertionSort : Nat → Nat → List α → Option (List α)
  | 0, _, a => some a
  | n + 1, i, a => do
    let a ← linearInsert lt (.cell i) i a
    uncheckedInsertionSort n (i + 1) a

/-- `copy_backward(first, first + n, first + n + 1)` — algobase.h:140-149 -/
def shiftUp (first : Nat) : Nat → List α → Option (List α)
  | 0, a => some a
  | n + 1, a => do
    let x ← a[first + n]?
    let a ← wr a (first + n + 1) x
    shiftUp first n a

/-- the loop of `insertion_sort` — algo.h:2427-2439, 2541-2553; `n = last - i` -/
def insLoop (first : Nat) : Nat → Nat → List α → Option (List α)
  | 0, _, a => some a
  | n + 1, i, a => do
    let value ← a[i]?
    let y ← a[first]?
    if lt value y then do
      let a ← shiftUp first (i - first) a
      let a ← wr a first value
      insLoop first n (i + 1) a
    else do
      let a ← linearInsert lt (.copy value) i a
      insLoop first n (i + 1) a

/-- `insertion_sort(first, last)` — algo.h:2422-2440, 2536-2554 -/
def insertionSort (a : List α) (first last : Nat) : Option (List α) :=
  if first = last then some a else insLoop lt first (last - (first + 1)) (first + 1) a

/-- `final_insertion_sort(first, last)` — algo.h:2443-2455, 2557-2569 -/
def finalInsertionSort (a : List α) (first last : Nat) : Option (List α) :=
  if last - first > kSmall then do
    let a ← insertionSort lt a first (first + kSmall)
    uncheckedInsertionSort lt (last - (first + kSmall)) (first + kSmall) a
  else insertionSort lt a first last

/-- `sort(first, last)` — algo.h:2457-2466, 2571-2580 -/
def sort (lt0 : α → α → Bool) (a : List α) (first last : Nat) : Option (List α) :=
  if first ≠ last then do
    let a ← introSort lt lt0 (slg2 64 (last - first) * 2) a first last
    finalInsertionSort lt a first last
  else some a

/-- 129 numbers of which `sort` loses some: `sort` needs more than `kSmallSectionSize` elements to go wrong -/
def demo : List Nat := List.range 127 ++ [128, 127]

end Verif.Sort
