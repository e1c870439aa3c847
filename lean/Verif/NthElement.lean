import Verif.Sort

/-!
# `nth_element` — /repo/mylib/mystl/algo.h:2582-2623

The pivot handed to `unchecked_partition` is the *reference* `mystl::median` returns (algo.h:1094-1110), that is one of three cells of the
array being partitioned; every comparison reads that cell again.  (`intro_sort` copies the pivot first: `auto mid = …`, algo.h:2389.)
-/

namespace Verif.Sort

variable {α : Type} (lt : α → α → Bool)

/-- `unchecked_partition(first, last, pivot)` with `pivot` a reference to the cell `pv` — algo.h:2359-2375, 2470-2487.  The array does
not change during a scan, so the pivot is read once for each round. -/
def partitionRef (pv : Nat) : Nat → List α → Nat → Nat → Option (List α × Nat)
  | 0, _, _, _ => none
  | fuel + 1, a, first, last => do
    let p ← a[pv]?
    let f ← scanUp lt p a (a.length + 1) first
    let l ← scanDown lt p a last
    if ¬ f < l then pure (a, f)
    else do
      let x ← a[f]?
      let y ← a[l]?
      let a ← wr a f y
      let a ← wr a l x
      partitionRef pv fuel a (f + 1) l

/-- the cell `median` returns a reference to — algo.h:1094-1110 -/
def medianCell (lt0 : α → α → Bool) (a : List α) (i j k : Nat) : Option Nat := do
  let left ← a[i]?
  let mid ← a[j]?
  let right ← a[k]?
  if lt0 left mid then
    if lt0 mid right then some j else if lt0 left right then some k else some i
  else if lt0 left right then some i else if lt0 mid right then some k else some j

/-- the loop of `nth_element` — algo.h:2588-2597, 2609-2618: array, `first`, `last`.  `lt0` is the relation `median` uses: `<` in both
overloads. -/
def nthLoop (lt0 : α → α → Bool) (nth : Nat) : Nat → List α → Nat → Nat → Option (List α × Nat × Nat)
  | 0, _, _, _ => none
  | fuel + 1, a, first, last =>
    if last - first > 3 then do
      let pv ← medianCell lt0 a first (first + (last - first) / 2) (last - 1)
      let (a, cut) ← partitionRef lt pv (last - first + 1) a first last
      if cut ≤ nth then nthLoop lt0 nth fuel a cut last else nthLoop lt0 nth fuel a first cut
    else some (a, first, last)

/-- `nth_element(first, nth, last)` with at most `fuel` rounds of its loop — algo.h:2582-2599, 2602-2620 -/
def nthElement (lt0 : α → α → Bool) (fuel : Nat) (a : List α) (first nth last : Nat) : Option (List α) :=
  if nth = last then some a
  else do
    let (a, f, l) ← nthLoop lt lt0 nth fuel a first last
    insertionSort lt a f l

end Verif.Sort
