import Verif.Permute
import Verif.Search

/-!
# `inplace_merge` — /repo/mylib/mystl/algo.h:1811-1856, 1862-2025 (overloads with a comparison object: 2027-2166)

Same conventions as in `Verif.Permute`.  The temporary buffer (memory.h:64-136) is a second array: `buf.length` is the number of elements
`malloc` was able to provide (any number from 1 on, `allocate_buffer` halves its request until it succeeds), its contents at the beginning
are arbitrary; `none` stands for the null pointer when nothing could be had.  `mystl::copy` and `mystl::copy_backward` are the
element-by-element loops of algobase.h:73-97, 133-151; for pointers to trivially copyable types the library calls `memmove` instead, which
has the same effect on the overlapping ranges occurring here.
-/

namespace Verif.Permute

open Verif.Sort (wr)

variable {α : Type}

/-- `copy` from one array to another: `n` elements from `s` on are put at `d` on — algobase.h:73-97 -/
def copyTo (src : List α) : Nat → List α → Nat → Nat → Option (List α)
  | 0, dst, _, _ => some dst
  | n + 1, dst, s, d => do
    let x ← src[s]?
    let dst ← wr dst d x
    copyTo src n dst (s + 1) (d + 1)

/-- `copy` inside one array -/
def copyIn : Nat → List α → Nat → Nat → Option (List α)
  | 0, a, _, _ => some a
  | n + 1, a, s, d => do
    let x ← a[s]?
    let a ← wr a d x
    copyIn n a (s + 1) (d + 1)

/-- `copy_backward` from one array to another: the `n` elements before `s` are put before `d` — algobase.h:133-151 -/
def copyBackTo (src : List α) : Nat → List α → Nat → Nat → Option (List α)
  | 0, dst, _, _ => some dst
  | n + 1, dst, s, d => do
    let s ← dec s
    let d ← dec d
    let x ← src[s]?
    let dst ← wr dst d x
    copyBackTo src n dst s d

/-- `copy_backward` inside one array -/
def copyBackIn : Nat → List α → Nat → Nat → Option (List α)
  | 0, a, _, _ => some a
  | n + 1, a, s, d => do
    let s ← dec s
    let d ← dec d
    let x ← a[s]?
    let a ← wr a d x
    copyBackIn n a s d

/-- `rotate_adaptive` — algo.h:1927-1952: array, buffer, returned position -/
def rotateAdaptive (c : Cat) (a buf : List α) (first middle last len1 len2 : Nat) : Option (List α × List α × Nat) :=
  if len1 > len2 ∧ len2 ≤ buf.length then do
    let buf ← copyTo a (last - middle) buf middle 0
    let a ← copyBackIn (middle - first) a middle last
    let a ← copyTo buf (last - middle) a 0 first
    some (a, buf, first + (last - middle))
  else if len1 ≤ buf.length then do
    let buf ← copyTo a (middle - first) buf first 0
    let a ← copyIn (last - middle) a middle first
    let a ← copyBackTo buf (middle - first) a (middle - first) last
    some (a, buf, last - (middle - first))
  else do
    let (a, r) ← rotate c a first middle last
    some (a, buf, r)

variable (lt : α → α → Bool)

/-- `merge(buffer, buffer_end, middle, last, first)`: merging the beginning of the buffer and a part of the array into the array —
algo.h:1811-1832, 1835-1856 -/
def mergeFwd (buf : List α) (last1 last2 : Nat) : Nat → List α → Nat → Nat → Nat → Option (List α)
  | 0, _, _, _, _ => none
  | fuel + 1, a, first1, first2, result =>
    if first1 ≠ last1 ∧ first2 ≠ last2 then do
      let y ← a[first2]?
      let x ← buf[first1]?
      if lt y x then do
        let a ← wr a result y
        mergeFwd buf last1 last2 fuel a first1 (first2 + 1) (result + 1)
      else do
        let a ← wr a result x
        mergeFwd buf last1 last2 fuel a (first1 + 1) first2 (result + 1)
    else do
      let a ← copyTo buf (last1 - first1) a first1 result
      copyIn (last2 - first2) a first2 (result + (last1 - first1))

/-- the loop of `merge_backward` — algo.h:1907-1924, 2075-2092; `first2` is the beginning of the buffer -/
def mergeBackLoop (buf : List α) (first1 : Nat) : Nat → List α → Nat → Nat → Nat → Option (List α)
  | 0, _, _, _, _ => none
  | fuel + 1, a, last1, last2, result => do
    let y ← buf[last2]?
    let x ← a[last1]?
    let result ← dec result
    if lt y x then do
      let a ← wr a result x
      if first1 = last1 then copyBackTo buf (last2 + 1) a (last2 + 1) result
      else do
        let last1 ← dec last1
        mergeBackLoop buf first1 fuel a last1 last2 result
    else do
      let a ← wr a result y
      if 0 = last2 then copyBackIn (last1 + 1 - first1) a (last1 + 1) result
      else do
        let last2 ← dec last2
        mergeBackLoop buf first1 fuel a last1 last2 result

/-- `merge_backward(first, middle, buffer, buffer_end, last)` — algo.h:1896-1925, 2064-2093 -/
def mergeBackward (buf : List α) (a : List α) (first1 last1 last2 result : Nat) : Option (List α) :=
  if first1 = last1 then copyBackTo buf last2 a last2 result
  else if 0 = last2 then copyBackIn (last1 - first1) a last1 result
  else do
    let l1 ← dec last1
    let l2 ← dec last2
    mergeBackLoop lt buf first1 (last1 - first1 + last2 + 1) a l1 l2 result

/-- where the two sequences are cut — algo.h:1876-1890, 1972-1988, 2043-2057, 2113-2127: `first_cut`, `second_cut`, `len11`, `len22` -/
def cuts (a : List α) (first middle last len1 len2 : Nat) : Option (Nat × Nat × Nat × Nat) :=
  if len1 > len2 then do
    let len11 := len1 / 2
    let x ← a[first + len11]?
    let second ← Search.lowerBound lt a middle last x
    some (first + len11, second, len11, second - middle)
  else do
    let len22 := len2 / 2
    let y ← a[middle + len22]?
    let fst ← Search.upperBound lt a first middle y
    some (fst, middle + len22, fst - first, len22)

/-- `merge_without_buffer` — algo.h:1862-1894, 2028-2062 -/
def mergeWithout (c : Cat) : Nat → List α → Nat → Nat → Nat → Nat → Nat → Option (List α)
  | 0, _, _, _, _, _, _ => none
  | fuel + 1, a, first, middle, last, len1, len2 =>
    if len1 = 0 ∨ len2 = 0 then some a
    else if len1 + len2 = 2 then do
      let y ← a[middle]?
      let x ← a[first]?
      if lt y x then swp a first middle else some a
    else do
      let (firstCut, secondCut, len11, len22) ← cuts lt a first middle last len1 len2
      let (a, newMiddle) ← rotate c a firstCut middle secondCut
      let a ← mergeWithout c fuel a first firstCut newMiddle len11 len22
      mergeWithout c fuel a newMiddle secondCut last (len1 - len11) (len2 - len22)

/-- `merge_adaptive` — algo.h:1954-1996, 2095-2137: array and buffer -/
def mergeAdaptive (c : Cat) : Nat → List α → List α → Nat → Nat → Nat → Nat → Nat → Option (List α × List α)
  | 0, _, _, _, _, _, _, _ => none
  | fuel + 1, a, buf, first, middle, last, len1, len2 =>
    if len1 ≤ len2 ∧ len1 ≤ buf.length then do
      let buf ← copyTo a (middle - first) buf first 0
      let a ← mergeFwd lt buf (middle - first) last (last - first + 1) a 0 middle first
      some (a, buf)
    else if len2 ≤ buf.length then do
      let buf ← copyTo a (last - middle) buf middle 0
      let a ← mergeBackward lt buf a first middle (last - middle) last
      some (a, buf)
    else do
      let (firstCut, secondCut, len11, len22) ← cuts lt a first middle last len1 len2
      let (a, buf, newMiddle) ← rotateAdaptive c a buf firstCut middle secondCut (len1 - len11) len22
      let (a, buf) ← mergeAdaptive c fuel a buf first firstCut newMiddle len11 len22
      mergeAdaptive c fuel a buf newMiddle secondCut last (len1 - len11) (len2 - len22)

/-- `inplace_merge` — algo.h:1998-2025, 2139-2166; `buf` is what the temporary buffer provides (`none`: the null pointer) -/
def inplaceMerge (c : Cat) (buf : Option (List α)) (a : List α) (first middle last : Nat) : Option (List α) :=
  if first = middle ∨ middle = last then some a
  else
    match buf with
    | none => mergeWithout lt c (last - first + 1) a first middle last (middle - first) (last - middle)
    | some b => do
      let (a, _) ← mergeAdaptive lt c (last - first + 1) a b first middle last (middle - first) (last - middle)
      some a

end Verif.Permute
