import Mathlib.Data.Int.Notation
import Mathlib.Data.Nat.Notation

/-!
# Copying, filling and comparing ranges — /repo/mylib/mystl/algobase.h

The memory is a map from positions to values; `none` is a position outside every array, so that a read or a write there makes the program `none` (undefined behaviour).  Iterators are positions;
source and destination may lie in one array and overlap.  The element loops are the ones of class types and of iterators that are not pointers; pointers to trivially copyable types use
`memmove`/`memset`/`memcmp`, modelled by what the C standard says of these functions.  `last - first` is an integer.  Loops of the form `first != last` take fuel: running out of it is `none`.
-/

namespace Verif.CopyAlgo

variable {α : Type}

/-- the memory -/
abbrev Mem (α : Type) := ℕ → Option α

/-- `*p = v` for a position inside an array -/
def write (m : Mem α) (p : ℕ) (v : α) : Option (Mem α) := (m p).map fun _ => fun q => if q = p then some v else m q

/-- `unchecked_copy_cat` for input iterators — algobase.h:73-83 -/
def copyInput : ℕ → Mem α → ℕ → ℕ → ℕ → Option (Mem α × ℕ)
  | 0, _, _, _, _ => none
  | fuel + 1, m, first, last, result =>
    if first ≠ last then do
      let v ← m first
      let m ← write m result v
      copyInput fuel m (first + 1) last (result + 1)
    else some (m, result)

/-- the `for` loop of `unchecked_copy_cat` for random access iterators, `n` rounds — algobase.h:91-95 -/
def copyLoop : ℕ → Mem α → ℕ → ℕ → Option (Mem α × ℕ)
  | 0, m, _, result => some (m, result)
  | n + 1, m, first, result => do
    let v ← m first
    let m ← write m result v
    copyLoop n m (first + 1) (result + 1)

/-- `unchecked_copy_cat` for random access iterators; a negative distance is no round — algobase.h:86-96 -/
def copyRandom (m : Mem α) (first last result : ℕ) : Option (Mem α × ℕ) := copyLoop ((last : ℤ) - first).toNat m first result

/-- `std::memmove` of `n` elements: all are read before one is written -/
def memmove (m : Mem α) (dst src n : ℕ) : Option (Mem α) :=
  if (∀ i < n, (m (src + i)).isSome ∧ (m (dst + i)).isSome) then some fun q => if dst ≤ q ∧ q < dst + n then m (src + (q - dst)) else m q else none

/-- `unchecked_copy` for pointers to a trivially copy assignable type; a negative distance becomes a huge size — algobase.h:105-117 -/
def copyTrivial (m : Mem α) (first last result : ℕ) : Option (Mem α × ℕ) :=
  if last < first then none
  else if last - first ≠ 0 then (memmove m result first (last - first)).map fun m => (m, result + (last - first))
  else some (m, result + (last - first))

/-- the `for` loop of `unchecked_copy_backward_cat` for random access iterators; position 0 has no predecessor — algobase.h:148-150 -/
def backLoop : ℕ → Mem α → ℕ → ℕ → Option (Mem α × ℕ)
  | 0, m, _, result => some (m, result)
  | n + 1, m, last, result =>
    if last = 0 ∨ result = 0 then none else do
    let v ← m (last - 1)
    let m ← write m (result - 1) v
    backLoop n m (last - 1) (result - 1)

/-- `unchecked_copy_backward_cat` for random access iterators — algobase.h:142-151 -/
def backRandom (m : Mem α) (first last result : ℕ) : Option (Mem α × ℕ) := backLoop ((last : ℤ) - first).toNat m last result

/-- `unchecked_copy_backward_cat` for bidirectional iterators — algobase.h:131-139 -/
def backBidirectional : ℕ → Mem α → ℕ → ℕ → ℕ → Option (Mem α × ℕ)
  | 0, _, _, _, _ => none
  | fuel + 1, m, first, last, result =>
    if first ≠ last then
      if last = 0 ∨ result = 0 then none else do
      let v ← m (last - 1)
      let m ← write m (result - 1) v
      backBidirectional fuel m first (last - 1) (result - 1)
    else some (m, result)

/-- `unchecked_copy_backward` for pointers to a trivially copy assignable type — algobase.h:161-175 -/
def backTrivial (m : Mem α) (first last result : ℕ) : Option (Mem α × ℕ) :=
  if last < first then none
  else if last - first ≠ 0 then
    if result < last - first then none else (memmove m (result - (last - first)) first (last - first)).map fun m => (m, result - (last - first))
  else some (m, result)

/-- `copy_n` for input iterators — algobase.h:205-214; the pair of both ends -/
def copyNInput : ℕ → Mem α → ℕ → ℕ → Option (Mem α × ℕ × ℕ)
  | 0, m, first, result => some (m, first, result)
  | n + 1, m, first, result => do
    let v ← m first
    let m ← write m result v
    copyNInput n m (first + 1) (result + 1)

/-- `copy_n` for random access iterators — algobase.h:216-223 -/
def copyNRandom (n : ℕ) (m : Mem α) (first result : ℕ) : Option (Mem α × ℕ × ℕ) := do
  let last := first + n
  let (m, r) ← copyRandom m first last result
  some (m, last, r)

/-- `copy_if` — algobase.h:188-198 -/
def copyIf (p : α → Bool) : ℕ → Mem α → ℕ → ℕ → ℕ → Option (Mem α × ℕ)
  | 0, _, _, _, _ => none
  | fuel + 1, m, first, last, result =>
    if first ≠ last then do
      let v ← m first
      if p v then do
        let m ← write m result v
        copyIf p fuel m (first + 1) last (result + 1)
      else copyIf p fuel m (first + 1) last result
    else some (m, result)

/-- `*result = mystl::move(*first)`: the source is left in the moved-from state `e`.  An object moved to itself is left in that state too (as `vector` and `string` of this library do) — algobase.h:244, 257, 304, 315 -/
def moveCell (e : α) (m : Mem α) (first result : ℕ) : Option (Mem α) := do
  let v ← m first
  let m ← write m result v
  write m first e

/-- the `for` loop of `unchecked_move_cat` for random access iterators — algobase.h:250-260 -/
def moveLoop (e : α) : ℕ → Mem α → ℕ → ℕ → Option (Mem α × ℕ)
  | 0, m, _, result => some (m, result)
  | n + 1, m, first, result => do
    let m ← moveCell e m first result
    moveLoop e n m (first + 1) (result + 1)

/-- `move(first, last, result)` — algobase.h:250-289 -/
def moveRandom (e : α) (m : Mem α) (first last result : ℕ) : Option (Mem α × ℕ) := moveLoop e ((last : ℤ) - first).toNat m first result

/-- the loop of `unchecked_move_backward_cat` — algobase.h:309-318 -/
def moveBackLoop (e : α) : ℕ → Mem α → ℕ → ℕ → Option (Mem α × ℕ)
  | 0, m, _, result => some (m, result)
  | n + 1, m, last, result =>
    if last = 0 ∨ result = 0 then none else do
    let m ← moveCell e m (last - 1) (result - 1)
    moveBackLoop e n m (last - 1) (result - 1)

/-- `move_backward(first, last, result)` — algobase.h:309-346 -/
def moveBackRandom (e : α) (m : Mem α) (first last result : ℕ) : Option (Mem α × ℕ) := moveBackLoop e ((last : ℤ) - first).toNat m last result

/-- `unchecked_fill_n`; `value` is a reference: it is read at every assignment, and `r` may lie in the range that is filled — algobase.h:379-387, 405-409 -/
def fillN : ℕ → Mem α → ℕ → ℕ → Option (Mem α × ℕ)
  | 0, m, first, _ => some (m, first)
  | n + 1, m, first, r => do
    let v ← m r
    let m ← write m first v
    fillN n m (first + 1) r

/-- `fill` for random access iterators — algobase.h:425-430 -/
def fillRandom (m : Mem α) (first last r : ℕ) : Option (Mem α) := (fillN ((last : ℤ) - first).toNat m first r).map Prod.fst

/-- `fill` for forward iterators — algobase.h:415-423 -/
def fillForward : ℕ → Mem α → ℕ → ℕ → ℕ → Option (Mem α)
  | 0, _, _, _, _ => none
  | fuel + 1, m, first, last, r =>
    if first ≠ last then do
      let v ← m r
      let m ← write m first v
      fillForward fuel m (first + 1) last r
    else some m

/-- `equal` with a comparison; without one it is `==` — algobase.h:352-373 -/
def equal (eq : α → α → Bool) : ℕ → Mem α → ℕ → ℕ → ℕ → Option Bool
  | 0, _, _, _, _ => none
  | fuel + 1, m, first1, last1, first2 =>
    if first1 ≠ last1 then do
      let a ← m first1
      let b ← m first2
      if !eq a b then some false else equal eq fuel m (first1 + 1) last1 (first2 + 1)
    else some true

/-- `lexicographical_compare` — algobase.h:446-473 -/
def lexCompare (lt : α → α → Bool) : ℕ → Mem α → ℕ → ℕ → ℕ → ℕ → Option Bool
  | 0, _, _, _, _, _ => none
  | fuel + 1, m, first1, last1, first2, last2 =>
    if first1 ≠ last1 ∧ first2 ≠ last2 then do
      let a ← m first1
      let b ← m first2
      if lt a b then some true
      else if lt b a then some false
      else lexCompare lt fuel m (first1 + 1) last1 (first2 + 1) last2
    else some (decide (first1 = last1) && decide (first2 ≠ last2))

/-- `std::memcmp`: the sign of the first difference of `n` bytes -/
def memcmp (m : Mem (Fin 256)) (p q : ℕ) : ℕ → Option ℤ
  | 0 => some 0
  | n + 1 => do
    let a ← m p
    let b ← m q
    if a = b then memcmp m (p + 1) (q + 1) n else some (if a < b then -1 else 1)

/-- `lexicographical_compare` of `const unsigned char*` — algobase.h:476-487 -/
def lexBytes (m : Mem (Fin 256)) (first1 last1 first2 last2 : ℕ) : Option Bool := do
  let len1 := last1 - first1
  let len2 := last2 - first2
  let result ← memcmp m first1 first2 (if len2 < len1 then len2 else len1)
  some (if result ≠ 0 then decide (result < 0) else decide (len1 < len2))

/-- `mismatch` — algobase.h:493-517 -/
def mismatch (eq : α → α → Bool) : ℕ → Mem α → ℕ → ℕ → ℕ → Option (ℕ × ℕ)
  | 0, _, _, _, _ => none
  | fuel + 1, m, first1, last1, first2 =>
    if first1 ≠ last1 then do
      let a ← m first1
      let b ← m first2
      if eq a b then mismatch eq fuel m (first1 + 1) last1 (first2 + 1) else some (first1, first2)
    else some (first1, first2)

end Verif.CopyAlgo
