import Mathlib.Data.Int.Notation

/-!
# Set operations on sorted ranges — /repo/mylib/mystl/set_algo.h

The input ranges are lists; the result is the list of the values written through `result`, in order (the output range is assumed
to have room and not to overlap the inputs).  `lt` is `<`, or `comp` in the second overload of each function.
-/

namespace Verif.SetAlgo

variable {α : Type} (lt : α → α → Bool)

/-- `set_union` — set_algo.h:17-44, 47-74 -/
def setUnion : List α → List α → List α
  | [], l2 => l2
  | l1, [] => l1
  | a :: l1, b :: l2 =>
    if lt a b then a :: setUnion l1 (b :: l2)
    else if lt b a then b :: setUnion (a :: l1) l2
    else a :: setUnion l1 l2
termination_by l1 l2 => l1.length + l2.length

/-- `set_intersection` — set_algo.h:80-104, 107-131 -/
def setIntersection : List α → List α → List α
  | [], _ => []
  | _, [] => []
  | a :: l1, b :: l2 =>
    if lt a b then setIntersection l1 (b :: l2)
    else if lt b a then setIntersection (a :: l1) l2
    else a :: setIntersection l1 l2
termination_by l1 l2 => l1.length + l2.length

/-- `set_difference` — set_algo.h:137-161, 164-188 -/
def setDifference : List α → List α → List α
  | [], _ => []
  | l1, [] => l1
  | a :: l1, b :: l2 =>
    if lt a b then a :: setDifference l1 (b :: l2)
    else if lt b a then setDifference (a :: l1) l2
    else setDifference l1 l2
termination_by l1 l2 => l1.length + l2.length

/-- `set_symmetric_difference` — set_algo.h:194-220, 223-249 -/
def setSymmetricDifference : List α → List α → List α
  | [], l2 => l2
  | l1, [] => l1
  | a :: l1, b :: l2 =>
    if lt a b then a :: setSymmetricDifference l1 (b :: l2)
    else if lt b a then b :: setSymmetricDifference (a :: l1) l2
    else setSymmetricDifference l1 l2
termination_by l1 l2 => l1.length + l2.length

/-- `merge` — algo.h:1811-1832, 1835-1856 -/
def merge : List α → List α → List α
  | [], l2 => l2
  | l1, [] => l1
  | a :: l1, b :: l2 =>
    if lt b a then b :: merge (a :: l1) l2
    else a :: merge l1 (b :: l2)
termination_by l1 l2 => l1.length + l2.length

/-- `includes` — algo.h:975-995, 998-1018 -/
def includes : List α → List α → Bool
  | [], l2 => l2.isEmpty
  | _, [] => true
  | a :: l1, b :: l2 =>
    if lt b a then false
    else if lt a b then includes l1 (b :: l2)
    else includes l1 l2
termination_by l1 l2 => l1.length + l2.length

end Verif.SetAlgo
