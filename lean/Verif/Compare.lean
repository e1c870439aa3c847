import Verif.CopyAlgo
/-!
# Comparison operators of pairs and containers — /repo/mylib/mystl/util.h, vector.h, deque.h, list.h, rb_tree.h, map.h, set.h

The elements of a container are a stretch of cells seen through its iterators (for `vector` the memory itself; for `deque`, `list`
and the trees the sequence that the iterators visit, C98, C44, C45), as in `CopyAlgo`.  `eq` and `lt` are `==` and `<` of the elements.
-/

namespace Verif.Compare
open Verif.CopyAlgo

variable {α β : Type}

/-- `operator==(pair, pair)` — util.h:244-248 -/
def pairEq (eq1 : α → α → Bool) (eq2 : β → β → Bool) (l r : α × β) : Bool := eq1 l.1 r.1 && eq2 l.2 r.2

/-- `operator<(pair, pair)` — util.h:250-254 -/
def pairLt (lt1 eq1 : α → α → Bool) (lt2 : β → β → Bool) (l r : α × β) : Bool := lt1 l.1 r.1 || (eq1 l.1 r.1 && lt2 l.2 r.2)

/-- `operator!=` — util.h:256-260, vector.h:903-907 and the others alike, from `==` -/
def opNe {γ : Type} (eq : γ → γ → Bool) (l r : γ) : Bool := !eq l r

/-- `operator>` — util.h:262-266, vector.h:909-913 and the others alike, from `<` -/
def opGt {γ : Type} (lt : γ → γ → Bool) (l r : γ) : Bool := lt r l

/-- `operator<=` — util.h:268-272, vector.h:915-919 and the others alike, from `<` -/
def opLe {γ : Type} (lt : γ → γ → Bool) (l r : γ) : Bool := !lt r l

/-- `operator>=` — util.h:274-278, vector.h:921-925 and the others alike, from `<` -/
def opGe {γ : Type} (lt : γ → γ → Bool) (l r : γ) : Bool := !lt l r

/-- `operator==` of `vector` (vector.h:890-895), `deque` (deque.h:1378-1383) and the trees under `map`, `set`, `multimap`, `multiset`
(rb_tree.h:1693-1697): the sizes, then `equal` -/
def seqEq (eq : α → α → Bool) (m : Mem α) (f1 l1 f2 l2 : ℕ) : Option Bool :=
  if l1 - f1 = l2 - f2 then equal eq (l1 - f1 + 1) m f1 l1 f2 else some false

/-- `operator<` of `vector` (vector.h:897-901), `deque` (deque.h:1386-1391), `list` (list.h:1171-1175) and the trees (rb_tree.h:1699-1703) -/
def seqLt (lt : α → α → Bool) (m : Mem α) (f1 l1 f2 l2 : ℕ) : Option Bool := lexCompare lt (l1 - f1 + 1) m f1 l1 f2 l2

/-- `operator==` of `list` — list.h:1158-1168 -/
def listEq (eq : α → α → Bool) : ℕ → Mem α → ℕ → ℕ → ℕ → ℕ → Option Bool
  | 0, _, _, _, _, _ => none
  | fuel + 1, m, f1, l1, f2, l2 =>
    if f1 ≠ l1 ∧ f2 ≠ l2 then do
      let a ← m f1
      let b ← m f2
      if eq a b then listEq eq fuel m (f1 + 1) l1 (f2 + 1) l2 else some (decide (f1 = l1 ∧ f2 = l2))
    else some (decide (f1 = l1 ∧ f2 = l2))

end Verif.Compare
