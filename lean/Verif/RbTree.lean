import Mathlib.Data.Int.Notation
import Mathlib.Logic.Function.Basic

/-!
# Red-black tree of mystl — /repo/mylib/mystl/rb_tree.h, and `map` — /repo/mylib/mystl/map.h

Model at the level of pointers.  A heap maps addresses to cells; `none` is an address that is not (or no longer) allocated, so every access through a null or dangling pointer makes the program
`none`.  A cell is a `rb_tree_node_base` with, unless it is the header, a value.  Exceptions of the element's constructors, the length error of `max_size()` and the representation of `size_t` are not
modelled.  The loops take fuel; running out of it is `none`, and the theorems show that this does not happen.
-/

namespace Verif.Rb

/-- addresses; 0 is `nullptr` -/
abbrev Ptr := Nat

/-- `rb_tree_node_base<T>` and `rb_tree_node<T>` — rb_tree.h:119-165; the header has no value -/
structure Cell (α : Type) where
  parent : Ptr
  left : Ptr
  right : Ptr
  red : Bool
  val : Option α

/-- the memory -/
abbrev Heap (α : Type) := Ptr → Option (Cell α)

variable {α : Type}

/-- change one address -/
def put (h : Heap α) (p : Ptr) (c : Option (Cell α)) : Heap α := fun q => if q = p then c else h q

/-- `p->parent = v` -/
def setParent (h : Heap α) (p v : Ptr) : Option (Heap α) := (h p).map (fun c => put h p (some { c with parent := v }))
/-- `p->left = v` -/
def setLeft (h : Heap α) (p v : Ptr) : Option (Heap α) := (h p).map (fun c => put h p (some { c with left := v }))
/-- `p->right = v` -/
def setRight (h : Heap α) (p v : Ptr) : Option (Heap α) := (h p).map (fun c => put h p (some { c with right := v }))
/-- `p->color = v`, `rb_tree_set_black`, `rb_tree_set_red` — rb_tree.h:381-391 -/
def setRed (h : Heap α) (p : Ptr) (v : Bool) : Option (Heap α) := (h p).map (fun c => put h p (some { c with red := v }))

/-- `node_allocator::deallocate` — rb_tree.h:1438-1445; freeing what is not allocated is `none` -/
def free (h : Heap α) (p : Ptr) : Option (Heap α) := (h p).map (fun _ => put h p none)

/-- `rb_tree_is_red` — rb_tree.h:375-379 -/
def isRed (h : Heap α) (p : Ptr) : Option Bool := do
  let c ← h p
  pure c.red

/-- `rb_tree_is_lchild` — rb_tree.h:369-373 -/
def isLeft (h : Heap α) (p : Ptr) : Option Bool := do
  let c ← h p
  let q ← h c.parent
  pure (decide (p = q.left))

/-- `root()` — rb_tree.h:756; `hd` is `header_` -/
def root (h : Heap α) (hd : Ptr) : Option Ptr := do
  let c ← h hd
  pure c.parent

/-- `rb_tree_min` — rb_tree.h:353-359 -/
def treeMin (h : Heap α) : Nat → Ptr → Option Ptr
  | 0, _ => none
  | n + 1, x => do
    let c ← h x
    if c.left ≠ 0 then treeMin h n c.left else pure x

/-- `rb_tree_max` — rb_tree.h:361-367 -/
def treeMax (h : Heap α) : Nat → Ptr → Option Ptr
  | 0, _ => none
  | n + 1, x => do
    let c ← h x
    if c.right ≠ 0 then treeMax h n c.right else pure x

/-- putting `y` into the place of `x`: `if (x == root) root = y; else if (rb_tree_is_lchild(x)) x->parent->left = y; else x->parent->right = y;` — rb_tree.h:423-434 and 459-470, 577-583, 594-599 -/
def replace (hd x y : Ptr) (h : Heap α) : Option (Heap α) := do
  let r ← root h hd
  if x = r then setParent h hd y
  else do
    let b ← isLeft h x
    let c ← h x
    if b then setLeft h c.parent y else setRight h c.parent y

/-- `rb_tree_rotate_left` — rb_tree.h:413-438 -/
def rotateLeft (hd x : Ptr) (h : Heap α) : Option (Heap α) := do
  let cx ← h x
  let y := cx.right
  let cy ← h y
  let h ← setRight h x cy.left
  let cy ← h y
  let h ← (if cy.left ≠ 0 then setParent h cy.left x else some h)
  let cx ← h x
  let h ← setParent h y cx.parent
  let h ← replace hd x y h
  let h ← setLeft h y x
  setParent h x y

/-- `rb_tree_rotate_right` — rb_tree.h:449-474 -/
def rotateRight (hd x : Ptr) (h : Heap α) : Option (Heap α) := do
  let cx ← h x
  let y := cx.left
  let cy ← h y
  let h ← setLeft h x cy.right
  let cy ← h y
  let h ← (if cy.right ≠ 0 then setParent h cy.right x else some h)
  let cx ← h x
  let h ← setParent h y cx.parent
  let h ← replace hd x y h
  let h ← setRight h y x
  setParent h x y

/-- `p != nullptr && rb_tree_is_red(p)` -/
def isRedOr (h : Heap α) (p : Ptr) : Option Bool := if p ≠ 0 then isRed h p else pure false

/-- the loop of `rb_tree_insert_rebalance` — rb_tree.h:493-543 -/
def insertLoop (hd : Ptr) : Nat → Ptr → Heap α → Option (Heap α)
  | 0, _, _ => none
  | n + 1, x, h => do
    let r ← root h hd
    if x = r then pure h
    else do
      let cx ← h x
      let b ← isRed h cx.parent
      if b = false then pure h
      else do
        let pl ← isLeft h cx.parent
        let cp ← h cx.parent
        let cg ← h cp.parent
        if pl then do
          let u := cg.right
          let ur ← isRedOr h u
          if ur then do
            let h ← setRed h cx.parent false
            let h ← setRed h u false
            let h ← setRed h cp.parent true
            insertLoop hd n cp.parent h
          else do
            let xl ← isLeft h x
            let (x, h) ← (if xl = false then (rotateLeft hd cx.parent h).map (fun h => (cx.parent, h)) else some (x, h))
            let cx ← h x
            let h ← setRed h cx.parent false
            let cx ← h x
            let cp ← h cx.parent
            let h ← setRed h cp.parent true
            let cx ← h x
            let cp ← h cx.parent
            rotateRight hd cp.parent h
        else do
          let u := cg.left
          let ur ← isRedOr h u
          if ur then do
            let h ← setRed h cx.parent false
            let h ← setRed h u false
            let h ← setRed h cp.parent true
            insertLoop hd n cp.parent h
          else do
            let xl ← isLeft h x
            let (x, h) ← (if xl then (rotateRight hd cx.parent h).map (fun h => (cx.parent, h)) else some (x, h))
            let cx ← h x
            let h ← setRed h cx.parent false
            let cx ← h x
            let cp ← h cx.parent
            let h ← setRed h cp.parent true
            let cx ← h x
            let cp ← h cx.parent
            rotateLeft hd cp.parent h

/-- `rb_tree_insert_rebalance` — rb_tree.h:489-545 -/
def insertRebalance (hd : Ptr) (fuel : Nat) (x : Ptr) (h : Heap α) : Option (Heap α) := do
  let h ← setRed h x true
  let h ← insertLoop hd fuel x h
  let r ← root h hd
  setRed h r false

/-- the loop of `rb_tree_erase_rebalance` — rb_tree.h:621-712; `x` and `xp` are the node and its parent -/
def eraseLoop (hd : Ptr) : Nat → Ptr → Ptr → Heap α → Option (Ptr × Heap α)
  | 0, _, _, _ => none
  | n + 1, x, xp, h => do
    let r ← root h hd
    if x = r then pure (x, h)
    else do
      let b ← isRedOr h x
      if b then pure (x, h)
      else do
        let cp ← h xp
        if x = cp.left then do
          let bro := cp.right
          let b ← isRed h bro
          let (bro, h) ← (if b then do
            let h ← setRed h bro false
            let h ← setRed h xp true
            let h ← rotateLeft hd xp h
            let cp ← h xp
            pure (cp.right, h) else some (bro, h))
          let cb ← h bro
          let lr ← isRedOr h cb.left
          let rr ← isRedOr h cb.right
          if lr = false ∧ rr = false then do
            let h ← setRed h bro true
            let cp ← h xp
            eraseLoop hd n xp cp.parent h
          else do
            let (bro, h) ← (if rr = false then do
              let h ← (if cb.left ≠ 0 then setRed h cb.left false else some h)
              let h ← setRed h bro true
              let h ← rotateRight hd bro h
              let cp ← h xp
              pure (cp.right, h) else some (bro, h))
            let cp ← h xp
            let h ← setRed h bro cp.red
            let h ← setRed h xp false
            let cb ← h bro
            let h ← (if cb.right ≠ 0 then setRed h cb.right false else some h)
            let h ← rotateLeft hd xp h
            pure (x, h)
        else do
          let bro := cp.left
          let b ← isRed h bro
          let (bro, h) ← (if b then do
            let h ← setRed h bro false
            let h ← setRed h xp true
            let h ← rotateRight hd xp h
            let cp ← h xp
            pure (cp.left, h) else some (bro, h))
          let cb ← h bro
          let lr ← isRedOr h cb.left
          let rr ← isRedOr h cb.right
          if lr = false ∧ rr = false then do
            let h ← setRed h bro true
            let cp ← h xp
            eraseLoop hd n xp cp.parent h
          else do
            let (bro, h) ← (if lr = false then do
              let h ← (if cb.right ≠ 0 then setRed h cb.right false else some h)
              let h ← setRed h bro true
              let h ← rotateLeft hd bro h
              let cp ← h xp
              pure (cp.left, h) else some (bro, h))
            let cp ← h xp
            let h ← setRed h bro cp.red
            let h ← setRed h xp false
            let cb ← h bro
            let h ← (if cb.left ≠ 0 then setRed h cb.left false else some h)
            let h ← rotateRight hd xp h
            pure (x, h)

/-- the first part of `rb_tree_erase_rebalance` — rb_tree.h:555-619: `z` is taken out of the tree; result: `x`, `xp`, whether the removed place was red, and the heap.  (`rb_tree_next(z)` is called only when
`z` has a right child, rb_tree.h:393-401.) -/
def unlink (hd : Ptr) (fuel : Nat) (z : Ptr) (h : Heap α) : Option (Ptr × Ptr × Bool × Heap α) := do
  let cz ← h z
  let y ← (if cz.left = 0 ∨ cz.right = 0 then some z else treeMin h fuel cz.right)
  let cy ← h y
  let x := if cy.left ≠ 0 then cy.left else cy.right
  if y ≠ z then do
    let h ← setParent h cz.left y
    let h ← setLeft h y cz.left
    let (xp, h) ← (if y ≠ cz.right then do
        let cy ← h y
        let xp := cy.parent
        let h ← (if x ≠ 0 then setParent h x cy.parent else some h)
        let h ← setLeft h cy.parent x
        let h ← setRight h y cz.right
        let h ← setParent h cz.right y
        pure (xp, h)
      else some (y, h))
    let h ← replace hd z y h
    let cz ← h z
    let h ← setParent h y cz.parent
    let cy ← h y
    let cz ← h z
    let h ← setRed h y cz.red
    let h ← setRed h z cy.red
    let b ← isRed h z
    pure (x, xp, b, h)
  else do
    let xp := cy.parent
    let h ← (if x ≠ 0 then setParent h x cy.parent else some h)
    let h ← replace hd z x h
    let ch ← h hd
    let h ← (if ch.left = z then do
        let m ← (if x = 0 then some xp else treeMin h fuel x)
        setLeft h hd m
      else some h)
    let ch ← h hd
    let h ← (if ch.right = z then do
        let m ← (if x = 0 then some xp else treeMax h fuel x)
        setRight h hd m
      else some h)
    let b ← isRed h y
    pure (x, xp, b, h)

/-- `rb_tree_erase_rebalance` — rb_tree.h:551-716 -/
def eraseRebalance (hd : Ptr) (fuel : Nat) (z : Ptr) (h : Heap α) : Option (Heap α) := do
  let (x, xp, b, h) ← unlink hd fuel z h
  if b = false then do
    let (x, h) ← eraseLoop hd fuel x xp h
    if x ≠ 0 then setRed h x false else pure h
  else pure h

/-- the climb of `inc()`: `while (y->right == node) { node = y; y = y->parent; }` — rb_tree.h:210-214 -/
def climbRight (h : Heap α) : Nat → Ptr → Ptr → Option (Ptr × Ptr)
  | 0, _, _ => none
  | n + 1, node, y => do
    let cy ← h y
    if cy.right = node then climbRight h n y cy.parent else pure (node, y)

/-- `rb_tree_iterator_base::inc` — rb_tree.h:201-218 -/
def inc (fuel : Nat) (h : Heap α) (node : Ptr) : Option Ptr := do
  let c ← h node
  if c.right ≠ 0 then treeMin h fuel c.right
  else do
    let (node, y) ← climbRight h fuel node c.parent
    let cn ← h node
    pure (if cn.right ≠ y then y else node)

/-- the climb of `dec()` — rb_tree.h:234-239 -/
def climbLeft (h : Heap α) : Nat → Ptr → Ptr → Option Ptr
  | 0, _, _ => none
  | n + 1, node, y => do
    let cy ← h y
    if node = cy.left then climbLeft h n y cy.parent else pure y

/-- `rb_tree_iterator_base::dec` — rb_tree.h:221-242 -/
def dec (fuel : Nat) (h : Heap α) (node : Ptr) : Option Ptr := do
  let c ← h node
  let p ← h c.parent
  if p.parent = node ∧ c.red then pure c.right
  else if c.left ≠ 0 then treeMax h fuel c.left
  else climbLeft h fuel node c.parent

/-! ## `rb_tree` and `map` -/

variable {K V : Type}

/-- `rb_tree` — rb_tree.h:750-752: the header, the number of nodes; the memory is passed along -/
structure Tree0 where
  hd : Ptr
  count : Nat

/-- `value_traits::get_key(*it)`; the header has no value -/
def keyAt (h : Heap (K × V)) (p : Ptr) : Option K := do
  let c ← h p
  let v ← c.val
  pure v.1

/-- `create_node` at the address `np` the allocator returns — rb_tree.h:1403-1423; the colour is not set (here: black), `rb_tree_insert_rebalance` sets it -/
def createNode (h : Heap α) (np : Ptr) (v : α) : Heap α := put h np (some ⟨0, 0, 0, false, some v⟩)

/-- `rb_tree_init` with the header at `hd` — rb_tree.h:1448-1458 -/
def init (h : Heap α) (hd : Ptr) : Heap α × Tree0 := (put h hd (some ⟨0, hd, hd, true, none⟩), ⟨hd, 0⟩)

/-- the descent of `lower_bound` and `find` — rb_tree.h:1261-1272, 1306-1318 -/
def lowerLoop (lt : K → K → Bool) (h : Heap (K × V)) (key : K) : Nat → Ptr → Ptr → Option Ptr
  | 0, _, _ => none
  | n + 1, y, x =>
    if x = 0 then pure y
    else do
      let c ← h x
      let k ← keyAt h x
      if lt k key = false then lowerLoop lt h key n x c.left else lowerLoop lt h key n y c.right

/-- `lower_bound` — rb_tree.h:1301-1320 -/
def lowerBound (lt : K → K → Bool) (h : Heap (K × V)) (t : Tree0) (key : K) : Option Ptr := do
  let r ← root h t.hd
  lowerLoop lt h key (t.count + 1) t.hd r

/-- `find` — rb_tree.h:1256-1275 -/
def find (lt : K → K → Bool) (h : Heap (K × V)) (t : Tree0) (key : K) : Option Ptr := do
  let y ← lowerBound lt h t key
  if y = t.hd then pure t.hd
  else do
    let k ← keyAt h y
    pure (if lt key k then t.hd else y)

/-- the descent of `upper_bound` — rb_tree.h:1349-1361 -/
def upperLoop (lt : K → K → Bool) (h : Heap (K × V)) (key : K) : Nat → Ptr → Ptr → Option Ptr
  | 0, _, _ => none
  | n + 1, y, x =>
    if x = 0 then pure y
    else do
      let c ← h x
      let k ← keyAt h x
      if lt key k then upperLoop lt h key n x c.left else upperLoop lt h key n y c.right

/-- `upper_bound` — rb_tree.h:1344-1363 -/
def upperBound (lt : K → K → Bool) (h : Heap (K × V)) (t : Tree0) (key : K) : Option Ptr := do
  let r ← root h t.hd
  upperLoop lt h key (t.count + 1) t.hd r

/-- the descent of `get_insert_unique_pos` — rb_tree.h:1493-1502 -/
def posLoop (lt : K → K → Bool) (h : Heap (K × V)) (key : K) : Nat → Ptr → Bool → Ptr → Option (Ptr × Bool)
  | 0, _, _, _ => none
  | n + 1, y, left, x =>
    if x = 0 then pure (y, left)
    else do
      let c ← h x
      let k ← keyAt h x
      if lt key k then posLoop lt h key n x true c.left else posLoop lt h key n x false c.right

/-- `get_insert_unique_pos` — rb_tree.h:1486-1519: the parent of the place, whether the place is on its left, and whether the key is new -/
def insertUniquePos (lt : K → K → Bool) (h : Heap (K × V)) (t : Tree0) (key : K) : Option ((Ptr × Bool) × Bool) := do
  let r ← root h t.hd
  let (y, left) ← posLoop lt h key (t.count + 1) t.hd true r
  let ch ← h t.hd
  if left ∧ (y = t.hd ∨ y = ch.left) then pure ((y, true), true)
  else do
    let j ← (if left then dec (t.count + 1) h y else some y)
    let k ← keyAt h j
    if lt k key then pure ((y, left), true) else pure ((y, left), false)

/-- `insert_node_at` (and `insert_value_at`, which creates the node first) — rb_tree.h:1521-1585 -/
def insertNodeAt (h : Heap α) (t : Tree0) (x node : Ptr) (left : Bool) : Option (Ptr × Heap α × Tree0) := do
  let h ← setParent h node x
  let h ← (if x = t.hd then do
      let h ← setParent h t.hd node
      let h ← setLeft h t.hd node
      setRight h t.hd node
    else if left then do
      let h ← setLeft h x node
      let ch ← h t.hd
      if ch.left = x then setLeft h t.hd node else pure h
    else do
      let h ← setRight h x node
      let ch ← h t.hd
      if ch.right = x then setRight h t.hd node else pure h)
  let h ← insertRebalance t.hd (t.count + 2) node h
  pure (node, h, { t with count := t.count + 1 })

/-- `insert_unique(value)`, `emplace_unique` and `map::insert`, `map::emplace` — rb_tree.h:1046-1060, 1166-1180, map.h:187-206; `np` is the address the allocator returns.  (`insert_unique(const value_type&)`
creates the node only when the key is new; the others create it first and destroy it otherwise; the result is the same.) -/
def insertUnique (lt : K → K → Bool) (h : Heap (K × V)) (t : Tree0) (np : Ptr) (v : K × V) : Option ((Ptr × Bool) × Heap (K × V) × Tree0) := do
  let h := createNode h np v
  let res ← insertUniquePos lt h t v.1
  if res.2 then do
    let (p, h, t) ← insertNodeAt h t res.1.1 np res.1.2
    pure ((p, true), h, t)
  else do
    let h ← free h np
    pure ((res.1.1, false), h, t)

/-- the common end of the functions with a hint — rb_tree.h:1122-1129, 1634-1642 -/
def hintEnd (lt : K → K → Bool) (h : Heap (K × V)) (t : Tree0) (np : Ptr) (key : K) : Option (Ptr × Heap (K × V) × Tree0) := do
  let pos ← insertUniquePos lt h t key
  if pos.2 = false then do
    let h ← free h np
    pure (pos.1.1, h, t)
  else insertNodeAt h t pos.1.1 np pos.1.2

/-- `insert_unique_use_hint` — rb_tree.h:1612-1642 -/
def insertUniqueUseHint (lt : K → K → Bool) (h : Heap (K × V)) (t : Tree0) (hint np : Ptr) (key : K) : Option (Ptr × Heap (K × V) × Tree0) := do
  let before ← dec (t.count + 1) h hint
  let kb ← keyAt h before
  let cb ← h before
  let kh ← (if lt kb key then (keyAt h hint).map (fun k => lt key k) else some false)
  let ch ← h hint
  if kh ∧ cb.right = 0 then insertNodeAt h t before np false
  else if kh ∧ ch.left = 0 then insertNodeAt h t hint np true
  else hintEnd lt h t np key

/-- `emplace_unique_use_hint`, `insert_unique(hint, value)`, `map::emplace_hint` — rb_tree.h:1105-1152, map.h:193-197 -/
def emplaceHint (lt : K → K → Bool) (h : Heap (K × V)) (t : Tree0) (hint np : Ptr) (v : K × V) : Option (Ptr × Heap (K × V) × Tree0) := do
  let h := createNode h np v
  if t.count = 0 then insertNodeAt h t t.hd np true
  else do
    let ch ← h t.hd
    if hint = ch.left then do
      let k ← keyAt h hint
      if lt v.1 k then insertNodeAt h t hint np true else hintEnd lt h t np v.1
    else if hint = t.hd then do
      let k ← keyAt h ch.right
      if lt k v.1 then insertNodeAt h t ch.right np false else hintEnd lt h t np v.1
    else insertUniqueUseHint lt h t hint np v.1

/-- `erase(iterator)` — rb_tree.h:1182-1195 -/
def erase (h : Heap α) (t : Tree0) (p : Ptr) : Option (Ptr × Heap α × Tree0) := do
  let next ← inc (t.count + 1) h p
  let h ← eraseRebalance t.hd (t.count + 2) p h
  let h ← free h p
  pure (next, h, { t with count := t.count - 1 })

/-- `erase_unique(key)`, `map::erase(key)` — rb_tree.h:1209-1222 -/
def eraseUnique (lt : K → K → Bool) (h : Heap (K × V)) (t : Tree0) (key : K) : Option (Nat × Heap (K × V) × Tree0) := do
  let p ← find lt h t key
  if p ≠ t.hd then do
    let (_, h, t) ← erase h t p
    pure (1, h, t)
  else pure (0, h, t)

/-- `erase_since` — rb_tree.h:1677-1690 -/
def eraseSince : Nat → Ptr → Heap α → Option (Heap α)
  | 0, _, _ => none
  | n + 1, x, h =>
    if x = 0 then pure h
    else do
      let c ← h x
      let h ← eraseSince n c.right h
      let c ← h x
      let y := c.left
      let h ← free h x
      eraseSince n y h

/-- `clear` — rb_tree.h:1240-1253 -/
def clear (h : Heap α) (t : Tree0) : Option (Heap α × Tree0) :=
  if t.count ≠ 0 then do
    let r ← root h t.hd
    let h ← eraseSince (t.count + 1) r h
    let h ← setLeft h t.hd t.hd
    let h ← setParent h t.hd 0
    let h ← setRight h t.hd t.hd
    pure (h, { t with count := 0 })
  else pure (h, t)

/-- `map::at(key)` — map.h:152-159: `none` inside is the exception -/
def at' (lt : K → K → Bool) (h : Heap (K × V)) (t : Tree0) (key : K) : Option (Option V) := do
  let it ← lowerBound lt h t key
  if it = t.hd then pure none
  else do
    let c ← h it
    let v ← c.val
    pure (if lt v.1 key then none else some v.2)

/-- `map::operator[](key)` — map.h:169-176: the address of the element; `dflt` is `T{}` -/
def index (lt : K → K → Bool) (h : Heap (K × V)) (t : Tree0) (np : Ptr) (key : K) (dflt : V) : Option (Ptr × Heap (K × V) × Tree0) := do
  let it ← lowerBound lt h t key
  let new ← (if it = t.hd then some true else (keyAt h it).map (fun k => lt key k))
  if new then emplaceHint lt h t it np (key, dflt) else pure (it, h, t)

end Verif.Rb
