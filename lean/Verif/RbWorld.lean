import Verif.RbCopy
import Verif.RbClient
import Verif.MapSpec
/-!
# Programs with several maps — /repo/mylib/mystl/rb_tree.h, copy and move, `swap`

All maps share one heap.  A variable that does not exist is `none`.
-/

namespace Verif.Rb

open Verif.MapSpec

variable {K V : Type}

/-- the variables of a program (`mystl::map` objects, map.h:30-120) and the heap; the comparator has no state -/
structure World (K V : Type) where
  heap : Heap (K × V)
  var : Nat → Option Tree0

/-- the statements of a program with maps: rb_tree.h:745-771, 960-1030, 1389-1397 -/
inductive WOp (K V : Type) where
  | new (i : Nat)
  | run (i : Nat) (op : Op K V)
  | copyNew (i j : Nat)
  | moveNew (i j : Nat)
  | assign (i j : Nat)
  | moveAssign (i j : Nat)
  | swap (i j : Nat)
  | destroy (i : Nat)

/-- a variable gets a value (model only; no counterpart in /repo) -/
def updV {β : Type} (f : Nat → β) (i : Nat) (v : β) : Nat → β := fun j => if j = i then v else f j

/-- the copy assignment for `this != &rhs` — rb_tree.h:1003-1013 -/
def copyAssign {α : Type} (alloc : Heap α → Ptr) (h : Heap α) (t rhs : Tree0) : Option (Heap α × Tree0) := do
  let (h, t) ← clear h t
  let h ← (if rhs.count ≠ 0 then do
      let r ← root h rhs.hd
      let (top, h) ← copyFrom alloc (4 * rhs.count + 4) r t.hd h
      let h ← setParent h t.hd top
      let l ← treeMin h (rhs.count + 1) top
      let h ← setLeft h t.hd l
      let m ← treeMax h (rhs.count + 1) top
      setRight h t.hd m
    else some h)
  pure (h, ⟨t.hd, rhs.count⟩)

/-- what `reset()` leaves — rb_tree.h:1462-1466 -/
def hollow : Tree0 := ⟨0, 0⟩

/-- one statement: what it shows and the world afterwards; `none` is undefined behaviour, or a variable that does not exist or exists already.  Move
constructor and move assignment: rb_tree.h:985-993, 1019-1030; `swap`: 1389-1397; the destructor is `clear()`: 771. -/
def runW (lt : K → K → Bool) (d : V) (alloc : Heap (K × V) → Ptr) (o : WOp K V) (w : World K V) : Option (Option (Out K V) × World K V) :=
  match o with
  | .new i =>
    match w.var i with
    | some _ => none
    | none => let (h, t) := init w.heap (alloc w.heap); some (none, ⟨h, updV w.var i (some t)⟩)
  | .run i op => do
    let t ← w.var i
    let (out, h, t) ← runOp lt d alloc op w.heap t
    some (some out, ⟨h, updV w.var i (some t)⟩)
  | .copyNew i j =>
    match w.var i with
    | some _ => none
    | none => do
      let t ← w.var j
      let (h, t) ← copy alloc w.heap t
      some (none, ⟨h, updV w.var i (some t)⟩)
  | .moveNew i j =>
    match w.var i with
    | some _ => none
    | none => do
      let t ← w.var j
      some (none, ⟨w.heap, updV (updV w.var i (some t)) j (some hollow)⟩)
  | .assign i j => do
    let t ← w.var i
    let rhs ← w.var j
    if i = j then some (none, w)
    else do
      let (h, t) ← copyAssign alloc w.heap t rhs
      some (none, ⟨h, updV w.var i (some t)⟩)
  | .moveAssign i j => do
    let t ← w.var i
    let (h, t) ← clear w.heap t
    let rhs ← (updV w.var i (some t)) j
    some (none, ⟨h, updV (updV w.var i (some rhs)) j (some hollow)⟩)
  | .swap i j => do
    let t ← w.var i
    let rhs ← w.var j
    some (none, ⟨w.heap, updV (updV w.var i (some rhs)) j (some t)⟩)
  | .destroy i => do
    let t ← w.var i
    let (h, _) ← clear w.heap t
    some (none, ⟨h, updV w.var i none⟩)

/-- a program: what the statements show; `n` numbers the statements for the allocator (client code of rb_tree.h:745-1030) -/
def runWs (lt : K → K → Bool) (d : V) (alloc : Nat → Heap (K × V) → Ptr) : Nat → List (WOp K V) → World K V → Option (List (Option (Out K V)) × World K V)
  | _, [], w => some ([], w)
  | n, o :: os, w => do
    let (x, w) ← runW lt d (alloc n) o w
    let (xs, w) ← runWs lt d alloc (n + 1) os w
    some (x :: xs, w)

end Verif.Rb
