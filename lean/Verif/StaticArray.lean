import Verif.Sort

/-!
# `mystl::static_array<T, N>` — /repo/mylib/mystl/static_array.h:1-101

An object lives at an address (a number); its members are the `N` elements and the two stored iterators `_begin`, `_end`, each the address of an object and an offset into its elements.  The
implicit copy constructor copies all three members (static_array.h declares a copy assignment, :19-24, but no copy constructor); `array2` … `array10` (:63-97) add nothing.  A write past the
elements of the object, or a read through an iterator whose object is gone, makes the program stop (`none`).
-/

namespace Verif.StaticArray

open Verif.Sort

variable {α : Type}

/-- a stored iterator: which object, which element -/
structure Ptr where
  obj : Nat
  off : Nat
  deriving DecidableEq

/-- the members — static_array.h:56-59 -/
structure Arr (α : Type) where
  data : List α
  begin : Ptr
  fin : Ptr

abbrev World (α : Type) := Nat → Option (Arr α)

def put (w : World α) (i : Nat) (a : Arr α) : World α := fun k => if k = i then some a else w k

/-- default member initialisers `data[N]={}`, `_begin = data`, `_end = data + N` — static_array.h:17, 57-59 -/
def fresh (n : Nat) (dflt : α) (i : Nat) : Arr α := ⟨List.replicate n dflt, ⟨i, 0⟩, ⟨i, n⟩⟩

/-- the loop of the constructor from a list — static_array.h:43-48: no bound other than the length of the list -/
def listLoop : List α → List α → Nat → Option (List α)
  | [], d, _ => some d
  | x :: r, d, i => do
    let d ← wr d i x
    listLoop r d (i + 1)

/-- the loop of `operator=` from index `i`, `k` elements to go — static_array.h:19-24 -/
def assignLoop (right : List α) : Nat → List α → Nat → Option (List α)
  | 0, d, _ => some d
  | k + 1, d, i => do
    let x ← right[i]?
    let d ← wr d i x
    assignLoop right k d (i + 1)

/-- the loop of `fill` — static_array.h:35-39 -/
def fillLoop (x : α) : Nat → List α → Nat → Option (List α)
  | 0, d, _ => some d
  | k + 1, d, i => do
    let d ← wr d i x
    fillLoop x k d (i + 1)

/-- what a client can do with objects: construct (default, from a list, as a copy), assign, write an element, fill, and end the lifetime -/
inductive Op (α : Type)
  | new (i : Nat)
  | ofList (i : Nat) (l : List α)
  | copy (i j : Nat)
  | assign (i j : Nat)
  | set (i k : Nat) (x : α)
  | fill (i : Nat) (x : α)
  | drop (i : Nat)

/-- one call — static_array.h:17-48 -/
def step (n : Nat) (dflt : α) (w : World α) : Op α → Option (World α)
  | .new i => some (put w i (fresh n dflt i))
  | .ofList i l => do
    let d ← listLoop l (fresh n dflt i).data 0
    pure (put w i { fresh n dflt i with data := d })
  | .copy i j => do
    let a ← w j
    pure (put w i a)
  | .assign i j => do
    let a ← w i
    let b ← w j
    let d ← assignLoop b.data n a.data 0
    pure (put w i { a with data := d })
  | .set i k x => do
    let a ← w i
    let d ← wr a.data k x
    pure (put w i { a with data := d })
  | .fill i x => do
    let a ← w i
    let d ← fillLoop x n a.data 0
    pure (put w i { a with data := d })
  | .drop i => do
    let _ ← w i
    pure (fun k => if k = i then none else w k)

/-- a history of calls -/
def run (n : Nat) (dflt : α) (w : World α) : List (Op α) → Option (World α)
  | [] => some w
  | o :: os => do
    let w ← step n dflt w o
    run n dflt w os

/-- `operator[]`, `get` — static_array.h:26-32 -/
def get (a : Arr α) (k : Nat) : Option α := a.data[k]?

/-- `for (it = begin(); it != end(); ++it)` reading `*it` — static_array.h:50-55 -/
def iterate (w : World α) (last : Ptr) : Nat → Ptr → Option (List α)
  | 0, _ => none
  | fuel + 1, it =>
    if it = last then some []
    else do
      let o ← w it.obj
      let x ← o.data[it.off]?
      let r ← iterate w last fuel ⟨it.obj, it.off + 1⟩
      pure (x :: r)

end Verif.StaticArray
