import Mathlib.Data.Nat.Notation
/-!
# The owning pointer — /repo/mylib/mystl/memory.h, class `auto_ptr`

Objects of type `T` are numbered in the order of their `new`.  `auto_ptr` variables are numbered by the program.  Deleting an object
twice, or one that was never made, is undefined behaviour (`none`), so is using a variable that does not exist.  Destructors of `T`
do not touch the variables.
-/

namespace Verif.AutoPtr

/-- the objects, the number of the next one, and the variables with their `m_ptr` (`none` inside: the null pointer) -/
structure World where
  live : ℕ → Bool
  next : ℕ
  ptr : ℕ → Option (Option ℕ)

def upd {β : Type} (f : ℕ → β) (i : ℕ) (v : β) : ℕ → β := fun j => if j = i then v else f j

/-- `delete p` -/
def del (w : World) : Option ℕ → Option World
  | none => some w
  | some p => if w.live p then some { w with live := upd w.live p false } else none

/-- `release()` — memory.h:188-193 -/
def release (w : World) (h : ℕ) : Option (World × Option ℕ) := do
  let tmp ← w.ptr h
  some ({ w with ptr := upd w.ptr h (some none) }, tmp)

/-- `reset(p)` — memory.h:196-203 -/
def reset (w : World) (h : ℕ) (p : Option ℕ) : Option World := do
  let m ← w.ptr h
  if m ≠ p then do
    let w ← del w m
    some { w with ptr := upd w.ptr h (some p) }
  else some w

/-- `delete m_ptr; m_ptr = rhs.release();` — memory.h:161-162, 171-172 -/
def take (w : World) (h g : ℕ) : Option World := do
  let m ← w.ptr h
  let w ← del w m
  let (w, q) ← release w g
  some { w with ptr := upd w.ptr h (some q) }

/-- `operator=(auto_ptr&)` — memory.h:157-165; different variables have different addresses -/
def assign (w : World) (h g : ℕ) : Option World :=
  if h ≠ g then take w h g else some w

/-- `operator=(auto_ptr<U>&)` — memory.h:166-175: compares the pointers held -/
def assignU (w : World) (h g : ℕ) : Option World := do
  let m ← w.ptr h
  let q ← w.ptr g
  if m ≠ q then take w h g else some w

/-- `auto_ptr(p)` — memory.h:152 -/
def construct (w : World) (h : ℕ) (p : Option ℕ) : World := { w with ptr := upd w.ptr h (some p) }

/-- `auto_ptr(rhs)` — memory.h:153-155 -/
def copy (w : World) (h g : ℕ) : Option World := do
  let (w, q) ← release w g
  some (construct w h q)

/-- `~auto_ptr()` — memory.h:177; afterwards the variable does not exist -/
def destroy (w : World) (h : ℕ) : Option World := do
  let m ← w.ptr h
  let w ← del w m
  some { w with ptr := upd w.ptr h none }

/-- `new T` -/
def newObj (w : World) : World × ℕ := ({ w with live := upd w.live w.next true, next := w.next + 1 }, w.next)

/-- what a program can do with its variables -/
inductive Op
  /-- `auto_ptr<T> h(new T)` -/
  | make (h : ℕ)
  /-- `auto_ptr<T> h` -/
  | null (h : ℕ)
  /-- `auto_ptr<T> h(p)` -/
  | wrap (h p : ℕ)
  /-- `auto_ptr<T> h(g)` -/
  | copy (h g : ℕ)
  /-- `h = g` -/
  | assign (h g : ℕ)
  /-- `h = g` with another element type -/
  | assignU (h g : ℕ)
  /-- `p = h.release()` -/
  | release (h : ℕ)
  /-- `h.reset(p)` -/
  | reset (h : ℕ) (p : Option ℕ)
  /-- `h.reset(new T)` -/
  | resetNew (h : ℕ)
  /-- the end of the life of `h` -/
  | destroy (h : ℕ)
  /-- `delete p` of a pointer not held by a variable -/
  | free (p : ℕ)

def step (w : World) : Op → Option World
  | .make h => some (construct (newObj w).1 h (some (newObj w).2))
  | .null h => some (construct w h none)
  | .wrap h p => some (construct w h (some p))
  | .copy h g => copy w h g
  | .assign h g => assign w h g
  | .assignU h g => assignU w h g
  | .release h => (release w h).map Prod.fst
  | .reset h p => reset w h p
  | .resetNew h => reset (newObj w).1 h (some (newObj w).2)
  | .destroy h => destroy w h
  | .free p => del w (some p)

end Verif.AutoPtr
