import Verif.DequeSpec
/-!
# What several deques are: variables with sequences as values
-/
namespace Verif.DequeSpec

variable {α : Type}

/-- What programs do with several deques. -/
inductive WOp (α : Type) where
  | make (h : ℕ) (l : List α)
  | copy (h g : ℕ)
  | move (h g : ℕ)
  | assign (h g : ℕ)
  | moveAssign (h g : ℕ)
  | listAssign (h : ℕ) (l : List α)
  | swap (h g : ℕ)
  | destroy (h : ℕ)
  | on (h : ℕ) (op : BulkOp α)

/-- A variable that exists holds a sequence, or has been moved from (`none` inside). -/
abbrev Vals (α : Type) := ℕ → Option (Option (List α))

/-- `d` with the value of `h` replaced -/
def put (d : Vals α) (h : ℕ) (v : Option (Option (List α))) : Vals α := fun k => if k = h then v else d k

/-- One step of a program with several deques: from values to values.  A variable moved from may be destroyed, assigned a list, swapped
and moved.  `triv`: the element type has a trivial destructor. -/
inductive Step (triv : Bool) : WOp α → Vals α → Vals α → Prop where
  | make (d : Vals α) (h : ℕ) (l : List α) : d h = none → Step triv (.make h l) d (put d h (some (some l)))
  /-- a copy has the same elements -/
  | copy (d : Vals α) (h g : ℕ) (l : List α) : d h = none → d g = some (some l) → Step triv (.copy h g) d (put d h (some (some l)))
  /-- a new deque has what the other one had -/
  | move (d : Vals α) (h g : ℕ) (v : Option (List α)) : d h = none → d g = some v →
      Step triv (.move h g) d (put (put d h (some v)) g (some none))
  | assign (d : Vals α) (h g : ℕ) (l m : List α) : h ≠ g → d h = some (some m) → d g = some (some l) →
      (triv = true ∨ m.length ≤ l.length ∨ l.length = 0) → Step triv (.assign h g) d (put d h (some (some l)))
  | selfAssign (d : Vals α) (h : ℕ) : Step triv (.assign h h) d d
  | moveAssign (d : Vals α) (h g : ℕ) (v : Option (List α)) (m : List α) : h ≠ g → d h = some (some m) → d g = some v →
      Step triv (.moveAssign h g) d (put (put d h (some v)) g (some none))
  | selfMove (d : Vals α) (h : ℕ) (m : List α) : d h = some (some m) → Step triv (.moveAssign h h) d (put d h (some none))
  | listAssign (d : Vals α) (h : ℕ) (l : List α) (v : Option (List α)) : d h = some v →
      Step triv (.listAssign h l) d (put d h (some (some l)))
  | swap (d : Vals α) (h g : ℕ) (v u : Option (List α)) : h ≠ g → d h = some v → d g = some u →
      Step triv (.swap h g) d (put (put d h (some u)) g (some v))
  | selfSwap (d : Vals α) (h : ℕ) : Step triv (.swap h h) d d
  | destroy (d : Vals α) (h : ℕ) (v : Option (List α)) : d h = some v → Step triv (.destroy h) d (put d h none)
  /-- an operation on one deque -/
  | on (d : Vals α) (h : ℕ) (op : BulkOp α) (l m : List α) : d h = some (some l) → BulkOp.apply op l = some m →
      (triv = true ∨ op.keeps l) → Step triv (.on h op) d (put d h (some (some m)))

/-- a program run from values to values -/
inductive Run (triv : Bool) : List (WOp α) → Vals α → Vals α → Prop where
  | nil (d : Vals α) : Run triv [] d d
  | cons {o : WOp α} {os : List (WOp α)} {d e f : Vals α} : Step triv o d e → Run triv os e f → Run triv (o :: os) d f

end Verif.DequeSpec
