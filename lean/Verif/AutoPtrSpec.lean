import Verif.AutoPtr
/-!
# What ownership means (C106)

Every object has one owner: a variable, the program itself (after `release()`), or nobody any more (it has been deleted).
-/

namespace Verif.AutoPtr

inductive Owner
  | gone | program | var (h : ℕ)
deriving DecidableEq

/-- the owner of every object, the variables that exist, and the number of objects made so far -/
structure Own where
  owner : ℕ → Owner
  vars : ℕ → Bool
  made : ℕ

/-- whatever `h` owns passes to `o` -/
def pass (f : ℕ → Owner) (h : ℕ) (o : Owner) : ℕ → Owner := fun p => if f p = .var h then o else f p

/-- what a program may do: variables exist exactly while they are used, and a raw pointer is handed over or deleted only while the
program owns it -/
def Legal (s : Own) : Op → Prop
  | .make h => s.vars h = false
  | .null h => s.vars h = false
  | .wrap h p => s.vars h = false ∧ s.owner p = .program
  | .copy h g => s.vars h = false ∧ s.vars g = true
  | .assign h g => s.vars h = true ∧ s.vars g = true
  | .assignU h g => s.vars h = true ∧ s.vars g = true
  | .release h => s.vars h = true
  | .reset h none => s.vars h = true
  | .reset h (some p) => s.vars h = true ∧ (s.owner p = .program ∨ s.owner p = .var h)
  | .resetNew h => s.vars h = true
  | .destroy h => s.vars h = true
  | .free p => s.owner p = .program

/-- what becomes of the owners: assignment deletes what the left side owned and passes on what the right side owned -/
def eff (s : Own) : Op → Own
  | .make h => ⟨upd s.owner s.made (.var h), upd s.vars h true, s.made + 1⟩
  | .null h => { s with vars := upd s.vars h true }
  | .wrap h p => { s with owner := upd s.owner p (.var h), vars := upd s.vars h true }
  | .copy h g => { s with owner := pass s.owner g (.var h), vars := upd s.vars h true }
  | .assign h g => if h = g then s else { s with owner := pass (pass s.owner h .gone) g (.var h) }
  | .assignU h g => if h = g then s else { s with owner := pass (pass s.owner h .gone) g (.var h) }
  | .release h => { s with owner := pass s.owner h .program }
  | .reset h none => { s with owner := pass s.owner h .gone }
  | .reset h (some p) => if s.owner p = .var h then s else { s with owner := upd (pass s.owner h .gone) p (.var h) }
  | .resetNew h => ⟨upd (pass s.owner h .gone) s.made (.var h), s.vars, s.made + 1⟩
  | .destroy h => { s with owner := pass s.owner h .gone, vars := upd s.vars h false }
  | .free p => { s with owner := upd s.owner p .gone }

/-- the state at the start of the program -/
def start : Own := ⟨fun _ => .gone, fun _ => false, 0⟩

/-- the state after a history all of whose steps are legal -/
inductive History : List Op → Own → Prop
  | nil : History [] start
  | snoc {ops s op} : History ops s → Legal s op → History (ops ++ [op]) (eff s op)

end Verif.AutoPtr
