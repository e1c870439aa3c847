/-!
# What the scanning algorithms are supposed to compute
-/

namespace Verif.Scan

variable {α : Type}

/-- the sequence with every run of equal elements collapsed to its first element -/
def collapse (eq : α → α → Bool) : List α → List α
  | [] => []
  | x :: l => x :: collapse eq (l.dropWhile (eq x))
termination_by l => l.length
decreasing_by
  exact Nat.lt_succ_of_le (by
    induction l with
    | nil => exact Nat.le_refl _
    | cons y l ih =>
      unfold List.dropWhile
      cases eq x y with
      | true => exact Nat.le_trans ih (Nat.le_succ _)
      | false => exact Nat.le_refl _)

/-- the elements of the array at positions `first` … `last - 1` -/
def slice (a : List α) (first last : Nat) : List α := (a.drop first).take (last - first)

/-- `b` is `a` with the list `w` written over the cells from `d` on -/
def Overwritten (a : List α) (d : Nat) (w b : List α) : Prop :=
  ∀ k, b[k]? = if d ≤ k ∧ k < d + w.length then w[k - d]? else a[k]?

/-- element by element, `u` and `v` have the same length and match -/
inductive Match (eq : α → α → Bool) : List α → List α → Prop
  | nil : Match eq [] []
  | cons {x y u v} : eq x y = true → Match eq u v → Match eq (x :: u) (y :: v)

/-- the pattern occurs in the text at offset `i` -/
def OccursAt (eq : α → α → Bool) (text pat : List α) (i : Nat) : Prop :=
  ∃ u v w, text = u ++ v ++ w ∧ u.length = i ∧ Match eq v pat

/-- an equivalence relation -/
structure Equivalence' (pred : α → α → Bool) : Prop where
  refl : ∀ x, pred x x = true
  symm : ∀ x y, pred x y = true → pred y x = true
  trans : ∀ x y z, pred x y = true → pred y z = true → pred x z = true

end Verif.Scan
