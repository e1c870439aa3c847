import Mathlib.Data.Int.Notation

/-! # Strict weak orders and sorted sequences (for C46-C48) -/

namespace Verif

/-- what C++ requires of a comparison: a strict weak order -/
structure StrictWeak {α : Type} (lt : α → α → Bool) : Prop where
  asymm : ∀ a b, lt a b = true → lt b a = false
  trans_neg : ∀ a b c, lt a c = true → lt a b = true ∨ lt b c = true

/-- no element comes before an earlier one -/
def Sorted {α : Type} (lt : α → α → Bool) (l : List α) : Prop := l.Pairwise (fun a b => lt b a = false)

/-- `l[first..last)` is sorted -/
def SortedOn {α : Type} (lt : α → α → Bool) (l : List α) (first last : Nat) : Prop :=
  ∀ i j, first ≤ i → i < j → j < last → ∀ a b, l[i]? = some a → l[j]? = some b → lt b a = false

/-- `r` is the place in `[first, last)` where `p` stops holding -/
def Boundary {α : Type} (p : α → Bool) (l : List α) (first last r : Nat) : Prop :=
  first ≤ r ∧ r ≤ last ∧ (∀ i x, first ≤ i → i < r → l[i]? = some x → p x = true) ∧
    (∀ i x, r ≤ i → i < last → l[i]? = some x → p x = false)

end Verif
