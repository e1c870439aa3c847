import Mathlib.Data.List.Infix

/-! # What replacing, splitting and padding mean, independent of the loops -/

namespace Verif.StrOps

variable {α : Type}

/-- `Replaced a b s t`: `t` is `s` with the non-overlapping occurrences of `a`, found from left to right, replaced by
`b`. -/
inductive Replaced (a b : List α) : List α → List α → Prop
  /-- no occurrence left -/
  | done {s} : ¬ a <:+: s → Replaced a b s s
  /-- `pre ++ a` ends the leftmost occurrence: replace it and go on behind it -/
  | step {pre post post'} :
      (∀ p q, pre ++ a ++ post = p ++ a ++ q → pre.length ≤ p.length) →
      Replaced a b post post' → Replaced a b (pre ++ a ++ post) (pre ++ b ++ post')

/-- concatenation of the fields with the separator between neighbours -/
def join (sep : List α) : List (List α) → List α
  | [] => []
  | [f] => f
  | f :: g :: r => f ++ sep ++ join sep (g :: r)

end Verif.StrOps
