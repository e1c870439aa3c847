import Verif.OrderSpec

/-! # Specification for the permuting algorithms (C64-C66): lexicographic order of sequences, stable merging -/

namespace Verif.Permute

variable {α : Type}

/-- `a` comes before `b` in the lexicographic order made from the comparison `lt`: at the first place where the elements are not
equivalent `a` has the smaller one, or `a` is a proper beginning of `b` up to equivalence -/
def LexLt (lt : α → α → Bool) : List α → List α → Prop
  | x :: xs, y :: ys => lt x y = true ∨ (lt y x = false ∧ LexLt lt xs ys)
  | [], _ :: _ => True
  | _, [] => False

/-- `b` comes directly after `a` among the arrangements of the elements of `a` -/
def NextArrangement (lt : α → α → Bool) (a b : List α) : Prop :=
  b.Perm a ∧ LexLt lt a b ∧ ∀ c : List α, c.Perm a → LexLt lt a c → ¬ LexLt lt c b

/-- no arrangement of the elements of `a` comes after `a` -/
def LastArrangement (lt : α → α → Bool) (a : List α) : Prop := ∀ c : List α, c.Perm a → ¬ LexLt lt a c

/-- no arrangement of the elements of `a` comes before `a` -/
def FirstArrangement (lt : α → α → Bool) (a : List α) : Prop := ∀ c : List α, c.Perm a → ¬ LexLt lt c a

/-- `b` comes directly before `a` among the arrangements of the elements of `a` -/
def PrevArrangement (lt : α → α → Bool) (a b : List α) : Prop :=
  b.Perm a ∧ LexLt lt b a ∧ ∀ c : List α, c.Perm a → LexLt lt c a → ¬ LexLt lt b c

/-- neither element comes before the other -/
def equiv (lt : α → α → Bool) (x y : α) : Bool := !lt x y && !lt y x

/-- `out` is the stable merge of two sorted sequences: sorted, made of exactly their elements, and among equivalent elements those of
`left` come first and both keep their order -/
def StableMerge (lt : α → α → Bool) (left right out : List α) : Prop :=
  Sorted lt out ∧ out.Perm (left ++ right) ∧ ∀ x, out.filter (equiv lt x) = left.filter (equiv lt x) ++ right.filter (equiv lt x)

end Verif.Permute
