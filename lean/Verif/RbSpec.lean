import Verif.OrderSpec
import Verif.RbTree

/-!
# Specification of an ordered map (C45)

The content of a map is the list of its elements in key order, each with the address at which it is stored.  `MapAt h t L` says that the memory `h` contains a map with header and size `t` and content
`L`; it is defined in RbMap.lean through the tree.
-/

namespace Verif.Rb

variable {K V : Type}

/-- an element of a map: where it is stored, key and value -/
abbrev Elem (K V : Type) := Nat × (K × V)

/-- strictly ascending keys -/
def Asc (lt : K → K → Bool) (L : List (Elem K V)) : Prop := L.Pairwise (fun a b => lt a.2.1 b.2.1 = true)

/-- two keys are the same for the order -/
def same (lt : K → K → Bool) (a b : K) : Bool := !lt a b && !lt b a

/-- the elements before, after and not before a key, and without it -/
def below (lt : K → K → Bool) (k : K) (L : List (Elem K V)) : List (Elem K V) := L.filter (fun x => lt x.2.1 k)
def above (lt : K → K → Bool) (k : K) (L : List (Elem K V)) : List (Elem K V) := L.filter (fun x => lt k x.2.1)
def notBelow (lt : K → K → Bool) (k : K) (L : List (Elem K V)) : List (Elem K V) := L.filter (fun x => !lt x.2.1 k)
def without (lt : K → K → Bool) (k : K) (L : List (Elem K V)) : List (Elem K V) := L.filter (fun x => !same lt x.2.1 k)

/-- the key occurs -/
def has (lt : K → K → Bool) (k : K) (L : List (Elem K V)) : Bool := L.any (fun x => same lt x.2.1 k)

/-- the content after the insertion of an element with a new key -/
def added (lt : K → K → Bool) (e : Elem K V) (L : List (Elem K V)) : List (Elem K V) := below lt e.2.1 L ++ e :: above lt e.2.1 L

/-- the content after an attempt to insert -/
def addNew (lt : K → K → Bool) (e : Elem K V) (L : List (Elem K V)) : List (Elem K V) := if has lt e.2.1 L then L else added lt e L

/-- where the first element is stored; `hd` (that is, `end()`) if there is none -/
def headOr (hd : Nat) (L : List (Elem K V)) : Nat := (L.head?.map (fun x => x.1)).getD hd

end Verif.Rb
