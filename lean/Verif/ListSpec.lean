import Mathlib.Logic.Function.Basic
import Mathlib.Data.List.Destutter
import Verif.OrderSpec

/-!
# What `mystl::list` should do (specification for C81)

The state a client sees: for every list object the sequence of its elements.  An element is a pair of an identity and a value; an iterator or a reference to an element stays with its identity.  `none`
is an object that does not exist, has been destroyed or has been moved from.  Nothing here refers to nodes or links.
-/

namespace Verif.DList

open Function (update)

variable {α : Type}

abbrev State (α : Type) := Nat → Option (List (Nat × α))

/-- the operations of a client on list objects named by numbers; a position is the number of elements before it -/
inductive Op (α : Type)
  /-- `list(first, last)`, `list(n, value)`, `list{…}`, `list()` -/
  | create (i : Nat) (vs : List α)
  /-- `list(const list&)` -/
  | copy (i j : Nat)
  /-- `list(list&&)` -/
  | moveNew (i j : Nat)
  /-- `~list()` -/
  | destroy (i : Nat)
  | pushFront (i : Nat) (v : α)
  | pushBack (i : Nat) (v : α)
  | popFront (i : Nat)
  | popBack (i : Nat)
  /-- `insert(pos, value)` -/
  | insert (i k : Nat) (v : α)
  | emplace (i k : Nat) (v : α)
  /-- `insert(pos, first, last)`, `insert(pos, n, value)` -/
  | insertRange (i k : Nat) (vs : List α)
  | erase (i k : Nat)
  /-- `erase(first, last)`: `n` elements from position `k` -/
  | eraseRange (i k n : Nat)
  | clear (i : Nat)
  | resize (i n : Nat) (v : α)
  /-- `assign(first, last)`, `assign(n, value)` -/
  | assign (i : Nat) (vs : List α)
  | copyAssign (i j : Nat)
  | moveAssign (i j : Nat)
  | swap (i j : Nat)
  /-- `splice(pos, x)` -/
  | splice (i k j : Nat)
  /-- `splice(pos, x, it)` from another list -/
  | spliceOne (i k j m : Nat)
  /-- `splice(pos, *this, it)` -/
  | spliceOneSelf (i k m : Nat)
  /-- `splice(pos, x, first, last)` from another list: `n` elements from position `m` -/
  | spliceRange (i k j m n : Nat)
  /-- `remove_if(pred)`, `remove(value)` -/
  | removeIf (i : Nat) (p : α → Bool)
  | unique (i : Nat) (p : α → α → Bool)
  | merge (i j : Nat) (lt : α → α → Bool)
  | sort (i : Nat) (lt : α → α → Bool)
  | reverse (i : Nat)

/-- what the client must respect -/
def Pre (S : State α) : Op α → Prop
  | .create i _ => S i = none
  | .copy i j | .moveNew i j => S i = none ∧ S j ≠ none
  | .destroy _ => True
  | .pushFront i _ | .pushBack i _ | .clear i | .resize i _ _ | .assign i _ | .removeIf i _ | .unique i _ | .sort i _ | .reverse i => S i ≠ none
  | .popFront i | .popBack i => ∃ L, S i = some L ∧ L ≠ []
  | .insert i k _ | .emplace i k _ | .insertRange i k _ => ∃ L, S i = some L ∧ k ≤ L.length
  | .erase i k => ∃ L, S i = some L ∧ k < L.length
  | .eraseRange i k n => ∃ L, S i = some L ∧ k + n ≤ L.length
  | .copyAssign i j | .moveAssign i j | .swap i j | .merge i j _ => S i ≠ none ∧ S j ≠ none
  | .splice i k j => i ≠ j ∧ S j ≠ none ∧ ∃ L, S i = some L ∧ k ≤ L.length
  | .spliceOne i k j m => i ≠ j ∧ (∃ L, S i = some L ∧ k ≤ L.length) ∧ ∃ M, S j = some M ∧ m < M.length
  | .spliceOneSelf i k m => ∃ L, S i = some L ∧ k ≤ L.length ∧ m < L.length
  | .spliceRange i k j m n => i ≠ j ∧ (∃ L, S i = some L ∧ k ≤ L.length) ∧ ∃ M, S j = some M ∧ m + n ≤ M.length

/-- `M` are new elements -/
def New (S : State α) (M : List (Nat × α)) : Prop := (M.map Prod.fst).Nodup ∧ ∀ e ∈ M, ∀ i L, S i = some L → ∀ x ∈ L, x.1 ≠ e.1

/-- what the operation does: `S'` is a possible state afterwards -/
def Effect (S : State α) (op : Op α) (S' : State α) : Prop :=
  match op with
  | .create i vs => ∃ M, New S M ∧ M.map Prod.snd = vs ∧ S' = update S i (some M)
  | .copy i j => ∃ L M, S j = some L ∧ New S M ∧ M.map Prod.snd = L.map Prod.snd ∧ S' = update S i (some M)
  | .moveNew i j => S' = update (update S i (S j)) j none
  | .destroy i => S' = update S i none
  | .pushFront i v => ∃ L p, S i = some L ∧ New S [(p, v)] ∧ S' = update S i (some ((p, v) :: L))
  | .pushBack i v => ∃ L p, S i = some L ∧ New S [(p, v)] ∧ S' = update S i (some (L ++ [(p, v)]))
  | .popFront i => ∃ L, S i = some L ∧ S' = update S i (some L.tail)
  | .popBack i => ∃ L, S i = some L ∧ S' = update S i (some L.dropLast)
  | .insert i k v | .emplace i k v => ∃ L p, S i = some L ∧ New S [(p, v)] ∧ S' = update S i (some (L.take k ++ (p, v) :: L.drop k))
  | .insertRange i k vs => ∃ L M, S i = some L ∧ New S M ∧ M.map Prod.snd = vs ∧ S' = update S i (some (L.take k ++ M ++ L.drop k))
  | .erase i k => ∃ L, S i = some L ∧ S' = update S i (some (L.take k ++ L.drop (k + 1)))
  | .eraseRange i k n => ∃ L, S i = some L ∧ S' = update S i (some (L.take k ++ L.drop (k + n)))
  | .clear i => S' = update S i (some [])
  | .resize i n v => ∃ L M, S i = some L ∧ New S M ∧ M.map Prod.snd = List.replicate (n - L.length) v ∧ S' = update S i (some (L.take n ++ M))
  | .assign i vs => ∃ L L' M, S i = some L ∧ New S M ∧ L'.map Prod.snd = vs ∧ L'.map Prod.fst = (L.map Prod.fst).take vs.length ++ M.map Prod.fst ∧ S' = update S i (some L')
  | .copyAssign i j => if i = j then S' = S else ∃ K L L' M, S j = some K ∧ S i = some L ∧ New S M ∧ L'.map Prod.snd = K.map Prod.snd
      ∧ L'.map Prod.fst = (L.map Prod.fst).take K.length ++ M.map Prod.fst ∧ S' = update S i (some L')
  | .moveAssign i j => if i = j then S' = update S i (some []) else S' = update (update S i (S j)) j (some [])
  | .swap i j => S' = update (update S i (S j)) j (S i)
  | .splice i k j => ∃ L M, S i = some L ∧ S j = some M ∧ S' = update (update S i (some (L.take k ++ M ++ L.drop k))) j (some [])
  | .spliceOne i k j m => ∃ L M e, S i = some L ∧ S j = some M ∧ M[m]? = some e ∧ S' = update (update S i (some (L.take k ++ e :: L.drop k))) j (some (M.take m ++ M.drop (m + 1)))
  | .spliceOneSelf i k m => ∃ L e, S i = some L ∧ L[m]? = some e ∧
      S' = update S i (some (if m < k then (L.take k).eraseIdx m ++ e :: L.drop k else L.take k ++ e :: (L.drop k).eraseIdx (m - k)))
  | .spliceRange i k j m n => ∃ L M, S i = some L ∧ S j = some M ∧ S' = update (update S i (some (L.take k ++ (M.drop m).take n ++ L.drop k))) j (some (M.take m ++ M.drop (m + n)))
  | .removeIf i p => ∃ L, S i = some L ∧ S' = update S i (some (L.filter (fun e => !p e.2)))
  | .unique i p => ∃ L, S i = some L ∧ S' = update S i (some (L.destutter (fun x y => p x.2 y.2 = false)))
  | .merge i j lt => if i = j then S' = S else ∃ L M, S i = some L ∧ S j = some M ∧ S' = update (update S i (some (List.merge L M (fun x y => !lt y.2 x.2)))) j (some [])
  | .sort i lt => ∃ L L', S i = some L ∧ L'.Perm L ∧ (StrictWeak lt → Sorted lt (L'.map Prod.snd) ∧ ∀ v, L'.filter (fun e => !lt v e.2 && !lt e.2 v) = L.filter (fun e => !lt v e.2 && !lt e.2 v))
      ∧ S' = update S i (some L')
  | .reverse i => ∃ L, S i = some L ∧ S' = update S i (some L.reverse)

/-- every operation of the history respects its precondition, in whatever state the earlier ones leave -/
def Valid (S : State α) : List (Op α) → Prop
  | [] => True
  | op :: ops => Pre S op ∧ ∀ S', Effect S op S' → Valid S' ops

/-- `S'` is a possible state after the history -/
def Effects (S : State α) : List (Op α) → State α → Prop
  | [], S' => S' = S
  | op :: ops, S' => ∃ S1, Effect S op S1 ∧ Effects S1 ops S'

end Verif.DList
