import Verif.MapSpec

/-!
# What a user of `multimap` and `multiset` observes (C101)

A multimap is seen as the list of its pairs in iteration order.  `Op` is an operation of a client, `spec` the intended effect and observation.  A multiset is the case `V = Unit`.
-/

namespace Verif.MultiSpec

open Verif.MapSpec (Out same)

variable {K V : Type}

/-- operations: insertion, insertion with the `i`-th iterator as hint (`end()` if there are not so many), insertion of a list, `erase` by key, by iterator, by range, `clear`, and the queries -/
inductive Op (K V : Type)
  | insert (v : K × V)
  | insertAt (i : Nat) (v : K × V)
  | insertList (l : List (K × V))
  | erase (k : K)
  | eraseAt (i : Nat)
  | eraseRange (i j : Nat)
  | clear
  | find (k : K)
  | lower (k : K)
  | upper (k : K)
  | equalRange (k : K)
  | count (k : K)
  | size
  | items
  | itemsBack

/-- a new pair goes behind all the pairs whose key is not greater: equal keys stay in the order in which they came -/
def insert (lt : K → K → Bool) (v : K × V) (M : List (K × V)) : List (K × V) := M.filter (fun x => !lt v.1 x.1) ++ v :: M.filter (fun x => lt v.1 x.1)

/-- where a pair inserted with the `i`-th iterator as hint goes: directly before the hint if it fits there and the hint is neither the first element nor `end()`; otherwise as without hint -/
def hintPos (lt : K → K → Bool) (i : Nat) (k : K) (M : List (K × V)) : Nat :=
  if 0 < i ∧ (M[i - 1]?).any (fun b => !lt k b.1) ∧ (M[i]?).any (fun a => !lt a.1 k) then i else (M.filter (fun x => !lt k x.1)).length

/-- the effect and the observation of one operation.  Insertions give the position of the new pair (the iterator that is returned, counted from `begin()`), `lower` and `upper` the position -/
def spec (lt : K → K → Bool) : Op K V → List (K × V) → Out K V × List (K × V)
  | .insert v, M => (.num (M.filter (fun x => !lt v.1 x.1)).length, insert lt v M)
  | .insertAt i v, M => (.num (hintPos lt i v.1 M), M.take (hintPos lt i v.1 M) ++ v :: M.drop (hintPos lt i v.1 M))
  | .insertList l, M => (.none, l.foldl (fun M v => insert lt v M) M)
  | .erase k, M => (.num (M.filter (fun x => same lt x.1 k)).length, M.filter (fun x => !same lt x.1 k))
  | .eraseAt i, M => (.flag (decide (i < M.length)), M.take i ++ M.drop (i + 1))
  | .eraseRange i j, M => (.none, if i ≤ j then M.take i ++ M.drop j else M)
  | .clear, _ => (.none, [])
  | .find k, M => (.item (M.find? (fun x => same lt x.1 k)), M)
  | .lower k, M => (.num (M.filter (fun x => lt x.1 k)).length, M)
  | .upper k, M => (.num (M.filter (fun x => !lt k x.1)).length, M)
  | .equalRange k, M => (.items (M.filter (fun x => same lt x.1 k)), M)
  | .count k, M => (.num (M.filter (fun x => same lt x.1 k)).length, M)
  | .size, M => (.num M.length, M)
  | .items, M => (.items M, M)
  | .itemsBack, M => (.items M.reverse, M)

/-- a history -/
def specAll (lt : K → K → Bool) : List (Op K V) → List (K × V) → List (Out K V) × List (K × V)
  | [], M => ([], M)
  | o :: ops, M => ((spec lt o M).1 :: (specAll lt ops (spec lt o M).2).1, (specAll lt ops (spec lt o M).2).2)

end Verif.MultiSpec
