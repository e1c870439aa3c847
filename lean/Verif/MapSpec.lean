import Mathlib.Data.Int.Notation

/-!
# What a user of `map` observes (C45)

A map is seen as the list of its pairs in ascending key order.  `Op` is an operation of a client, `Out` what it can observe, `spec` the intended effect.
-/

namespace Verif.MapSpec

variable {K V : Type}

/-- operations: insertion, insertion with the `i`-th iterator as hint, insertion of a list, `m[k] = v`, reading `m[k]`, `erase` by key, by iterator (the `i`-th), by range (`i`-th to `j`-th), `clear`,
and the queries -/
inductive Op (K V : Type)
  | insert (v : K × V)
  | insertAt (i : Nat) (v : K × V)
  | insertList (l : List (K × V))
  | assign (k : K) (v : V)
  | get (k : K)
  | erase (k : K)
  | eraseAt (i : Nat)
  | eraseRange (i j : Nat)
  | clear
  | find (k : K)
  | lower (k : K)
  | upper (k : K)
  | at (k : K)
  | count (k : K)
  | size
  | items
  | itemsBack

/-- observations -/
inductive Out (K V : Type)
  | none
  | flag (b : Bool)
  | num (n : Nat)
  | item (x : Option (K × V))
  | value (x : Option V)
  | items (l : List (K × V))
  deriving DecidableEq

/-- two keys are the same for the order -/
def same (lt : K → K → Bool) (a b : K) : Bool := !lt a b && !lt b a

/-- the key occurs -/
def has (lt : K → K → Bool) (k : K) (M : List (K × V)) : Bool := M.any (fun x => same lt x.1 k)

/-- insertion keeps an existing pair -/
def insert (lt : K → K → Bool) (v : K × V) (M : List (K × V)) : List (K × V) :=
  if has lt v.1 M then M else M.filter (fun x => lt x.1 v.1) ++ v :: M.filter (fun x => lt v.1 x.1)

/-- assignment changes the value under a key -/
def assign (lt : K → K → Bool) (k : K) (v : V) (M : List (K × V)) : List (K × V) := (insert lt (k, v) M).map (fun x => if same lt x.1 k then (x.1, v) else x)

/-- the effect and the observation of one operation; `d` is `V{}`.  `at` is not the `at` of the standard: it gives the value of the first pair whose key is not below `k`, and throws (`none`) only if there
is no such pair -/
def spec (lt : K → K → Bool) (d : V) : Op K V → List (K × V) → Out K V × List (K × V)
  | .insert v, M => (.flag (!has lt v.1 M), insert lt v M)
  | .insertAt _ v, M => (.none, insert lt v M)
  | .insertList l, M => (.none, l.foldl (fun M v => insert lt v M) M)
  | .assign k v, M => (.none, assign lt k v M)
  | .get k, M => (.value ((insert lt (k, d) M).find? (fun x => same lt x.1 k) |>.map (fun x => x.2)), insert lt (k, d) M)
  | .erase k, M => (.num (if has lt k M then 1 else 0), M.filter (fun x => !same lt x.1 k))
  | .eraseAt i, M => (.flag (decide (i < M.length)), M.take i ++ M.drop (i + 1))
  | .eraseRange i j, M => (.none, if i ≤ j then M.take i ++ M.drop j else M)
  | .clear, _ => (.none, [])
  | .find k, M => (.item (M.find? (fun x => same lt x.1 k)), M)
  | .lower k, M => (.item (M.find? (fun x => !lt x.1 k)), M)
  | .upper k, M => (.item (M.find? (fun x => lt k x.1)), M)
  | .at k, M => (.value ((M.find? (fun x => !lt x.1 k)).map (fun x => x.2)), M)
  | .count k, M => (.num (if has lt k M then 1 else 0), M)
  | .size, M => (.num M.length, M)
  | .items, M => (.items M, M)
  | .itemsBack, M => (.items M.reverse, M)

/-- a history -/
def specAll (lt : K → K → Bool) (d : V) : List (Op K V) → List (K × V) → List (Out K V) × List (K × V)
  | [], M => ([], M)
  | o :: ops, M => ((spec lt d o M).1 :: (specAll lt d ops (spec lt d o M).2).1, (specAll lt d ops (spec lt d o M).2).2)

end Verif.MapSpec
