import Verif.HashSpec

/-!
# What a user expects of `unordered_multimap` and `unordered_multiset`

The reference is a list of elements; keys may repeat.
-/

namespace Verif.Hash

variable {K V F : Type}

/-- the operations on a first table `a` beside a second one `b`; `eraseAt k` is `erase(find(k))`, `eraseEqual k` is `p = equal_range(k); erase(p.first, p.second)`,
`eraseAll` is `erase(begin(), end())` -/
inductive MOp (K V F : Type) where
  | insert (v : V) | emplace (v : V) | insertRange (l : List V)
  | eraseAt (k : K) | eraseEqual (k : K) | eraseAll | clear
  | find (k : K) | count (k : K) | equalRange (k : K) | size | elements
  | rehash (n : ℕ) | reserve (n : ℕ) | maxLoad (f : F)
  | swap | copyOther

/-- one operation of `unordered_multimap` / `unordered_multiset` — unordered_map.h:330-563, unordered_set.h:300-534 -/
def stepMulti (c : Cfg K V F) (w : World V F) : MOp K V F → Option (World V F × Out V)
  | .insert v => do let r ← insertMulti c w.a w.m v; pure ({ w with a := r.1, m := r.2.1 }, .none)
  | .emplace v => do let r ← emplaceMulti c w.a w.m v; pure ({ w with a := r.1, m := r.2.1 }, .none)
  | .insertRange l => do let r ← insertMultiRange c w.a w.m l; pure ({ w with a := r.1, m := r.2 }, .none)
  | .eraseAt k => do
    let p ← find c w.a k
    let r ← erasePos c w.a w.m (p.map Node.id)
    pure ({ w with a := r.1, m := r.2 }, .value (p.map Node.val))
  | .eraseEqual k => do
    let p ← equalRangeMulti c w.a k
    let r ← eraseRange c w.a w.m p.1 p.2
    pure ({ w with a := r.1, m := r.2 }, .none)
  | .eraseAll => do let r ← eraseRange c w.a w.m (start w.a) none; pure ({ w with a := r.1, m := r.2 }, .none)
  | .clear => do let r ← clear w.a w.m; pure ({ w with a := r.1, m := r.2 }, .none)
  | .find k => do let p ← find c w.a k; pure (w, .value (p.map Node.val))
  | .count k => do let n ← count c w.a k; pure (w, .num n)
  | .equalRange k => do
    let p ← equalRangeMulti c w.a k
    let l ← walk c w.a p.2 (w.a.buckets.flatten.length + 1) p.1
    pure (w, .listing l)
  | .size => pure (w, .num w.a.size)
  | .elements => do let l ← elements c w.a; pure (w, .listing l)
  | .rehash n => do let r ← rehash c w.a w.m n; pure ({ w with a := r.1, m := r.2 }, .none)
  | .reserve n => do let r ← reserve c w.a w.m n; pure ({ w with a := r.1, m := r.2 }, .none)
  | .maxLoad f => pure ({ w with a := { w.a with mlf := f } }, .none)
  | .swap => pure ({ w with a := w.b, b := w.a }, .none)
  | .copyOther => do let r ← assign w.a w.m w.b; pure ({ w with a := r.1, m := r.2 }, .none)

/-- the value found is one with that key; none only if there is none -/
def Found (c : Cfg K V F) (l : List V) (k : K) : Option V → Prop
  | none => ∀ v ∈ l, c.eq (c.key v) k = false
  | some v => v ∈ l ∧ c.eq (c.key v) k = true

/-- what an operation may answer, and what it leaves, when the tables hold the elements of `r` -/
def MRef (c : Cfg K V F) (r : List V × List V) (o : MOp K V F) (out : Out V) (r' : List V × List V) : Prop :=
  match o with
  | .insert v | .emplace v => out = .none ∧ r' = (v :: r.1, r.2)
  | .insertRange l => out = .none ∧ r' = (l ++ r.1, r.2)
  | .eraseAt k => ∃ x, out = .value x ∧ Found c r.1 k x ∧ r'.2 = r.2 ∧ match x with | none => r'.1 = r.1 | some v => r.1.Perm (v :: r'.1)
  | .eraseEqual k => out = .none ∧ r' = (without c r.1 k, r.2)
  | .eraseAll | .clear => out = .none ∧ r' = ([], r.2)
  | .find k => (∃ x, out = .value x ∧ Found c r.1 k x) ∧ r' = r
  | .count k => out = .num (r.1.countP (fun v => c.eq (c.key v) k)) ∧ r' = r
  | .equalRange k => (∃ l, out = .listing l ∧ l.Perm (r.1.filter (fun v => c.eq (c.key v) k))) ∧ r' = r
  | .size => out = .num r.1.length ∧ r' = r
  | .elements => (∃ l, out = .listing l ∧ l.Perm r.1) ∧ r' = r
  | .rehash _ | .reserve _ | .maxLoad _ => out = .none ∧ r' = r
  | .swap => out = .none ∧ r' = (r.2, r.1)
  | .copyOther => out = .none ∧ r' = (r.2, r.2)

/-- a history of operations, with the answers -/
def runMulti (c : Cfg K V F) : List (MOp K V F) → World V F → Option (World V F × List (Out V))
  | [], w => some (w, [])
  | o :: r, w => do
    let s ← stepMulti c w o
    let u ← runMulti c r s.1
    pure (u.1, s.2 :: u.2)

/-- the answers are possible ones for that history -/
inductive MRun (c : Cfg K V F) : List (MOp K V F) → List V × List V → List (Out V) → List V × List V → Prop
  | nil (r) : MRun c [] r [] r
  | cons {o ops r out r' outs r''} : MRef c r o out r' → MRun c ops r' outs r'' → MRun c (o :: ops) r (out :: outs) r''

end Verif.Hash
