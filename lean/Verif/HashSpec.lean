import Verif.HashTable

/-!
# What a user expects of the hash containers

The reference is a plain list of elements: for `unordered_map` and `unordered_set` no two of them have equal keys; for the `multi` containers they may.
-/

namespace Verif.Hash

variable {K V F : Type}

/-- what the user supplies must fit together: equality of keys is an equivalence, equal keys have equal hash values; an assignment through `operator[]` leaves the key, and the element it creates has the key asked for -/
structure Lawful (c : Cfg K V F) : Prop where
  refl : ∀ a, c.eq a a = true
  symm : ∀ a b, c.eq a b = true → c.eq b a = true
  trans : ∀ a b d, c.eq a b = true → c.eq b d = true → c.eq a d = true
  hash : ∀ a b, c.eq a b = true → c.hash a = c.hash b
  fresh : ∀ k, c.key (c.fresh k) = k
  upd : ∀ o v, c.key (c.upd o v) = c.key o

/-- the element of `l` with key `k` -/
def lookRef (c : Cfg K V F) (l : List V) (k : K) : Option V := l.find? (fun v => c.eq (c.key v) k)

/-- is there an element with key `k`? -/
def hasKey (c : Cfg K V F) (l : List V) (k : K) : Bool := l.any (fun v => c.eq (c.key v) k)

/-- the elements whose key is not `k` -/
def without (c : Cfg K V F) (l : List V) (k : K) : List V := l.filter (fun v => !c.eq (c.key v) k)

/-- one more element, unless its key is there -/
def addRef (c : Cfg K V F) (l : List V) (v : V) : List V := if hasKey c l (c.key v) then l else v :: l

/-- `table[key] = value`: the element with that key gets the new value; if there is none, a fresh one does -/
def putRef (c : Cfg K V F) (l : List V) (v : V) : List V :=
  if hasKey c l (c.key v) then l.map (fun o => if c.eq (c.key o) (c.key v) then c.upd o v else o)
  else c.upd (c.fresh (c.key v)) v :: l

/-- no two elements have equal keys -/
def OneEach (c : Cfg K V F) (l : List V) : Prop := l.Pairwise (fun u v => c.eq (c.key u) (c.key v) = false)

/-- the operations on a first table `a` beside a second one `b` -/
inductive Op (K V F : Type) where
  | insert (v : V) | emplace (v : V) | insertRange (l : List V) | put (v : V)
  | erase (k : K) | eraseAt (k : K) | clear
  | find (k : K) | at (k : K) | count (k : K) | size | elements
  | rehash (n : ℕ) | reserve (n : ℕ) | maxLoad (f : F)
  | swap | copyOther

/-- what an operation answers -/
inductive Out (V : Type) where
  | none | flag (b : Bool) | num (n : ℕ) | value (v : Option V) | listing (l : List V)

/-- equal answers; listings are compared without their order -/
def Out.Same : Out V → Out V → Prop
  | .none, .none => True
  | .flag a, .flag b => a = b
  | .num a, .num b => a = b
  | .value a, .value b => a = b
  | .listing a, .listing b => a.Perm b
  | _, _ => False

/-- two tables and the memory -/
structure World (V F : Type) where
  a : Table V F
  b : Table V F
  m : Mem

/-- one operation of `unordered_map` / `unordered_set`; `insert` is `insert(const value_type&)`, `emplace` also `insert(value_type&&)`, `eraseAt k` is `erase(find(k))` -/
def stepUnique (c : Cfg K V F) (w : World V F) : Op K V F → Option (World V F × Out V)
  | .insert v => do let r ← insertUnique c w.a w.m v; pure ({ w with a := r.1, m := r.2.1 }, .flag r.2.2.2)
  | .emplace v => do let r ← emplaceUnique c w.a w.m v; pure ({ w with a := r.1, m := r.2.1 }, .flag r.2.2.2)
  | .insertRange l => do let r ← insertUniqueRange c w.a w.m l; pure ({ w with a := r.1, m := r.2 }, .none)
  | .put v => do let r ← subscript c w.a w.m v; pure ({ w with a := r.1, m := r.2 }, .none)
  | .erase k => do let r ← eraseUnique c w.a w.m k; pure ({ w with a := r.1, m := r.2.1 }, .num r.2.2)
  | .eraseAt k => do
    let p ← find c w.a k
    let r ← erasePos c w.a w.m (p.map Node.id)
    pure ({ w with a := r.1, m := r.2 }, .none)
  | .clear => do let r ← clear w.a w.m; pure ({ w with a := r.1, m := r.2 }, .none)
  | .find k => do let p ← find c w.a k; pure (w, .value (p.map Node.val))
  | .at k => do let p ← atKey c w.a k; pure (w, .value p)
  | .count k => do let n ← count c w.a k; pure (w, .num n)
  | .size => pure (w, .num w.a.size)
  | .elements => do let l ← elements c w.a; pure (w, .listing l)
  | .rehash n => do let r ← rehash c w.a w.m n; pure ({ w with a := r.1, m := r.2 }, .none)
  | .reserve n => do let r ← reserve c w.a w.m n; pure ({ w with a := r.1, m := r.2 }, .none)
  | .maxLoad f => pure ({ w with a := { w.a with mlf := f } }, .none)
  | .swap => pure ({ w with a := w.b, b := w.a }, .none)
  | .copyOther => do let r ← assign w.a w.m w.b; pure ({ w with a := r.1, m := r.2 }, .none)

/-- the same on two plain lists -/
def refUnique (c : Cfg K V F) (r : List V × List V) : Op K V F → (List V × List V) × Out V
  | .insert v => ((addRef c r.1 v, r.2), .flag (!hasKey c r.1 (c.key v)))
  | .emplace v => ((addRef c r.1 v, r.2), .flag (!hasKey c r.1 (c.key v)))
  | .insertRange l => ((l.foldl (addRef c) r.1, r.2), .none)
  | .put v => ((putRef c r.1 v, r.2), .none)
  | .erase k => ((without c r.1 k, r.2), .num (if hasKey c r.1 k then 1 else 0))
  | .eraseAt k => ((without c r.1 k, r.2), .none)
  | .clear => (([], r.2), .none)
  | .find k => (r, .value (lookRef c r.1 k))
  | .at k => (r, .value (lookRef c r.1 k))
  | .count k => (r, .num (if hasKey c r.1 k then 1 else 0))
  | .size => (r, .num r.1.length)
  | .elements => (r, .listing r.1)
  | .rehash _ => (r, .none)
  | .reserve _ => (r, .none)
  | .maxLoad _ => (r, .none)
  | .swap => ((r.2, r.1), .none)
  | .copyOther => ((r.2, r.2), .none)

/-- a history of operations, with the answers -/
def runUnique (c : Cfg K V F) : List (Op K V F) → World V F → Option (World V F × List (Out V))
  | [], w => some (w, [])
  | o :: r, w => do
    let s ← stepUnique c w o
    let u ← runUnique c r s.1
    pure (u.1, s.2 :: u.2)

/-- the same history on two plain lists -/
def runRef (c : Cfg K V F) : List (Op K V F) → List V × List V → (List V × List V) × List (Out V)
  | [], r => (r, [])
  | o :: l, r =>
    let s := refUnique c r o
    let u := runRef c l s.1
    (u.1, s.2 :: u.2)

end Verif.Hash
