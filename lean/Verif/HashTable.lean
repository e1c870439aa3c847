import Mathlib.Data.Nat.Notation
import Verif.Search

/-!
# `mystl::hashtable`, the base of `unordered_map`, `unordered_set`, `unordered_multimap`, `unordered_multiset` — /repo/mylib/mystl/hashtable.h, unordered_map.h, unordered_set.h

A bucket is the chain of its nodes, in the order of the `next` pointers; a node has an address (`id`) and a value; a null pointer is `none`.
`Mem` keeps the addresses that `create_node` handed out and `destroy_node` has not taken back, so nodes that are lost (reachable from no table) can be seen.
`none` as a result is undefined behaviour of the C++ program: division by a bucket count of zero, a bucket index outside the vector, following a null or dangling pointer.
The comparisons in `float` only decide when the table is rebuilt; they are kept abstract (`Cfg.over`, `Cfg.sparse`, `Cfg.wanted`), so that every theorem holds whatever they answer.
The underlying vector of buckets is the sequence of its elements (its own model is `Verif/Vector.lean`, property C44). Exceptions (allocation failure, a throwing copy) are not modelled.
-/

namespace Verif.Hash

open Verif.Search

/-- the parameters of the template and the comparisons in `float` -/
structure Cfg (K V F : Type) where
  /-- `value_traits::get_key` — hashtable.h:37-98 -/
  key : V → K
  /-- `equal_` — hashtable.h:516 -/
  eq : K → K → Bool
  /-- `hash_`, a 64-bit number — hashtable.h:515 -/
  hash : K → ℕ
  /-- `(float)a > (float)bucket_size_ * max_load_factor()` — hashtable.h:850, 872, 1387 -/
  over : ℕ → ℕ → F → Bool
  /-- `(float)size_ / (float)n < max_load_factor() - 0.25f && (float)n < (float)bucket_size_ * 0.75` — hashtable.h:1099-1100 -/
  sparse : ℕ → ℕ → ℕ → F → Bool
  /-- `static_cast<size_type>((float)count / max_load_factor() + 0.5f)` — hashtable.h:764 -/
  wanted : ℕ → F → ℕ
  /-- `1.0f`, the first maximal load factor — hashtable.h:559 -/
  one : F
  /-- `pair(key, T{})`, the element `operator[]` creates — unordered_map.h:209-222 -/
  fresh : K → V
  /-- `it->second = value.second`: an assignment through the reference `operator[]` gives back — unordered_map.h:209-222 -/
  upd : V → V → V

/-- `hashtable_node` — hashtable.h:20-35 -/
structure Node (V : Type) where
  id : ℕ
  val : V

/-- the members of a `hashtable` — hashtable.h:511-516 (`hash_` and `equal_` are in `Cfg`) -/
structure Table (V F : Type) where
  buckets : List (List (Node V))
  bsize : ℕ
  size : ℕ
  mlf : F

/-- the node allocator: the next address, and the addresses in use -/
structure Mem where
  next : ℕ
  live : List ℕ

/-- `create_node` — hashtable.h:1322-1341 -/
def Mem.create {V : Type} (m : Mem) (v : V) : Node V × Mem := (⟨m.next, v⟩, ⟨m.next + 1, m.next :: m.live⟩)

/-- `destroy_node` — hashtable.h:1343-1351; freeing twice is undefined -/
def Mem.destroy (m : Mem) (p : ℕ) : Option Mem := if p ∈ m.live then some ⟨m.next, m.live.erase p⟩ else none

/-- `destroy_node` for each node of a chain, in order -/
def Mem.destroyAll {V : Type} (m : Mem) : List (Node V) → Option Mem
  | [] => some m
  | x :: r => do (← m.destroy x.id).destroyAll r

/-- `ht_prime_list`, 64-bit systems — hashtable.h:419-441 -/
def primeList : List ℕ :=
  [101, 173, 263, 397, 599, 907, 1361, 2053, 3083, 4637, 6959, 10453, 15683, 23531, 35311, 52967, 79451, 119179, 178781, 268189, 402299, 603457,
  905189, 1357787, 2036687, 3055043, 4582577, 6873871, 10310819, 15466229, 23199347, 34799021, 52198537, 78297827, 117446801, 176170229, 264255353,
  396383041, 594574583, 891861923, 1337792887, 2006689337, 3010034021, 4515051137, 6772576709, 10158865069, 15238297621, 22857446471, 34286169707,
  51429254599, 77143881917, 115715822899, 173573734363, 260360601547, 390540902329, 585811353559, 878717030339, 1318075545511, 1977113318311,
  2965669977497, 4448504966249, 6672757449409, 10009136174239, 15013704261371, 22520556392057, 33780834588157, 50671251882247, 76006877823377,
  114010316735089, 171015475102649, 256523212653977, 384784818980971, 577177228471507, 865765842707309, 1298648764060979, 1947973146091477,
  2921959719137273, 4382939578705967, 6574409368058969, 9861614052088471, 14792421078132871, 22188631617199337, 33282947425799017, 49924421138698549,
  74886631708047827, 112329947562071807, 168494921343107851, 252742382014661767, 379113573021992729, 568670359532989111, 853005539299483657,
  1279508308949225477, 1919262463423838231, 2878893695135757317, 4318340542703636011, 6477510814055453699, 9716266221083181299, 14574399331624771603,
  18446744073709551557]

/-- `ht_next_prime` — hashtable.h:462-468 -/
def nextPrime (n : ℕ) : Option ℕ := do
  let pos ← lowerBound (fun a b => decide (a < b)) primeList 0 primeList.length n
  if pos = primeList.length then primeList[primeList.length - 1]? else primeList[pos]?

variable {K V F : Type} (c : Cfg K V F)

/-- `hashtable(bucket_count, …)` and `init` — hashtable.h:556-562, 1267-1284 -/
def init (n : ℕ) : Option (Table V F) := do
  let b ← nextPrime n
  let bs := List.replicate b []
  pure ⟨bs, bs.length, 0, c.one⟩

/-- `hash(key, n)` — hashtable.h:1361-1367 -/
def hashIn (k : K) (n : ℕ) : Option ℕ := if n = 0 then none else some (c.hash k % n)

/-- the loop that puts a node behind the first one with an equal key — hashtable.h:911-920, 1507-1516; `none`: there is none -/
def behind (x : Node V) : List (Node V) → Option (List (Node V))
  | [] => none
  | y :: r => if c.eq (c.key y.val) (c.key x.val) then some (y :: x :: r) else (behind x r).map (y :: ·)

/-- one node into its bucket: behind the first one with an equal key, else at the head — hashtable.h:1501-1521 -/
def place (bs : List (List (Node V))) (n : ℕ) (x : Node V) : Option (List (List (Node V))) := do
  let i ← hashIn c (c.key x.val) n
  let f ← bs[i]?
  match behind c x f with
  | some f' => pure (bs.set i f')
  | none => pure (bs.set i (x :: f))

/-- the loops of `replace_bucket`: a copy of every node, in order, into the new buckets — hashtable.h:1494-1524 -/
def placeAll (n : ℕ) : List (Node V) → List (List (Node V)) → Mem → Option (List (List (Node V)) × Mem)
  | [], bs, m => some (bs, m)
  | y :: r, bs, m => do
    let x := m.create y.val
    let bs' ← place c bs n x.1
    placeAll n r bs' x.2

/-- `replace_bucket` — hashtable.h:1486-1524: the old nodes are not destroyed -/
def replaceBucket (t : Table V F) (m : Mem) (count : ℕ) : Option (Table V F × Mem) := do
  let bs := List.replicate count []
  let r ← (if t.size ≠ 0 then placeAll c count (t.buckets.take t.bsize).flatten bs m else some (bs, m))
  pure ({ t with buckets := r.1, bsize := r.1.length }, r.2)

/-- `rehash` — hashtable.h:1086-1105 -/
def rehash (t : Table V F) (m : Mem) (count : ℕ) : Option (Table V F × Mem) := do
  let n ← nextPrime count
  if n > t.bsize then replaceBucket c t m n
  else if c.sparse t.size n t.bsize t.mlf then replaceBucket c t m n
  else pure (t, m)

/-- `reserve` — hashtable.h:763-764 -/
def reserve (t : Table V F) (m : Mem) (count : ℕ) : Option (Table V F × Mem) := rehash c t m (c.wanted count t.mlf)

/-- `rehash_if_need` — hashtable.h:1382-1389 -/
def rehashIfNeed (t : Table V F) (m : Mem) (n : ℕ) : Option (Table V F × Mem) :=
  if c.over (t.size + n) t.bsize t.mlf then rehash c t m (t.size + n) else some (t, m)

/-- the search of a chain for a key — hashtable.h:891-895, 1113-1114, 1480-1484: the first node with an equal key -/
def look (k : K) : List (Node V) → Option (Node V)
  | [] => none
  | y :: r => if c.eq (c.key y.val) k then some y else look k r

/-- `insert_unique_noresize` — hashtable.h:881-902: the node of the element with that key, and whether it is new -/
def insertUniqueNoresize (t : Table V F) (m : Mem) (v : V) : Option (Table V F × Mem × ℕ × Bool) := do
  let n ← hashIn c (c.key v) t.bsize
  let first ← t.buckets[n]?
  match look c (c.key v) first with
  | some y => pure (t, m, y.id, false)
  | none =>
    let x := m.create v
    pure ({ t with buckets := t.buckets.set n (x.1 :: first), size := t.size + 1 }, x.2, x.1.id, true)

/-- `insert_multi_noresize` — hashtable.h:904-927 -/
def insertMultiNoresize (t : Table V F) (m : Mem) (v : V) : Option (Table V F × Mem × ℕ) := do
  let x := m.create v
  let bs ← place c t.buckets t.bsize x.1
  pure ({ t with buckets := bs, size := t.size + 1 }, x.2, x.1.id)

/-- `insert_node_unique` — hashtable.h:1460-1484 -/
def insertNodeUnique (t : Table V F) (x : Node V) : Option (Table V F × ℕ × Bool) := do
  let n ← hashIn c (c.key x.val) t.bsize
  match ← t.buckets[n]? with
  | [] => pure ({ t with buckets := t.buckets.set n [x], size := t.size + 1 }, x.id, true)
  | y :: r =>
    match look c (c.key x.val) (y :: r) with
    | some z => pure (t, z.id, false)
    | none => pure ({ t with buckets := t.buckets.set n (x :: y :: r), size := t.size + 1 }, x.id, true)

/-- `insert_node_multi` — hashtable.h:1430-1457 -/
def insertNodeMulti (t : Table V F) (x : Node V) : Option (Table V F × ℕ) := do
  let n ← hashIn c (c.key x.val) t.bsize
  match ← t.buckets[n]? with
  | [] => pure ({ t with buckets := t.buckets.set n [x], size := t.size + 1 }, x.id)
  | y :: r =>
    match behind c x (y :: r) with
    | some f => pure ({ t with buckets := t.buckets.set n f, size := t.size + 1 }, x.id)
    | none => pure ({ t with buckets := t.buckets.set n (x :: y :: r), size := t.size + 1 }, x.id)

/-- `emplace_unique`, also `insert(value&&)` — hashtable.h:861-879, 665-666: a node that is not inserted is not destroyed -/
def emplaceUnique (t : Table V F) (m : Mem) (v : V) : Option (Table V F × Mem × ℕ × Bool) := do
  let x := m.create v
  let s ← rehashIfNeed c t x.2 1
  let r ← insertNodeUnique c s.1 x.1
  pure (r.1, s.2, r.2)

/-- `emplace_multi` — hashtable.h:839-857 -/
def emplaceMulti (t : Table V F) (m : Mem) (v : V) : Option (Table V F × Mem × ℕ) := do
  let x := m.create v
  let s ← rehashIfNeed c t x.2 1
  let r ← insertNodeMulti c s.1 x.1
  pure (r.1, s.2, r.2)

/-- `insert_unique(const value_type&)` — hashtable.h:660-664 -/
def insertUnique (t : Table V F) (m : Mem) (v : V) : Option (Table V F × Mem × ℕ × Bool) := do
  let s ← rehashIfNeed c t m 1
  insertUniqueNoresize c s.1 s.2 v

/-- `insert_multi(const value_type&)` — hashtable.h:651-655 -/
def insertMulti (t : Table V F) (m : Mem) (v : V) : Option (Table V F × Mem × ℕ) := do
  let s ← rehashIfNeed c t m 1
  insertMultiNoresize c s.1 s.2 v

/-- the loop over a range of elements — hashtable.h:1414-1427, unordered_map.h:76-77, 86-87 -/
def insertUniqueEach : List V → Table V F → Mem → Option (Table V F × Mem)
  | [], t, m => some (t, m)
  | v :: r, t, m => do
    let s ← insertUniqueNoresize c t m v
    insertUniqueEach r s.1 s.2.1

/-- the loop over a range of elements — hashtable.h:1391-1409 -/
def insertMultiEach : List V → Table V F → Mem → Option (Table V F × Mem)
  | [], t, m => some (t, m)
  | v :: r, t, m => do
    let s ← insertMultiNoresize c t m v
    insertMultiEach r s.1 s.2.1

/-- `insert_unique(first, last)` — hashtable.h:686-688, 1411-1427 -/
def insertUniqueRange (t : Table V F) (m : Mem) (l : List V) : Option (Table V F × Mem) := do
  let s ← rehashIfNeed c t m l.length
  insertUniqueEach c l s.1 s.2

/-- `insert_multi(first, last)` — hashtable.h:682-684, 1391-1409 -/
def insertMultiRange (t : Table V F) (m : Mem) (l : List V) : Option (Table V F × Mem) := do
  let s ← rehashIfNeed c t m l.length
  insertMultiEach c l s.1 s.2

/-- the constructor of `unordered_map` and `unordered_set` from a range or a list — unordered_map.h:69-88, unordered_set.h:69-88 -/
def ofUnique (m : Mem) (count : ℕ) (l : List V) : Option (Table V F × Mem) := do
  let t ← init c (max count l.length)
  insertUniqueEach c l t m

/-- the constructor of `unordered_multimap` and `unordered_multiset` from a range or a list — unordered_map.h:354-374, unordered_set.h:324-344 -/
def ofMulti (m : Mem) (count : ℕ) (l : List V) : Option (Table V F × Mem) := do
  let t ← init c (max count l.length)
  insertMultiEach c l t m

/-- `find` — hashtable.h:1106-1127 -/
def find (t : Table V F) (k : K) : Option (Option (Node V)) := do
  let n ← hashIn c k t.bsize
  let f ← t.buckets[n]?
  pure (look c k f)

/-- the loop of `count` -/
def tally (k : K) : List (Node V) → ℕ → ℕ
  | [], r => r
  | y :: l, r => tally k l (if c.eq (c.key y.val) k then r + 1 else r)

/-- `count` — hashtable.h:1129-1143 -/
def count (t : Table V F) (k : K) : Option ℕ := do
  let n ← hashIn c k t.bsize
  let f ← t.buckets[n]?
  pure (tally c k f 0)

/-- `bucket_size(n)` — hashtable.h:1072-1084 -/
def bucketSize (t : Table V F) (n : ℕ) : Option ℕ := do
  let f ← t.buckets[n]?
  pure f.length

/-- the first node of the first bucket from `i` on that is not empty — hashtable.h:535-543, 208-211, 1157-1161 -/
def scan (t : Table V F) (i : ℕ) : Option ℕ := (((t.buckets.take t.bsize).drop i).findSome? List.head?).map Node.id

/-- `begin()` — hashtable.h:535-543, 600-603 -/
def start (t : Table V F) : Option ℕ := scan t 0

/-- the part of a chain that begins at an address -/
def suffixFrom (p : ℕ) : List (Node V) → Option (List (Node V))
  | [] => none
  | y :: r => if y.id = p then some (y :: r) else suffixFrom p r

/-- what a node pointer points to, and the rest of its chain; an address in no chain dangles -/
def deref (t : Table V F) (p : ℕ) : Option (Node V × List (Node V)) :=
  match t.buckets.findSome? (suffixFrom p) with
  | some (y :: r) => some (y, r)
  | _ => none

/-- `operator++` of the iterators — hashtable.h:200-213, 277-292; the end cannot be advanced -/
def incr (t : Table V F) (p : Option ℕ) : Option (Option ℕ) := do
  let q ← p
  let d ← deref t q
  match d.2 with
  | z :: _ => pure (some z.id)
  | [] => do
    let i ← hashIn c (c.key d.1.val) t.bsize
    pure (scan t (i + 1))

/-- `for (it = first; it != last; ++it)` over the elements; `fuel` bounds the number of steps -/
def walk (t : Table V F) (last : Option ℕ) : ℕ → Option ℕ → Option (List V)
  | 0, _ => none
  | fuel + 1, p =>
    if p = last then some []
    else do
      let q ← p
      let d ← deref t q
      let l ← walk t last fuel (← incr c t p)
      pure (d.1.val :: l)

/-- a full iteration from `begin()` to `end()` — hashtable.h:600-607 -/
def elements (t : Table V F) : Option (List V) := walk c t none (t.buckets.flatten.length + 1) (start t)

/-- `erase(position)` — hashtable.h:929-965 -/
def erasePos (t : Table V F) (m : Mem) (p : Option ℕ) : Option (Table V F × Mem) :=
  match p with
  | none => some (t, m)
  | some p => do
    let d ← deref t p
    let n ← hashIn c (c.key d.1.val) t.bsize
    let f ← t.buckets[n]?
    let y ← f.head?
    if y.id = p then do
      let m' ← m.destroy p
      pure ({ t with buckets := t.buckets.set n f.tail, size := t.size - 1 }, m')
    else if f.tail.any (fun z => z.id == p) then do
      let m' ← m.destroy p
      pure ({ t with buckets := t.buckets.set n (f.eraseP (fun z => z.id == p)), size := t.size - 1 }, m')
    else pure (t, m)

/-- a chain cut at a pointer: what is before it and what it begins; walking past the end of the chain is undefined -/
def cutAt : List (Node V) → Option ℕ → Option (List (Node V) × List (Node V))
  | [], none => some ([], [])
  | [], some _ => none
  | y :: r, p => if p = some y.id then some ([], y :: r) else (cutAt r p).map (fun q => (y :: q.1, q.2))

/-- `erase_bucket(n, first, last)` — hashtable.h:1526-1549, and with `first` the head of the bucket `erase_bucket(n, last)` — hashtable.h:1551-1565 -/
def eraseBucket (t : Table V F) (m : Mem) (n : ℕ) (first last : Option ℕ) : Option (Table V F × Mem) := do
  let f ← t.buckets[n]?
  let a ← cutAt f first
  let b ← cutAt a.2 last
  let m' ← m.destroyAll b.1
  pure ({ t with buckets := t.buckets.set n (a.1 ++ b.2), size := t.size - b.1.length }, m')

/-- the loop over the buckets between — hashtable.h:987-991 -/
def eraseBetween (last : ℕ) : ℕ → ℕ → Table V F → Mem → Option (Table V F × Mem)
  | 0, _, t, m => some (t, m)
  | fuel + 1, n, t, m =>
    if n < last then do
      let f ← t.buckets[n]?
      let s ← eraseBucket t m n (f.head?.map Node.id) none
      eraseBetween last fuel (n + 1) s.1 s.2
    else some (t, m)

/-- the bucket of a pointer, or the number of buckets for the end — hashtable.h:974-979 -/
def bucketOf (t : Table V F) (p : Option ℕ) : Option ℕ :=
  match p with
  | none => some t.bsize
  | some q => do
    let d ← deref t q
    hashIn c (c.key d.1.val) t.bsize

/-- `erase(first, last)` — hashtable.h:967-997 -/
def eraseRange (t : Table V F) (m : Mem) (first last : Option ℕ) : Option (Table V F × Mem) :=
  if first = last then some (t, m)
  else do
    let fb ← bucketOf c t first
    let lb ← bucketOf c t last
    if fb = lb then eraseBucket t m fb first last
    else do
      let s ← eraseBucket t m fb first none
      let s ← eraseBetween lb (lb - fb) (fb + 1) s.1 s.2
      if lb ≠ s.1.bsize then do
        let f ← s.1.buckets[lb]?
        eraseBucket s.1 s.2 lb (f.head?.map Node.id) last
      else pure s

/-- `erase_unique(key)` — hashtable.h:1013-1048: how many nodes went -/
def eraseUnique (t : Table V F) (m : Mem) (k : K) : Option (Table V F × Mem × ℕ) := do
  let n ← hashIn c k t.bsize
  let f ← t.buckets[n]?
  match look c k f with
  | some y => do
    let m' ← m.destroy y.id
    pure ({ t with buckets := t.buckets.set n (f.eraseP (fun z => c.eq (c.key z.val) k)), size := t.size - 1 }, m', 1)
  | none => pure (t, m, 0)

/-- the inner loop of `equal_range_multi`: the first node with a key that is not equal — hashtable.h:1153-1156 -/
def pastEqual (k : K) : List (Node V) → Option (Node V)
  | [] => none
  | y :: r => if c.eq (c.key y.val) k then pastEqual k r else some y

/-- the loop of `equal_range_multi` and `equal_range_unique` over a chain: the nodes from the first with an equal key on -/
def fromEqual (k : K) : List (Node V) → Option (Node V × List (Node V))
  | [] => none
  | y :: r => if c.eq (c.key y.val) k then some (y, r) else fromEqual k r

/-- `equal_range_multi` — hashtable.h:1145-1198 -/
def equalRangeMulti (t : Table V F) (k : K) : Option (Option ℕ × Option ℕ) := do
  let n ← hashIn c k t.bsize
  let f ← t.buckets[n]?
  match fromEqual c k f with
  | none => pure (none, none)
  | some (y, r) =>
    match pastEqual c k r with
    | some z => pure (some y.id, some z.id)
    | none => pure (some y.id, scan t (n + 1))

/-- `equal_range_unique` — hashtable.h:1199-1246 -/
def equalRangeUnique (t : Table V F) (k : K) : Option (Option ℕ × Option ℕ) := do
  let n ← hashIn c k t.bsize
  let f ← t.buckets[n]?
  match fromEqual c k f with
  | none => pure (none, none)
  | some (y, r) =>
    match r with
    | z :: _ => pure (some y.id, some z.id)
    | [] => pure (some y.id, scan t (n + 1))

/-- `erase_multi(key)` — hashtable.h:999-1011: the distance is taken after the nodes are gone -/
def eraseMulti (t : Table V F) (m : Mem) (k : K) : Option (Table V F × Mem × ℕ) := do
  let p ← equalRangeMulti c t k
  if p.1 ≠ none then do
    let s ← eraseRange c t m p.1 p.2
    let l ← walk c s.1 p.2 (t.buckets.flatten.length + 1) p.1
    pure (s.1, s.2, l.length)
  else pure (t, m, 0)

/-- `clear` — hashtable.h:1050-1070 -/
def clear (t : Table V F) (m : Mem) : Option (Table V F × Mem) :=
  if t.size ≠ 0 then do
    let m' ← m.destroyAll (t.buckets.take t.bsize).flatten
    pure ({ t with buckets := (t.buckets.take t.bsize).map (fun _ => []) ++ t.buckets.drop t.bsize, size := 0 }, m')
  else some (t, m)

/-- the copy of a chain — hashtable.h:1298-1310 -/
def copyChain : List (Node V) → Mem → List (Node V) × Mem
  | [], m => ([], m)
  | y :: r, m =>
    let x := m.create y.val
    let s := copyChain r x.2
    (x.1 :: s.1, s.2)

/-- the copies of all chains — hashtable.h:1296-1311 -/
def copyChains : List (List (Node V)) → Mem → List (List (Node V)) × Mem
  | [], m => ([], m)
  | f :: r, m =>
    let s := copyChain f m
    let u := copyChains r s.2
    (s.1 :: u.1, u.2)

/-- the copy constructor and `copy_init` — hashtable.h:576-580, 1286-1320 -/
def copyOf (t : Table V F) (m : Mem) : Table V F × Mem :=
  let s := copyChains (t.buckets.take t.bsize) m
  (⟨s.1, t.bsize, t.size, t.mlf⟩, s.2)

/-- the copy assignment: the old contents are destroyed with the temporary — hashtable.h:813-825, 597 -/
def assign (t : Table V F) (m : Mem) (rhs : Table V F) : Option (Table V F × Mem) := do
  let s := copyOf rhs m
  let u ← clear t s.2
  pure (s.1, u.2)

/-- the move constructor: the new table and what is left of the old one — hashtable.h:581-592 (`zero` is `0.0f`) -/
def moveFrom (t : Table V F) (zero : F) : Table V F × Table V F := (t, ⟨[], 0, 0, zero⟩)

/-- `at(key)` — unordered_map.h:195-206; `none` inside is the thrown `out_of_range` -/
def atKey (t : Table V F) (k : K) : Option (Option V) := do
  let r ← find c t k
  pure (r.map Node.val)

/-- an assignment to the value of a node through a pointer -/
def setVal (t : Table V F) (p : ℕ) (g : V → V) : Table V F :=
  { t with buckets := t.buckets.map (fun f => f.map (fun y => if y.id = p then ⟨y.id, g y.val⟩ else y)) }

/-- `table[key] = value` through `operator[]` — unordered_map.h:208-222 -/
def subscript (t : Table V F) (m : Mem) (v : V) : Option (Table V F × Mem) := do
  match ← find c t (c.key v) with
  | some y => pure (setVal t y.id (fun o => c.upd o v), m)
  | none => do
    let s ← emplaceUnique c t m (c.fresh (c.key v))
    pure (setVal s.1 s.2.2.1 (fun o => c.upd o v), s.2.1)

end Verif.Hash
