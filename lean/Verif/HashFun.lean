import Mathlib.Data.Nat.Notation
import Mathlib.Data.Int.Notation
/-!
# The hash functions — /repo/mylib/mystl/functional.h:181-285

64-bit little-endian machine (`__SIZEOF_POINTER__ == 8`); `size_t` is `BitVec 64`.  A floating-point number is given by its bit pattern,
a natural number below 2^32 or 2^64; a `long double` (16 bytes, of which x86 uses 10) by its bytes.
-/
namespace Verif.HashFun

/-- `fnv_offset`, `fnv_prime` — functional.h:237-238 -/
def fnvOffset : BitVec 64 := 14695981039346656037#64
def fnvPrime : BitVec 64 := 1099511628211#64

/-- one turn of the loop — functional.h:246-247 -/
def fnvStep (r : BitVec 64) (b : BitVec 8) : BitVec 64 := (r ^^^ b.setWidth 64) * fnvPrime

/-- `bitwise_hash(first, count)` of the bytes — functional.h:234-250 -/
def bitwiseHash (bytes : List (BitVec 8)) : BitVec 64 := bytes.foldl fnvStep fnvOffset

/-- the `n` bytes of a number in memory, the lowest first -/
def bytesOf (n x : ℕ) : List (BitVec 8) := (List.range n).map fun i => BitVec.ofNat 8 (x / 256 ^ i)

/-- `val == 0.0f` for the patterns of +0 and -0 of a format of `n` bytes -/
def isZero (n x : ℕ) : Bool := x % 2 ^ (8 * n - 1) == 0

/-- `hash<float>` (`n` = 4) and `hash<double>` (`n` = 8) — functional.h:252-268 -/
def hashFloat (n x : ℕ) : BitVec 64 := if isZero n x then 0#64 else bitwiseHash (bytesOf n x)

/-- `hash<long double>` of a number that is not 0, with its 16 bytes — functional.h:270-277 -/
def hashLongDouble (bytes : List (BitVec 8)) : BitVec 64 := bitwiseHash bytes

/-- `static_cast<size_t>(val)` of integers, characters, `bool` and pointers — functional.h:187-227 -/
def hashInt (v : ℤ) : BitVec 64 := BitVec.ofInt 64 v

end Verif.HashFun
