import Verif.CBase
import Verif.Text

/-!
# Integer to text: `jeaiii::to_text_from_integer` — /repo/mylib/mystl/itoa.h:85-249

The destination is a byte buffer (`List Char`, one element per byte) and an integer offset into it; a store outside the
buffer is the outcome `none`.  Simplifications: pointers are offsets (the code forms `b - 1` for `b` at the start of
the buffer before adding 2, formally undefined in C++ but harmless as an offset); storing through
`reinterpret_cast<pair*>` is a two-byte store.  `x >> k` is `x / 2^k` and `x & mask_k` is `x % 2^k`; unsigned products
wrap.
-/

namespace Verif.Itoa

open Verif.Fp

abbrev Buf := List Char

/-- `*p = c` -/
def put1 (buf : Buf) (p : ℤ) (c : Char) : Option Buf :=
  if 0 ≤ p ∧ p < buf.length then some (buf.set p.toNat c) else none

/-- two-byte store `*reinterpret_cast<pair*>(p) = {c, d}` -/
def put2 (buf : Buf) (p : ℤ) (c : Char × Char) : Option Buf := do
  let buf ← put1 buf p c.1
  put1 buf (p + 1) c.2

/-- `"0123456789"[k]` — itoa.h:37 -/
def dig (k : ℕ) : Char := ['0', '1', '2', '3', '4', '5', '6', '7', '8', '9'].getD k '\x00'

/-- table `digits.dd` — itoa.h:42-54: entry `k` is the pair constructed from the int `k` (line 37); reading outside the
100 entries is undefined. -/
def dd (k : ℕ) : Option (Char × Char) := if k < 100 then some (dig (k / 10), dig (k % 10)) else none

/-- table `digits.fd` — itoa.h:55-67: entries 0..9 are built from a `char` (line 36: second byte 0), the others from an
int. -/
def fd (k : ℕ) : Option (Char × Char) :=
  if k < 10 then some (dig k, '\x00') else dd k

/-- wrap-around of a 64-bit unsigned operation -/
def w64 (n : ℕ) : ℕ := n % 2^64

/-- the block for values below 10^4 — itoa.h:102-110, repeated at 168-176 and 229-234.  `W` is the width of the product
`u32(..) * n`: 32 bits when `n` is at most 32 bits wide, 64 when it is a `u64`. -/
def block4 (W : ℕ) (n : ℕ) (buf : Buf) (b : ℤ) : Option (Buf × ℤ) := do
  let f0 := 167773 * n % 2^W
  let buf ← put2 buf b (← fd (f0 / 2^24))
  let b := b - (if n < 1000 then 1 else 0)
  let f2 := w64 (f0 % 2^24 * 100)
  let buf ← put2 buf (b + 2) (← dd (f2 / 2^24))
  pure (buf, b + 4)

/-- the block for values below 10^6 — itoa.h:111-119, repeated at 178-187 -/
def block6 (n : ℕ) (buf : Buf) (b : ℤ) : Option (Buf × ℤ) := do
  let f0 := w64 (429497 * n)
  let buf ← put2 buf b (← fd (f0 / 2^32))
  let b := b - (if n < 100000 then 1 else 0)
  let f2 := w64 (f0 % 2^32 * 100)
  let buf ← put2 buf (b + 2) (← dd (f2 / 2^32))
  let f4 := w64 (f2 % 2^32 * 100)
  let buf ← put2 buf (b + 4) (← dd (f4 / 2^32))
  pure (buf, b + 6)

/-- the block for values below 10^8 — itoa.h:125-134, repeated at 190-200 -/
def block8 (n : ℕ) (buf : Buf) (b : ℤ) : Option (Buf × ℤ) := do
  let f0 := w64 (281474977 * n) / 2^16
  let buf ← put2 buf b (← fd (f0 / 2^32))
  let b := b - (if n < 10000000 then 1 else 0)
  let f2 := w64 (f0 % 2^32 * 100)
  let buf ← put2 buf (b + 2) (← dd (f2 / 2^32))
  let f4 := w64 (f2 % 2^32 * 100)
  let buf ← put2 buf (b + 4) (← dd (f4 / 2^32))
  let f6 := w64 (f4 % 2^32 * 100)
  let buf ← put2 buf (b + 6) (← dd (f6 / 2^32))
  pure (buf, b + 8)

/-- the block for values below 2^32 — itoa.h:136-147, repeated at 203-214 -/
def block10 (n : ℕ) (buf : Buf) (b : ℤ) : Option (Buf × ℤ) := do
  let f0 := w64 (1441151881 * n)
  let buf ← put2 buf b (← fd (f0 / 2^57))
  let b := b - (if n < 1000000000 then 1 else 0)
  let f2 := w64 (f0 % 2^57 * 100)
  let buf ← put2 buf (b + 2) (← dd (f2 / 2^57))
  let f4 := w64 (f2 % 2^57 * 100)
  let buf ← put2 buf (b + 4) (← dd (f4 / 2^57))
  let f6 := w64 (f4 % 2^57 * 100)
  let buf ← put2 buf (b + 6) (← dd (f6 / 2^57))
  let f8 := w64 (f6 % 2^57 * 100)
  let buf ← put2 buf (b + 8) (← dd (f8 / 2^57))
  pure (buf, b + 10)

/-- "do 8 digits" — itoa.h:226-235 and 238-246 -/
def pad8 (z : ℕ) (buf : Buf) (b : ℤ) : Option (Buf × ℤ) := do
  let f0 := w64 (w64 (281474977 * z) / 2^16 + 1)
  let buf ← put2 buf b (← dd (f0 / 2^32))
  let f2 := w64 (f0 % 2^32 * 100)
  let buf ← put2 buf (b + 2) (← dd (f2 / 2^32))
  let f4 := w64 (f2 % 2^32 * 100)
  let buf ← put2 buf (b + 4) (← dd (f4 / 2^32))
  let f6 := w64 (f4 % 2^32 * 100)
  let buf ← put2 buf (b + 6) (← dd (f6 / 2^32))
  pure (buf, b + 8)

/-- the unsigned part — itoa.h:94-248, for a value `n` of `w` bits.  Returns the buffer and the end offset. -/
def toTextU (w : ℕ) (n : ℕ) (buf : Buf) (b : ℤ) : Option (Buf × ℤ) := do
  if n < 100 then
    let buf ← put2 buf b (← fd n)
    pure (buf, if n < 10 then b + 1 else b + 2)
  else if n < 1000000 then
    if n < 10000 then block4 (if w ≤ 32 then 32 else 64) n buf b
    else block6 n buf b
  else if n < 2^32 then
    if n < 100000000 then block8 n buf b
    else block10 n buf b
  else
    let z := n % 100000000
    let u := n / 100000000
    let (buf, b) ← (
      if u < 100 then do
        let buf ← put2 buf b (← dd u)
        pure (buf, b + 2)
      else if u < 1000000 then
        if u < 10000 then block4 64 u buf b else block6 u buf b
      else if u < 100000000 then block8 u buf b
      else if u < 2^32 then block10 u buf b
      else do
        let y := u % 100000000
        let u := u / 100000000
        let (buf, b) ← (
          if u < 100 then do
            let buf ← put2 buf b (← dd u)
            pure (buf, b + 2)
          else block4 64 u buf b)
        pad8 y buf b)
    pad8 z buf b

/-- `to_text_from_integer(b, i)` for an integer type of `w` bits (8, 16, 32 or 64, signed or unsigned) — itoa.h:85-92:
a negative `i` writes '-' and continues with `U(0) - U(i)`, `U(i)` being `i` modulo `2^w`. -/
def toText (w : ℕ) (i : ℤ) (buf : Buf) (b : ℤ) : Option (Buf × ℤ) :=
  if i < 0 then do
    let buf ← put1 buf b '-'
    toTextU w ((0 - i % 2^w) % 2^w).toNat buf (b + 1)
  else toTextU w (i % 2^w).toNat buf b

-- The multipliers are written in the source as double expressions; their values:
-- u32(10 * (1 << 24) / 1e3 + 1), u64(10 * (1ull << 32) / 1e5 + 1), u64(10 * (1ull << 48) / 1e7 + 1),
-- u64(10 * (1ull << 57) / 1e9 + 1), u64((1ull << 48) / 1e6 + 1)
example : ⌊rnd (rnd (167772160 / 1000) + 1)⌋ = 167773 ∧ ⌊rnd (rnd (42949672960 / 100000) + 1)⌋ = 429497 ∧
    ⌊rnd (rnd (10 * 2^48 / 10^7) + 1)⌋ = 281474977 ∧ ⌊rnd (rnd (10 * 2^57 / 10^9) + 1)⌋ = 1441151881 ∧
    ⌊rnd (rnd (2^48 / 10^6) + 1)⌋ = 281474977 ∧ rnd (10 * 2^57) = 10 * 2^57 := by decide +kernel

end Verif.Itoa
