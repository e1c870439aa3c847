import Verif.CBase
import Verif.Text
import Verif.DtoaSpec

/-!
# Angle texts — /repo/mylib/tool.cpp:41-107

Arithmetic is binary64 (`Verif.Fp`).  `floor` of a double is exact; the conversions `int a = floor(d)` are `int2`.  `pow(10, ext)` is
modelled as the exact power (it is, for the exponents up to 22).  A negative zero or a NaN argument is not modelled.
-/

namespace Verif.AngleText

open Verif.Fp

/-- the double `M_PI` — math_patch.h:13 -/
def mpi : ℚ := 884279719003555 / 281474976710656

/-- the factors `180 / M_PI` and `12 / M_PI` — tool.cpp:51, 55, 98 -/
def k180 : ℚ := 180 ⊘ mpi
def k12 : ℚ := 12 ⊘ mpi

/-- the three (then four) numbers `a`, `b`, `c`, `d` before the carries — tool.cpp:56-64 -/
def fields (d : ℚ) (ext : ℕ) : Option (ℤ × ℤ × ℤ × ℤ) := do
  let a ← int2 d
  let d := (d ⊟ a) ⊠ 60
  let b ← int2 d
  let d := (d ⊟ b) ⊠ 60
  let c ← int2 d
  let Q : ℚ := 10 ^ ext
  let d := ⌊((d ⊟ c) ⊠ Q) ⊞ (1/2)⌋
  pure (a, b, c, d)

/-- the carries — tool.cpp:65-70 -/
def carry (ext : ℕ) : ℤ × ℤ × ℤ × ℤ → ℤ × ℤ × ℤ × ℤ := fun (a, b, c, d) =>
  let Q : ℤ := 10 ^ ext
  let (c, d) := if d ≥ Q then (c + 1, d - Q) else (c, d)
  let (b, c) := if c ≥ 60 then (b + 1, c - 60) else (b, c)
  let (a, b) := if b ≥ 60 then (a + 1, b - 60) else (a, b)
  (a, b, c, d)

/-- `rad2strE(d, flag, ext)` — tool.cpp:41-83 -/
def rad2strE (d : ℚ) (flag : Bool) (ext : ℕ) : Option Str := do
  let s : Str := if d < 0 then ['-'] else [' ']
  let d := if d < 0 then -d else d
  let (d, w1, w2, w3) := if flag then (d ⊠ k12, 'h', 'm', 's') else (d ⊠ k180, '°', '\'', '"')
  let f ← fields d ext
  let (a, b, c, d) := carry ext f
  let d ← i32 d
  let A ← lastK 3 ([' ', ' ', ' '] ++ decimal a)
  let B ← lastK 2 ('0' :: decimal b)
  let C ← lastK 2 ('0' :: decimal c)
  let s := s ++ A ++ [w1] ++ B ++ [w2] ++ C
  if ext ≠ 0 then do
    let D ← lastK ext (['0', '0', '0', '0', '0'] ++ decimal d)
    pure (s ++ '.' :: D ++ [w3])
  else pure s

/-- `rad2str2(d)` — tool.cpp:92-107 -/
def rad2str2 (d : ℚ) : Option Str := do
  let s : Str := if d < 0 then ['-'] else ['+']
  let d := if d < 0 then -d else d
  let d := d ⊠ k180
  let a ← int2 d
  let b ← int2 (((d ⊟ a) ⊠ 60) ⊞ (1/2))
  let (a, b) := if b ≥ 60 then (a + 1, b - 60) else (a, b)
  let A ← lastK 3 ([' ', ' ', ' '] ++ decimal a)
  let B ← lastK 2 ('0' :: decimal b)
  pure (s ++ A ++ ['°'] ++ B ++ ['\''])

/-! ## Specification (`Verif.Dtoa.padDigits k n` is `n` with `k` digits, leading zeros) -/

/-- `n` in a field of `k` characters, leading blanks -/
def blankK (k n : ℕ) : Str := List.replicate (k - (Nat.toDigits 10 n).length) ' ' ++ Nat.toDigits 10 n

example : rad2strE 1 false 2 = some [' ', ' ', '5', '7', '°', '1', '7', '\'', '4', '4', '.', '8', '1', '"'] := by decide +kernel

end Verif.AngleText
