import Verif.NumText

/-!
# Printing a decimal: `Prettify` and `PrettifyRoundUP` — /repo/mylib/mystl/dtoa.h:331-552

Buffers are byte lists (`Verif.Itoa.Buf`), pointers are offsets; a read or store outside the buffer is `none`.
The significant digits and the decimal exponent that `Grisu2` leaves at the start of the buffer are an input here
(`Verif/Grisu.lean` models `Grisu2` itself).
-/

namespace Verif.Dtoa

open Verif.Itoa Verif.NumText

/-- `*p` -/
def get1 (buf : Buf) (p : ℤ) : Option Char :=
  if 0 ≤ p then buf[p.toNat]? else none

/-- `memmove(dst, src, n)` inside one buffer -/
def memmove (buf : Buf) (dst src n : ℤ) : Option Buf :=
  if 0 ≤ dst ∧ 0 ≤ src ∧ 0 ≤ n ∧ dst + n ≤ buf.length ∧ src + n ≤ buf.length then
    some (buf.take dst.toNat ++ (buf.drop src.toNat).take n.toNat ++ buf.drop (dst.toNat + n.toNat))
  else none

/-- `n` times `*p++ = c` -/
def putN (buf : Buf) (p : ℤ) (c : Char) : ℕ → Option Buf
  | 0 => some buf
  | n + 1 => do
    let buf ← put1 buf p c
    putN buf (p + 1) c n

/-- the `roll:` loop — dtoa.h:406-414; the flag says that the loop ended in the shift branch.  `fuel` bounds the number of
rounds (a C loop; `none` if it were exceeded). -/
def roll (base : ℤ) : ℕ → Buf → ℤ → Option (Buf × Bool)
  | 0, _, _ => none
  | fuel + 1, buf, cursor => do
    let c ← get1 buf cursor
    if c = '9' then
      let buf ← put1 buf cursor '0'
      let cursor := cursor - 1
      if cursor > base then
        let c ← get1 buf cursor
        let cursor := if c = '.' then cursor - 1 else cursor
        roll base fuel buf cursor
      else pure (buf, true)
    else
      let buf ← put1 buf cursor (Char.ofNat (c.toNat + 1))
      pure (buf, false)

/-- `PrettifyRoundUP(base, end)` — dtoa.h:398-424 -/
def roundUp (buf : Buf) (base e : ℤ) : Option (Buf × ℤ) := do
  let c ← get1 buf e
  let (buf, e) ← (
    if c ≥ '5' then do
      let cursor := e - 1
      let c ← get1 buf cursor
      let cursor := if c = '.' then cursor - 1 else cursor
      let (buf, sh) ← roll base (buf.length + 1) buf cursor
      if sh then do
        let buf ← memmove buf (base + 1) base (e - base)
        let buf ← put1 buf base '1'
        pure (buf, e + 1)
      else pure (buf, e)
    else pure (buf, e))
  let buf ← put1 buf e '\x00'
  pure (buf, e)

/-- `WriteExponent(K, buffer)` — dtoa.h:309-329; `GetDigitsLut` entries are the two digits of the index.  For
`K / 100 ≥ 10` the character would not be a digit; doubles have `K ≤ 324`. -/
def writeExponent (buf : Buf) (p : ℤ) (K : ℤ) : Option (Buf × ℤ) := do
  let (buf, p, K) ← (if K < 0 then do pure ((← put1 buf p '-'), p + 1, -K) else pure (buf, p, K))
  if K ≥ 100 then do
    let buf ← put1 buf p (Char.ofNat (48 + (K / 100).toNat))
    let d ← dd (K % 100).toNat
    let buf ← put2 buf (p + 1) d
    pure (buf, p + 3)
  else if K ≥ 10 then do
    let buf ← put2 buf p (← dd K.toNat)
    pure (buf, p + 2)
  else do
    let buf ← put1 buf p (Char.ofNat (48 + K.toNat))
    pure (buf, p + 1)

/-- the exponent branches — dtoa.h:484-495 -/
def prettifyExp (buf : Buf) (base : ℤ) (length kk : ℤ) : Option (Buf × ℤ) := do
  if length = 1 then
    let buf ← put1 buf (base + 1) 'e'
    writeExponent buf (base + 2) (kk - 1)
  else
    let buf ← memmove buf (base + 2) (base + 1) (length - 1)
    let buf ← put1 buf (base + 1) '.'
    let buf ← put1 buf (base + length + 1) 'e'
    writeExponent buf (base + length + 2) (kk - 1)

/-- `Prettify(buffer, length, k, precision, rightpad)` with `rightpad = true` (the only value the project passes) —
dtoa.h:428-496.  Simplification: the `do … while (--precision)` loop at 438-440 runs `precision` times. -/
def prettify (buf : Buf) (base : ℤ) (length k precision : ℤ) : Option (Buf × ℤ) := do
  let kk := length + k
  if length ≤ kk ∧ kk ≤ 21 then
    let p := base + length
    let buf ← putN buf p '0' k.toNat
    let p := p + k
    let (buf, p) ← (
      if precision > 0 then do
        let buf ← put1 buf p '.'
        let buf ← putN buf (p + 1) '0' precision.toNat
        pure (buf, p + 1 + precision)
      else pure (buf, p))
    let buf ← put1 buf p '\x00'
    pure (buf, p)
  else if 0 < kk ∧ kk ≤ 21 then
    let length := length - kk
    let buf ← memmove buf (base + kk + 1) (base + kk) length
    let p := base + kk
    if precision > 0 then
      let buf ← put1 buf p '.'
      let p := p + 1
      if precision ≥ length then
        let p := p + length
        let buf ← putN buf p '0' (precision - length).toNat
        let p := p + (precision - length)
        let buf ← put1 buf p '\x00'
        pure (buf, p)
      else roundUp buf base (p + precision)
    else
      let buf ← put1 buf p '\x00'
      pure (buf, p)
  else if -6 < kk ∧ kk ≤ 0 then
    let offset := -kk
    let buf ← memmove buf (base + 2 + offset) base length
    let buf ← put1 buf base '0'
    let p := base + 1
    if precision > 0 then
      let buf ← put1 buf p '.'
      let p := p + 1
      let buf ← putN buf p '0' offset.toNat
      let p := p + offset + length
      let precision := precision - (offset + length)
      if precision > 0 then
        let buf ← putN buf p '0' precision.toNat
        let p := p + precision
        let buf ← put1 buf p '\x00'
        pure (buf, p)
      else roundUp buf base (p + precision)
    else
      let buf ← put1 buf p '\x00'
      pure (buf, p)
  else prettifyExp buf base length kk

/-- significant digits and decimal exponent left by `Grisu2` -/
structure Dec where
  ds : Str
  k : ℤ

/-- `dtoa_milo2(value, str, precision, true)` for `precision ≥ 0` on the zeroed 32-byte buffer of `to_str` — dtoa.h:527-552
with my_string.h:204-207.  `neg` is the sign bit, `digits = none` stands for the value zero. -/
def dtoa2 (neg : Bool) (digits : Option Dec) (precision : ℤ) : Option Buf := do
  let buf : Buf := List.replicate 32 '\x00'
  let (buf, base) ← (if neg then do pure ((← put1 buf 0 '-'), (1 : ℤ)) else pure (buf, 0))
  match digits with
  | none => do
    let buf ← put1 buf base '0'
    let (buf, p) ← (
      if precision > 0 then do
        let buf ← put1 buf (base + 1) '.'
        let buf ← putN buf (base + 2) '0' precision.toNat
        pure (buf, base + 1 + precision)
      else pure (buf, base))
    put1 buf (p + 1) '\x00'
  | some d => do
    let buf := buf.take base.toNat ++ d.ds ++ buf.drop (base.toNat + d.ds.length)
    let (buf, _) ← prettify buf base d.ds.length d.k precision
    pure buf

/-- `to_str(double, precision, length, right_align)` — my_string.h:200-222 -/
def toStrDec (neg : Bool) (digits : Option Dec) (precision length : ℤ) (rightAlign : Bool) : Option Str := do
  padTo (← dtoa2 neg digits precision) length rightAlign

/-- 19.96 with one decimal comes out as 110.0 -/
example : toStrDec false (some ⟨['1','9','9','6'], -2⟩) 1 0 false = some ['1','1','0','.','0'] := by decide +kernel
example : toStrDec true (some ⟨['9','9','9','6'], -3⟩) 2 8 true = some [' ',' ','-','1','0','.','0','0'] := by decide +kernel
example : toStrDec false (some ⟨['7'], -1⟩) 0 0 false = some ['0'] := by decide +kernel

end Verif.Dtoa
