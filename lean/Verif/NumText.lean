import Verif.Itoa

/-!
# `to_str` for integers and `my_stoi`
-/

namespace Verif.NumText

open Verif.Itoa

/-- `strlen` of a buffer; reading past the buffer is undefined. -/
def strlen (buf : Buf) : Option ℕ :=
  if '\x00' ∈ buf then some (buf.takeWhile (· ≠ '\x00')).length else none

/-- `mystl::string(buf)`: the bytes before the first NUL. -/
def cstr (buf : Buf) : Option Str := (strlen buf).map (fun n => buf.take n)

/-- the padding half of `to_str` — /repo/mylib/mystl/my_string.h:212-221.  `length > s_len` compares in `size_t`, so a
negative `length` is a huge number; a store outside `fill[64]`, or a `fill` without terminator, is undefined. -/
def padTo (str : Buf) (length : ℤ) (rightAlign : Bool) : Option Str := do
  let sLen ← strlen str
  let lenU := (length % 2^64).toNat
  let fill ← (
    if lenU > sLen then
      let len := lenU - sLen
      if len ≤ 64 then some (List.replicate len ' ' ++ List.replicate (64 - len) '\x00') else none
    else some (List.replicate 64 '\x00'))
  let f ← cstr fill
  let s ← cstr str
  pure (if rightAlign then f ++ s else s ++ f)

/-- `to_str(value, precision, length, right_align)` for an integer type of `w` bits —
/repo/mylib/mystl/my_string.h:200-222 (the precision is not used for integers). -/
def toStrInt (w : ℕ) (value : ℤ) (length : ℤ) (rightAlign : Bool) : Option Str := do
  let (str, _) ← toText w value (List.replicate 32 '\x00') 0
  padTo str length rightAlign

/-- C locale `isspace` -/
def isSpace (c : Char) : Bool := c = ' ' ∨ c = '\t' ∨ c = '\n' ∨ c = '\x0b' ∨ c = '\x0c' ∨ c = '\r'

/-- result of `strtol(s, &end, 10)`: value, `end - s`, and whether `errno` was set to `ERANGE` -/
structure Strtol where
  val : ℤ
  stop : ℕ
  erange : Bool

/-- optional sign: (negative?, characters consumed, rest) -/
def signSplit : Str → Bool × ℕ × Str
  | '-' :: t => (true, 1, t)
  | '+' :: t => (false, 1, t)
  | t => (false, 0, t)

/-- `strtol` from the digits on: `k` characters were consumed before `ds` -/
def strtolDigits (neg : Bool) (k : ℕ) (ds : Str) : Strtol :=
  if ds = [] then ⟨0, 0, false⟩
  else
    let v : ℤ := if neg then -(Nat.ofDigitChars 10 ds 0 : ℤ) else (Nat.ofDigitChars 10 ds 0 : ℤ)
    if v < -2^63 then ⟨-2^63, k + ds.length, true⟩
    else if v > 2^63 - 1 then ⟨2^63 - 1, k + ds.length, true⟩
    else ⟨v, k + ds.length, false⟩

/-- `strtol(s, &end, 10)` for a 64-bit `long`, by its C standard specification: blanks, optional sign, digits; without
digits nothing is consumed; a value outside `long` is clamped and sets `errno`. -/
def strtol (s : Str) : Strtol :=
  let r := signSplit (s.dropWhile isSpace)
  strtolDigits r.1 ((s.takeWhile isSpace).length + r.2.1) (r.2.2.takeWhile Char.isDigit)

/-- outcome of `my_stoi` -/
inductive StoiResult
  | ok (n : ℤ)
  | invalidArgument
  | outOfRange
  deriving DecidableEq

/-- conversion `long → int` (modular on two's complement machines) -/
def toI32 (v : ℤ) : ℤ := Int.bmod v (2^32)

/-- `my_stoi(str)` with base 10 — /repo/mylib/mystl/my_string.h:22-42.  `errno` is thread state: `true` means
`errno == ERANGE` on entry; the function never resets it.  Returns the outcome and the new `errno`. -/
def myStoi (str : Str) (errno : Bool) : StoiResult × Bool :=
  let r := strtol str
  let errno := errno || r.erange
  let answer := toI32 r.val
  if r.stop = 0 then (.invalidArgument, errno)
  else if errno then (.outOfRange, errno)
  else (.ok answer, errno)

end Verif.NumText
