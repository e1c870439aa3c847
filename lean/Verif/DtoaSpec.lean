import Verif.Text
import Mathlib.Data.Rat.Lemmas
import Mathlib.Algebra.Order.Field.Rat

/-! # What a fixed-point decimal text is (for C29) -/

namespace Verif.Dtoa

/-- the last `p` decimal digits of `m`, with leading zeros -/
def padDigits : ℕ → ℕ → Str
  | 0, _ => []
  | p + 1, m => padDigits p (m / 10) ++ [Nat.digitChar (m % 10)]

/-- the decimal text of `N / 10^p` with exactly `p` digits after the point -/
def fixedText (p N : ℕ) : Str := Nat.toDigits 10 (N / 10^p) ++ '.' :: padDigits p (N % 10^p)

example : fixedText 2 1905 = ['1', '9', '.', '0', '5'] := by decide +kernel
example : fixedText 2 7 = ['0', '.', '0', '7'] := by decide +kernel

/-- the number denoted by significant digits `ds` and decimal exponent `k` -/
def decValue (ds : Str) (k : ℤ) : ℚ := (Nat.ofDigitChars 10 ds 0 : ℚ) * (10 : ℚ) ^ k

/-- `N` is `x` rounded to an integer, halves upwards -/
def RoundsTo (x : ℚ) (N : ℕ) : Prop := (N : ℚ) - 1/2 ≤ x ∧ x < N + 1/2

end Verif.Dtoa
