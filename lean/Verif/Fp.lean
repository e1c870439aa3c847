import Mathlib.Data.Rat.Floor
import Mathlib.Algebra.Order.Field.Power
import Mathlib.Algebra.Order.Floor.Ring
import Mathlib.Algebra.Order.Field.Basic
import Mathlib.Algebra.Order.Ring.Abs
import Mathlib.Tactic.Linarith
import Mathlib.Tactic.NormNum
import Mathlib.Tactic.Ring
import Mathlib.Tactic.FieldSimp
import Mathlib.Tactic.Positivity

/-!
# IEEE-754 binary64 arithmetic, modelled on ℚ

`rnd` is round-to-nearest, ties-to-even, with a 53-bit significand and gradual
underflow (least exponent -1074).  The exponent is unbounded above: overflow to
infinity is not modelled, theorems carry range hypotheses instead.  The operations of the
C++ code are `rnd` of the exact rational result, as IEEE-754 prescribes.
This file models no particular file of /repo: it is the arithmetic every
`double` expression of /repo is evaluated in.
-/

namespace Verif.Fp

/-- `2^e`, computable by the kernel. -/
def pow2 (e : ℤ) : ℚ :=
  if 0 ≤ e then ((2 ^ e.toNat : ℕ) : ℚ) else 1 / ((2 ^ (-e).toNat : ℕ) : ℚ)

/-- exponent of a non-zero rational: the `e` with `2^e ≤ |q| < 2^(e+1)`. -/
def ilog (q : ℚ) : ℤ :=
  let a : ℤ := (Nat.log2 q.num.natAbs : ℤ) - (Nat.log2 q.den : ℤ)
  if pow2 a ≤ |q| then a else a - 1

/-- round to the nearest integer, ties to even. -/
def rne (q : ℚ) : ℤ :=
  let f := ⌊q⌋
  if q - f < 1 / 2 then f
  else if 1 / 2 < q - f then f + 1
  else if f % 2 = 0 then f else f + 1

/-- exponent of the unit in the last place used for `q`. -/
def ulpExp (q : ℚ) : ℤ := max (ilog q - 52) (-1074)

/-- round to binary64. -/
def rnd (q : ℚ) : ℚ :=
  if q = 0 then 0 else (rne (q * pow2 (-(ulpExp q))) : ℚ) * pow2 (ulpExp q)

/-- `q` is the value of a (finite) double, exponent unbounded above. -/
def IsDouble (q : ℚ) : Prop := rnd q = q

def fadd (a b : ℚ) : ℚ := rnd (a + b)
def fsub (a b : ℚ) : ℚ := rnd (a - b)
def fmul (a b : ℚ) : ℚ := rnd (a * b)
def fdiv (a b : ℚ) : ℚ := rnd (a / b)

infixl:65 " ⊞ " => fadd
infixl:65 " ⊟ " => fsub
infixl:70 " ⊠ " => fmul
infixl:70 " ⊘ " => fdiv

end Verif.Fp
