import Verif.Fp

/-! # What the bits of a double mean (IEEE-754 binary64, positive finite numbers) — specification for C59 -/

namespace Verif.Grisu
open Verif.Fp

/-- the number with exponent field `biased` and fraction field `sig` -/
def dblValue (biased sig : ℕ) : ℚ :=
  if biased = 0 then sig * 2 ^ (-1074 : ℤ) else (2^52 + sig) * 2 ^ ((biased : ℤ) - 1075)

/-- the fields belong to a positive finite double -/
def PosFields (biased sig : ℕ) : Prop := biased < 2047 ∧ sig < 2^52 ∧ (biased ≠ 0 ∨ sig ≠ 0)

/-- the fields of the double `x > 0` -/
def fields (x : ℚ) : ℕ × ℕ :=
  let f := (x * pow2 (-(ulpExp x))).num.natAbs
  if f < 2^52 then (0, f) else ((ulpExp x + 1075).toNat, f - 2^52)

end Verif.Grisu
