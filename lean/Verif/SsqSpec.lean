import Verif.SsqData
import Mathlib.Data.Rat.Floor
import Mathlib.Algebra.Order.Floor.Ring

/-! # What the decompressed tables and the mean-motion era mean -/

namespace Verif.Ssq

/-- meaning of a letter of the compressed strings; digits stand for themselves -/
def letter (c : Char) : List Char :=
  match replacements.find? (fun r => r.1 == c) with
  | some r => r.2.toList
  | none => [c]

/-- day of the `n`-th mean new moon (term) of a row with first moment `b` and period `k`, as the almanac has it: rounded
to the nearest day; one historical day is moved -/
def meanDay (b k : ℚ) (n : ℤ) : ℤ :=
  let D := ⌊b + k * n + 1/2⌋
  if D = 1683460 then 1683461 else D

/-- a row of a table: first moment, period, first moment of the next row -/
def IsRow (t : List ℚ) (b k e : ℚ) : Prop := ∃ j, t[2 * j]? = some b ∧ t[2 * j + 1]? = some k ∧ t[2 * j + 2]? = some e

end Verif.Ssq
