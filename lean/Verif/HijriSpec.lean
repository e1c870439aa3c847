import Mathlib.Data.Int.Notation

/-! # Specification of the tabular Islamic calendar (independent of the model) -/

namespace Verif.Hijri

/-- leap years of the 30-year cycle -/
def hleap (y : ℤ) : Bool := [2, 5, 7, 10, 13, 16, 18, 21, 24, 26, 29].contains (y % 30)

/-- month lengths: 30 and 29 alternately, the twelfth month has 30 days in leap years -/
def hdays (y m : ℤ) : ℤ :=
  if m = 12 then (if hleap y then 30 else 29) else if m % 2 = 1 then 30 else 29

/-- existing Hijri dates -/
def HValid (h : ℤ × ℤ × ℤ) : Prop :=
  1 ≤ h.2.1 ∧ h.2.1 ≤ 12 ∧ 1 ≤ h.2.2 ∧ h.2.2 ≤ hdays h.1 h.2.1

/-- the next Hijri day -/
def hnext (h : ℤ × ℤ × ℤ) : ℤ × ℤ × ℤ :=
  let (y, m, d) := h
  if d < hdays y m then (y, m, d + 1) else if m < 12 then (y, m + 1, 1) else (y + 1, 1, 1)

end Verif.Hijri
