import Mathlib.Data.Int.Notation

/-!
# Specification of the civil calendar (independent of the model)

Astronomical year numbering (year 0 = 1 BC).  Julian leap rule up to
1582-10-04, which is followed by 1582-10-15; Gregorian leap rule from then on.
-/

namespace Verif.Cal

/-- a calendar day (year, month, day of month) -/
structure CDate where
  y : ℤ
  m : ℤ
  d : ℤ
deriving DecidableEq, Repr

/-- leap year: every fourth year up to 1582, the Gregorian rule afterwards -/
def leap (y : ℤ) : Bool :=
  if y ≤ 1582 then y % 4 == 0
  else y % 4 == 0 && (y % 100 != 0 || y % 400 == 0)

/-- highest day number of a month -/
def lastDay (y m : ℤ) : ℤ :=
  if m = 2 then (if leap y then 29 else 28)
  else if m = 4 ∨ m = 6 ∨ m = 9 ∨ m = 11 then 30 else 31

/-- an existing civil day (the ten days dropped in October 1582 do not exist) -/
def CDate.Valid (c : CDate) : Prop :=
  1 ≤ c.m ∧ c.m ≤ 12 ∧ 1 ≤ c.d ∧ c.d ≤ lastDay c.y c.m ∧
  ¬ (c.y = 1582 ∧ c.m = 10 ∧ 5 ≤ c.d ∧ c.d ≤ 14)

instance (c : CDate) : Decidable c.Valid := by unfold CDate.Valid; infer_instance

/-- the next civil day -/
def CDate.next (c : CDate) : CDate :=
  if c = ⟨1582, 10, 4⟩ then ⟨1582, 10, 15⟩
  else if c.d < lastDay c.y c.m then ⟨c.y, c.m, c.d + 1⟩
  else if c.m < 12 then ⟨c.y, c.m + 1, 1⟩
  else ⟨c.y + 1, 1, 1⟩

/-- chronological order of calendar days -/
def CDate.before (a b : CDate) : Prop :=
  a.y < b.y ∨ (a.y = b.y ∧ (a.m < b.m ∨ (a.m = b.m ∧ a.d < b.d)))

/-- number of existing days of a month -/
def monthDays (y m : ℤ) : ℤ :=
  if y = 1582 ∧ m = 10 then 21 else lastDay y m

/-- The days covered by the theorems: from 1 March -4716 (the first day
`toJD` handles) to the end of year 4 900 000. -/
def CDate.InRange (c : CDate) : Prop :=
  (-4715 ≤ c.y ∨ (c.y = -4716 ∧ 3 ≤ c.m)) ∧ c.y ≤ 4900000

end Verif.Cal
