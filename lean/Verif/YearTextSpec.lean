import Verif.YearText
import Verif.LunarSpec
import Verif.CalendarSpec
import Verif.Calendar
import Verif.ClockSpec
import Verif.MonthEventsSpec

/-! # What the year text must be -/

namespace Verif.Lunar
open Verif.Fp Verif.Cal Verif.Ssq

/-- the ephemeris agrees with the calendar: new moon `j` of the almanac is the conjunction number `j + c` (the first of 2000 has number 0), at most 13 days from its
mean place, and term `m` is the passage of the sun through 15° × (m + 42); the moments the ephemeris gives within a millionth of these longitudes are at most four days
from the almanac day; terms are at least ten days apart -/
structure SkyOK (so qi : ℚ → ℚ) (Q Mn : ℤ → ℤ) (m1 m2 j1 j2 c : ℤ) : Prop where
  moon : ∀ j, j1 ≤ j → j ≤ j2 → ∀ w : ℚ, |w - angle 1 (j + c)| ≤ 1/1000000 → |so w - Mn j| ≤ 4
  place : ∀ j, j1 ≤ j → j ≤ j2 → |(Mn j : ℚ) - (295306/10000 * ((j + c : ℤ) : ℚ) + 56/10)| ≤ 13
  term : ∀ m, m1 ≤ m → m ≤ m2 → ∀ w : ℚ, |w - angle 24 (m + 42)| ≤ 1/1000000 → |qi w - Q m| ≤ 4
  gap : ∀ m, m1 ≤ m → m < m2 → Q m + 10 ≤ Q (m + 1)

/-- month and day of the civil date of a day (counted from 1 January 2000) -/
def DateOf (day : ℤ) (s : String) : Prop :=
  ∃ c : CDate, c.Valid ∧ toJD ⟨c.y, c.m, c.d, 12, 0, 0⟩ = some ((day + 2451545 : ℤ) : ℚ) ∧ s = String.ofList (dd c.m ++ '-' :: dd c.d)

/-- the moment `v` in parentheses: day of the month and clock time of its civil date, to the nearest second (up to a thousandth); in red if it is not on day `day` -/
def MomentOf (v : ℚ) (day : ℤ) (s : String) : Prop :=
  ∃ (c : CDate) (n sec : ℤ), c.Valid ∧ toJD ⟨c.y, c.m, c.d, 12, 0, 0⟩ = some (n : ℚ) ∧ 0 ≤ sec ∧ sec ≤ 86400 ∧ |(sec : ℚ) - 86400 * (v + 2451545 + 1/2 - n)| ≤ 501/1000 ∧
    s = (if ⌊v ⊞ (1/2)⌋ = day then "(" ++ String.ofList (dd c.d ++ ' ' :: clockText sec) ++ ")"
      else "\x1b[31m(" ++ String.ofList (dd c.d ++ ' ' :: clockText sec) ++ ")\x1b[0m")

/-- the entry of solar term `m`: its name, date and moment -/
def TermEntry (qi : ℚ → ℚ) (Q : ℤ → ℤ) (m : ℤ) (s : String) : Prop :=
  ∃ (nm D M : String) (w : ℚ), strJqmc[(m % 24).toNat]? = some nm ∧ DateOf (Q m) D ∧ |w - angle 24 (m + 42)| ≤ 1/1000000 ∧ MomentOf (qi w) (Q m) M ∧ s = "  " ++ nm ++ D ++ M

/-- the line of month `i` of the year counted from new moon `a`, with leap month `l` and month names `nm`: leap mark, name, length, date and moment of the new moon, and
the entries of all solar terms of the month in order -/
def LineOK (so qi : ℚ → ℚ) (Q Mn : ℤ → ℤ) (m1 m2 c a : ℤ) (l : ℕ) (nm : ℕ → String) (i : ℕ) (s : String) : Prop :=
  ∃ (D M : String) (w : ℚ) (ms : List ℤ) (es : List String), DateOf (Mn (a + i)) D ∧ |w - angle 1 (a + i + c)| ≤ 1/1000000 ∧ MomentOf (so w) (Mn (a + i)) M ∧
    ms.Pairwise (· < ·) ∧ (∀ m, m ∈ ms ↔ (m1 ≤ m ∧ m ≤ m2) ∧ Mn (a + i) ≤ Q m ∧ Q m < Mn (a + i + 1)) ∧ List.Forall₂ (TermEntry qi Q) ms es ∧
    s = (if l ≠ 0 ∧ i = l then "闰" else "  ") ++ nm i ++ (if (nm i).length = 1 then "月" else "") ++ (if Mn (a + i + 1) - Mn (a + i) = 30 then "大" else "小") ++ " " ++ D ++ M ++
      String.join es ++ "\n"

/-- the text of year `y`: one line for each month from the one of the winter solstice of the year before up to, not including, the one of the winter solstice of year `y` -/
def YearTextOK (so qi : ℚ → ℚ) (Q Mn : ℤ → ℤ) (m1 m2 c : ℤ) (rule : ℤ → ℤ → ℕ → (ℕ → String) → Prop) (y : ℤ) (text : String) : Prop :=
  ∃ (a : ℤ) (l : ℕ) (nm : ℕ → String) (K : ℕ) (ls : List String), (Mn a ≤ Q (24 * (y - 2001)) ∧ Q (24 * (y - 2001)) < Mn (a + 1)) ∧ rule (y - 2001) a l nm ∧
    (Mn (a + K) ≤ Q (24 * (y - 2000)) ∧ Q (24 * (y - 2000)) < Mn (a + K + 1)) ∧ (K = 12 ∨ K = 13) ∧
    ls.length = K ∧ (∀ i (h : i < ls.length), LineOK so qi Q Mn m1 m2 c a l nm i ls[i]) ∧ text = String.join ls

end Verif.Lunar
