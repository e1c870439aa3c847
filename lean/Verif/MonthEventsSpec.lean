import Verif.MonthEvents
import Verif.ClockSpec

/-! # What the phases and terms of a month sheet must be -/

namespace Verif.Lunar
open Verif.Fp Verif.Cal Verif.Ssq

/-- longitude of the `k`-th event when there are `n` in a full circle -/
def angle (n : ℕ) (k : ℤ) : ℚ := k * (2 * mPi / n)

/-- the ephemeris is sane: within a millionth of the longitude of the `k`-th event it gives a moment on day `D k` (rounded to the nearest day), and successive events are at
least `gap` days apart -/
structure EventsOK (acc : ℚ → ℚ) (n : ℕ) (gap : ℤ) (D : ℤ → ℤ) : Prop where
  day : ∀ k : ℤ, |k| ≤ 600000 → ∀ w : ℚ, |w - angle n k| ≤ 1/1000000 → ⌊acc w ⊞ rnd (1/2)⌋ = D k ∧ |acc w| ≤ 10000000
  gap : ∀ k : ℤ, |k| ≤ 600000 → D k + gap ≤ D (k + 1)

/-- the longitude `w0` at the beginning of the month agrees with the events: those passed by at least `back` lie before the month, those passed by at most `span` (or not
yet) not more than fifty days before it -/
structure StartOK (n : ℕ) (D : ℤ → ℤ) (w0 back span : ℚ) (Bd0 : ℤ) : Prop where
  size : |w0| * n ≤ 2800000
  before : ∀ k : ℤ, |k| ≤ 600000 → angle n k ≤ w0 - back → D k < Bd0
  recent : ∀ k : ℤ, |k| ≤ 600000 → w0 - span ≤ angle n k → Bd0 - 50 ≤ D k

/-- the record of an event at the moment `d` of day `D`: its clock text is the nearest second (up to a thousandth of a second) -/
def EventText (r : EventRec) (D : ℤ) : Prop := ∃ sec : ℤ, r.time = clockText sec ∧ 0 ≤ sec ∧ sec ≤ 86400 ∧ |(sec : ℚ) - 86400 * (r.jd + 1/2 - D)| ≤ 501/1000

/-- the days `days` of a month of `Bdn` days from `Bd0` on, after the search, against the days `old` before it: the day of each event has the record of that event, the other days are unchanged -/
def EventsRecorded (acc : ℚ → ℚ) (n : ℕ) (name : ℤ → Option String) (D : ℤ → ℤ) (Bd0 Bdn : ℤ) (old days : List EventRec) : Prop :=
  days.length = old.length ∧ ∀ i : ℕ, i < old.length →
    (∀ k : ℤ, |k| ≤ 600000 → (i : ℤ) < Bdn → D k = Bd0 + i → ∃ (r : EventRec) (w : ℚ), days[i]? = some r ∧ |w - angle n k| ≤ 1/1000000 ∧ r.jd = acc w ∧ some r.name = name k ∧ EventText r (D k)) ∧
    ((∀ k : ℤ, |k| ≤ 600000 → D k ≠ Bd0 + i) ∨ Bdn ≤ i → days[i]? = old[i]?)

end Verif.Lunar
