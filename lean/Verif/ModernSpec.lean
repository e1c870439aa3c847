import Verif.SsqCalc
import Verif.Props.HighTime

/-!
# Specification of the modern calendar (C79)

The solar terms and new moons of the years 1965–2397 as days of the computed sun and moon, and what is assumed of the double-precision evaluation of the two fine series.
-/

namespace Verif.Modern
open Verif.Fp Verif.Ssq Verif.Longitude Real

/-- the slow-down of the Earth's rotation in modern times: at most a tenth of a day, changing by at most 150 s in 200 days (and, elsewhere, of a harmless size) -/
structure ModernDt (dtT : ℝ → ℝ) : Prop where
  low : ∀ x, -36525 ≤ dtT x
  size : ∀ x, -1100000 ≤ x → x ≤ 365000 → |dtT x| ≤ 4
  slow : ∀ x y, -1100000 ≤ x → x ≤ 365000 → -1100000 ≤ y → y ≤ 365000 → |y - x| ≤ 200 → |dtT y - dtT x| * 86400 ≤ 150
  modern : ∀ x, -15000 ≤ x → x ≤ 150000 → |dtT x| ≤ 0.1

/-- the double-precision evaluation of the fine series gives the day of the exact series at some angle within 10⁻⁶ rad of the angle asked for (0.4 s of the moon's motion, 5 s of the
sun's); what it gives otherwise does not matter -/
structure FineSeries (E : Series) (b : Tab) (dtT : ℝ → ℝ) : Prop where
  qi : ∀ W : ℚ, -250 ≤ W → W ≤ 2600 → ∃ W' r : ℝ, |W' - W| ≤ 0.000001 ∧ qiHigh b dtT W' = some r ∧ int2 (E.qiHigh W ⊞ rnd (1/2)) = some (dayOf r)
  so : ∀ W : ℚ, -3200 ≤ W → W ≤ 31075 → ∃ W' r : ℝ, |W' - W| ≤ 0.000001 ∧ soHigh b dtT W' = some r ∧ int2 (E.soHigh W ⊞ rnd (1/2)) = some (dayOf r)

/-- day `d` (from 1 January 2000) is, in Beijing, the day of the `m`-th solar term after the winter solstice of 2000: it contains an instant at which the computed longitude of the
sun is within 3·10⁻⁶ rad of 270° + 15°·m (the angle counted from the spring equinox of 1999) -/
def TermDay (b : Tab) (dtT : ℝ → ℝ) (m d : ℤ) : Prop :=
  ∃ p lam lag x : ℝ, sALon b p (-1) = some lam ∧ |lam - (m + 42) * (π / 12)| ≤ 0.000003 ∧ lag = dtT x ∧ |x - p * 36525| ≤ 1 ∧ d = dayOf (beijing p lag)

/-- day `d` is, in Beijing, the day of the `j`-th new moon after that of January 2000: it contains an instant at which the computed moon is within 1.4·10⁻⁴ rad of the computed
sun in longitude, after `j` turns -/
def NewMoonDay (b : Tab) (dtT : ℝ → ℝ) (j d : ℤ) : Prop :=
  ∃ p lead lag x : ℝ, msALon b p (-1) (-1) = some lead ∧ |lead - j * (2 * π)| ≤ 0.00014 ∧ lag = dtT x ∧ |x - p * 36525| ≤ 1 ∧ d = dayOf (beijing p lag)

end Verif.Modern
