import Verif.Props.LunarEra

/-!
# Month sheets of the mean-motion era, without assumptions on the calculator

Every month sheet from 215 BC to AD 616 of the program with its own tables (`ssqCalc`, whatever the corrected series give outside the era).
-/

namespace Verif.Lunar
open Verif.Fp Verif.Ssq

theorem moon_diff (i j : ℤ) (h1 : 0 ≤ i) (h2 : i ≤ j) (h3 : j ≤ 10380) (h4 : j ≤ i + 15) :
    2953/100 * ((j : ℚ) - i) - 95/100 ≤ moonTime j - moonTime i ∧ moonTime j - moonTime i ≤ 295309/10000 * ((j : ℚ) - i) + 53/100 := by
  have a := moon_cases i h1 (by omega)
  have b := moon_cases j (by omega) (by omega)
  have c1 : (i : ℚ) ≤ j := by exact_mod_cast h2
  have c2 : (j : ℚ) ≤ i + 15 := by exact_mod_cast h4
  rcases a with ⟨a1, a2, a3⟩ | ⟨a1, a2, a3⟩ | ⟨a1, a2, a3⟩ | ⟨a1, a2, a3⟩ | ⟨a1, a2, a3⟩ | ⟨a1, a2, a3⟩ | ⟨a1, a2, a3⟩ | ⟨a1, a2, a3⟩ | ⟨a1, a2, a3⟩ <;>
  rcases b with ⟨b1, b2, b3⟩ | ⟨b1, b2, b3⟩ | ⟨b1, b2, b3⟩ | ⟨b1, b2, b3⟩ | ⟨b1, b2, b3⟩ | ⟨b1, b2, b3⟩ | ⟨b1, b2, b3⟩ | ⟨b1, b2, b3⟩ | ⟨b1, b2, b3⟩ <;>
  (constructor <;> linarith)

theorem moon_diff0 (i j : ℤ) (h1 : 62 ≤ i) (h2 : i ≤ j) (h3 : j ≤ 9000) (h4 : j ≤ i + 15) : moonTime j - moonTime i ≤ 295309/10000 * ((j : ℚ) - i) := by
  have a := moon_cases i (by omega) (by omega)
  have b := moon_cases j (by omega) (by omega)
  have c1 : (i : ℚ) ≤ j := by exact_mod_cast h2
  have c2 : (j : ℚ) ≤ i + 15 := by exact_mod_cast h4
  have c3 : (62 : ℚ) ≤ i := by exact_mod_cast h1
  have c4 : (j : ℚ) ≤ 9000 := by exact_mod_cast h3
  rcases a with ⟨a1, a2, a3⟩ | ⟨a1, a2, a3⟩ | ⟨a1, a2, a3⟩ | ⟨a1, a2, a3⟩ | ⟨a1, a2, a3⟩ | ⟨a1, a2, a3⟩ | ⟨a1, a2, a3⟩ | ⟨a1, a2, a3⟩ | ⟨a1, a2, a3⟩ <;>
  rcases b with ⟨b1, b2, b3⟩ | ⟨b1, b2, b3⟩ | ⟨b1, b2, b3⟩ | ⟨b1, b2, b3⟩ | ⟨b1, b2, b3⟩ | ⟨b1, b2, b3⟩ | ⟨b1, b2, b3⟩ | ⟨b1, b2, b3⟩ | ⟨b1, b2, b3⟩ <;>
  linarith

theorem moon_step1 (j : ℤ) (h1 : 0 ≤ j) (h2 : j < 10380) (h3 : j ≠ 61) : moonTime (j + 1) - moonTime j ≤ 2976/100 := by
  have a := moon_cases j h1 (by omega)
  have b := moon_cases (j + 1) (by omega) (by omega)
  push_cast at b
  have c : (j : ℚ) ≤ 60 ∨ (62 : ℚ) ≤ j := by
    rcases lt_or_gt_of_ne h3 with h | h
    · left; exact_mod_cast (by omega : j ≤ 60)
    · right; exact_mod_cast (by omega : 62 ≤ j)
  rcases a with ⟨a1, a2, a3⟩ | ⟨a1, a2, a3⟩ | ⟨a1, a2, a3⟩ | ⟨a1, a2, a3⟩ | ⟨a1, a2, a3⟩ | ⟨a1, a2, a3⟩ | ⟨a1, a2, a3⟩ | ⟨a1, a2, a3⟩ | ⟨a1, a2, a3⟩ <;>
  rcases b with ⟨b1, b2, b3⟩ | ⟨b1, b2, b3⟩ | ⟨b1, b2, b3⟩ | ⟨b1, b2, b3⟩ | ⟨b1, b2, b3⟩ | ⟨b1, b2, b3⟩ | ⟨b1, b2, b3⟩ | ⟨b1, b2, b3⟩ | ⟨b1, b2, b3⟩ <;>
  rcases c with c | c <;> linarith

theorem moon_low (j : ℤ) : moonTime j - 1/2 < (moonDay j : ℚ) + 2451545 := almanac_low _
theorem moon_up1 (j : ℤ) (h1 : 0 ≤ j) (h2 : j ≤ 10380) : (moonDay j : ℚ) + 2451545 ≤ moonTime j + 96/100 := by
  rcases moon_up j h1 h2 with h | ⟨_, h⟩ <;> linarith

theorem moons_ok (E : Series) (so qi : List Char) : MoonsOK (ssqCalc E so qi) 0 10378 moonDay := by
  have d0 : moonDay 0 = 1640641 - 2451545 := by decide +kernel
  have d1 : moonDay 10378 = 1947109 - 2451545 := by decide +kernel
  refine ⟨?_, ?_, ?_, ?_⟩
  · intro i j h1 h2 h3 h4
    have c1 : (i : ℚ) ≤ j := by exact_mod_cast h2
    have c2 : (j : ℚ) ≤ i + 14 := by exact_mod_cast h4
    have df := moon_diff i j h1 h2 (by omega) (by omega)
    constructor
    · have : (29 : ℚ) * (j - i) - 2 < moonDay j - moonDay i := by
        by_cases hj : i = 1450
        · have df : 29530/1000 * ((j : ℚ) - i) - 5/10 ≤ moonTime j - moonTime i := by
            have e1 := moon_cases j (by omega) (by omega)
            have e2 := moon_cases i (by omega) (by omega)
            have g : (i : ℚ) = 1450 := by exact_mod_cast hj
            rcases e1 with ⟨a1, a2, a3⟩ | ⟨a1, a2, a3⟩ | ⟨a1, a2, a3⟩ | ⟨a1, a2, a3⟩ | ⟨a1, a2, a3⟩ | ⟨a1, a2, a3⟩ | ⟨a1, a2, a3⟩ | ⟨a1, a2, a3⟩ | ⟨a1, a2, a3⟩ <;>
              rcases e2 with ⟨b1, b2, b3⟩ | ⟨b1, b2, b3⟩ | ⟨b1, b2, b3⟩ | ⟨b1, b2, b3⟩ | ⟨b1, b2, b3⟩ | ⟨b1, b2, b3⟩ | ⟨b1, b2, b3⟩ | ⟨b1, b2, b3⟩ | ⟨b1, b2, b3⟩ <;>
              linarith
          linarith [moon_low j, moon_up1 i h1 (by omega)]
        · rcases moon_up i h1 (by omega) with h | ⟨h, _⟩
          · linarith [moon_low j, df.1]
          · exact absurd h hj
      have : 29 * (j - i) - 2 < moonDay j - moonDay i := by exact_mod_cast this
      omega
    · by_cases hz : j = i
      · subst hz; simp
      have c3 : (i : ℚ) + 1 ≤ j := by exact_mod_cast (by omega : i + 1 ≤ j)
      by_cases hs : i = 61 ∧ j = 62
      · rw [hs.1, hs.2]; decide +kernel
      have : (moonDay j : ℚ) - moonDay i < 30 * (j - i) + 1 := by
        by_cases hb : 62 ≤ i ∧ j ≤ 9000
        · linarith [moon_diff0 i j hb.1 h2 hb.2 (by omega), moon_low i, moon_up1 j (by omega) (by omega)]
        have hj : (moonDay j : ℚ) + 2451545 ≤ moonTime j + 1/2 := by
          rcases moon_up j (by omega) (by omega) with h | ⟨h, _⟩
          · exact h
          · exfalso; omega
        by_cases h1' : j = i + 1
        · have := moon_step1 i h1 (by omega) (by omega)
          rw [← h1'] at this
          have e : (j : ℚ) = i + 1 := by exact_mod_cast h1'
          linarith [moon_low i]
        · have c4 : (i : ℚ) + 2 ≤ j := by exact_mod_cast (by omega : i + 2 ≤ j)
          linarith [moon_low i, df.2]
      have : moonDay j - moonDay i < 30 * (j - i) + 1 := by exact_mod_cast this
      omega
  · intro i j h1 h2 h3 h4
    have c1 : (i : ℚ) ≤ j := by exact_mod_cast h2
    have c2 : (j : ℚ) ≤ i + 15 := by exact_mod_cast h4
    have df := moon_diff i j h1 h2 (by omega) (by omega)
    rw [abs_le]
    push_cast
    constructor <;> linarith [moon_low i, moon_low j, moon_up1 i h1 (by omega), moon_up1 j (by omega) (by omega)]
  · intro j h1 h2 x hx
    have hx' := abs_le.mp hx
    have b0 := moon_mono 0 j (by norm_num) h1 (by omega)
    have b1 := moon_mono j 10378 h1 h2 (by norm_num)
    have t0 : moonTime 0 = 1640640735300/1000000 := by norm_num [moonTime]
    have t1 : moonTime 10378 = 19391356753/10000 + 147653/5000 * 270 := by norm_num [moonTime]
    have l := moon_low j
    have u := moon_up1 j h1 (by omega)
    obtain ⟨i, i1, i2, i3, i4, i5⟩ := moon_calc E so qi x _ rfl (by linarith [hx'.1]) (by linarith [hx'.2])
    rw [i5]
    have e : i = j := by
      rcases lt_trichotomy i j with h | h | h
      · exfalso
        have := moon_mono (i + 1) j (by omega) (by omega) (by omega)
        linarith [hx'.2, hx'.1]
      · exact h
      · exfalso
        have s := (moon_step j h1 (by omega)).1
        have := moon_mono (j + 1) i (by omega) (by omega) (by omega)
        linarith [hx'.2, hx'.1]
    rw [e]
  · intro x h1 h2
    rw [d0] at h1
    rw [d1] at h2
    push_cast at h1 h2
    obtain ⟨i, i1, i2, i3, i4, i5⟩ := moon_calc E so qi x _ rfl (by linarith) (by linarith)
    have s := (moon_step i i1 i2).2
    have l := moon_low i
    have u := moon_up1 i i1 (by omega)
    refine ⟨i, i1, ?_, i5, by rw [abs_le]; constructor <;> linarith⟩
    by_contra hcon
    have t : moonTime 10379 = 19391356753/10000 + 147653/5000 * 271 := by norm_num [moonTime]
    have := moon_mono 10379 i (by norm_num) (by omega) (by omega)
    linarith

theorem term_resid (m : ℤ) (h1 : -53307 ≤ m) (h2 : m ≤ -33000) : -103/100 ≤ termTime m - 2451545 - meanTerm m ∧ termTime m - 2451545 - meanTerm m ≤ 235/100 := by
  have a := term_cases m h1 (by omega)
  have c : (m : ℚ) ≤ -33000 := by exact_mod_cast h2
  unfold meanTerm
  rcases a with ⟨a1, a2, a3⟩ | ⟨a1, a2, a3⟩ | ⟨a1, a2, a3⟩ | ⟨a1, a2, a3⟩ | ⟨a1, a2, a3⟩ | ⟨a1, a2, a3⟩ | ⟨a1, a2, a3⟩ | ⟨a1, a2, a3⟩ | ⟨a1, a2, a3⟩ | ⟨a1, a2, a3⟩ <;>
  (constructor <;> linarith)

theorem term_diff (m m' : ℤ) (h1 : -53307 ≤ m) (h2 : m ≤ m') (h3 : m' ≤ -33000) (h4 : m' ≤ m + 24) :
    |termTime m' - termTime m - 152184/10000 * ((m' : ℚ) - m)| ≤ 4 := by
  have a := term_cases m h1 (by omega)
  have b := term_cases m' (by omega) (by omega)
  have c1 : (m : ℚ) ≤ m' := by exact_mod_cast h2
  have c2 : (m' : ℚ) ≤ m + 24 := by exact_mod_cast h4
  rw [abs_le]
  rcases a with ⟨a1, a2, a3⟩ | ⟨a1, a2, a3⟩ | ⟨a1, a2, a3⟩ | ⟨a1, a2, a3⟩ | ⟨a1, a2, a3⟩ | ⟨a1, a2, a3⟩ | ⟨a1, a2, a3⟩ | ⟨a1, a2, a3⟩ | ⟨a1, a2, a3⟩ | ⟨a1, a2, a3⟩ <;>
  rcases b with ⟨b1, b2, b3⟩ | ⟨b1, b2, b3⟩ | ⟨b1, b2, b3⟩ | ⟨b1, b2, b3⟩ | ⟨b1, b2, b3⟩ | ⟨b1, b2, b3⟩ | ⟨b1, b2, b3⟩ | ⟨b1, b2, b3⟩ | ⟨b1, b2, b3⟩ | ⟨b1, b2, b3⟩ <;>
  (constructor <;> linarith)

theorem term_low (m : ℤ) : termTime m - 1/2 < (termDay m : ℚ) + 2451545 := almanac_low _
theorem term_up (m : ℤ) : (termDay m : ℚ) + 2451545 ≤ termTime m + 3/2 := almanac_up _

theorem terms_ok (E : Series) (so qi : List Char) : TermsOK (ssqCalc E so qi) (-53300) (-33097) termDay := by
  intro m h1 h2
  have r := term_resid m (by omega) (by omega)
  constructor
  · rw [abs_le]; constructor <;> linarith [term_low m, term_up m]
  · intro x hx
    have hx' := abs_le.mp hx
    have g1 : (-53300 : ℚ) ≤ m := by exact_mod_cast h1
    have g2 : (m : ℚ) ≤ -33097 := by exact_mod_cast h2
    have lo : (1640651 : ℚ) ≤ x + 2451545 + 7 := by unfold meanTerm at hx'; linarith [hx'.1]
    have up : x + 2451545 + 7 ≤ (1948500 : ℚ) := by unfold meanTerm at hx'; linarith [hx'.2]
    obtain ⟨i, i1, i2, i3⟩ := term_calc E so qi x _ rfl lo up
    have s := (term_step m (by omega) (by omega)).1
    rcases i3 with ⟨a1, a2, a3⟩ | ⟨a1, a2⟩
    · rw [a3]
      have e : i = m := by
        rcases lt_trichotomy i m with h | h | h
        · exfalso
          have := term_mono (i + 1) m (by omega) (by omega) (by omega)
          linarith [hx'.2, hx'.1]
        · exact h
        · exfalso
          have := term_mono (m + 1) i (by omega) (by omega) (by omega)
          linarith [hx'.2, hx'.1]
      rw [e]
    · exfalso
      rcases le_or_gt i m with h | h
      · have := term_mono i m (by omega) (by omega) (by omega)
        linarith [hx'.2, hx'.1]
      · have := term_mono (m + 1) i (by omega) (by omega) (by omega)
        linarith [hx'.2, hx'.1]

theorem terms_near : TermsNear termDay (-53300) (-33097) := by
  constructor
  · intro m h1 h2
    have s := (term_step m (by omega) (by omega)).1
    have : (termDay m : ℚ) < termDay (m + 1) := by linarith [term_up m, term_low (m + 1)]
    exact_mod_cast this
  · intro m m' h1 h2 h3 h4
    have d := abs_le.mp (term_diff m m' (by omega) h2 (by omega) h4)
    rw [abs_le]
    push_cast
    constructor <;> linarith [term_low m, term_up m, term_low m', term_up m', d.1, d.2]

theorem starts_ok : Starts termDay moonDay 0 10378 (-216) yearMoon := by
  have d0 : moonDay 0 = 1640641 - 2451545 := by decide +kernel
  have d1 : moonDay 10378 = 1947109 - 2451545 := by decide +kernel
  refine ⟨by norm_num, ?_, ?_, ?_⟩
  · intro yy h1 h2
    have c1 : (-216 : ℚ) ≤ yy := by exact_mod_cast h1
    have c2 : (yy : ℚ) ≤ -103 := by exact_mod_cast h2
    have s : ancientStart yy = 1640641 - 2451545 + 295306/10000 * (yearMoon yy : ℚ) := by
      unfold ancientStart yearMoon
      rw [if_pos (by omega)]
    have l : 0 ≤ yearMoon yy := by
      unfold yearMoon
      rw [Int.le_floor]; push_cast; linarith
    have u : yearMoon yy ≤ 1448 := by
      have : yearMoon yy < 1449 := by
        unfold yearMoon
        rw [Int.floor_lt]; push_cast; linarith
      omega
    refine ⟨l, by omega, ?_⟩
    rw [s]
    have cs : (yearMoon yy : ℚ) ≤ 1448 := by exact_mod_cast u
    have lo := moon_low (yearMoon yy)
    have up := moon_up1 (yearMoon yy) l (by omega)
    rw [abs_le]
    rcases moon_cases (yearMoon yy) l (by omega) with ⟨a1, a2, a3⟩ | ⟨a1, a2, a3⟩ | ⟨a1, a2, a3⟩ | ⟨a1, a2, a3⟩ | ⟨a1, a2, a3⟩ | ⟨a1, a2, a3⟩ | ⟨a1, a2, a3⟩ | ⟨a1, a2, a3⟩ | ⟨a1, a2, a3⟩ <;>
      (constructor <;> linarith)
  · rw [d0, d1]
    constructor
    · norm_num [ancientStart]
    · norm_num [ancientStart]
  · have e : yearMoon (-103) = 1448 := by decide +kernel
    rw [e]
    decide +kernel

theorem era_range : Range termDay moonDay (-53300) (-33097) 0 10378 (1642760 - 2451545) (1946200 - 2451545) := by
  have d0 : moonDay 0 = 1640641 - 2451545 := by decide +kernel
  have d1 : moonDay 10378 = 1947109 - 2451545 := by decide +kernel
  refine ⟨by norm_num, ?_, by rw [d0, d1]; norm_num⟩
  unfold meanTerm
  norm_num

/-- C60 for the program with its own tables: after any history of month sheets and year texts from 215 BC (Julian day 1642760) to AD 616 (1946200), every day of
every month sheet has the record the almanac prescribes, with the mean new moons and solar terms of the era. -/
theorem c60_mean_era (E : Series) (so qi : List Char) (t : Tables) (ht : Reachable (ssqCalc E so qi) (1642760 - 2451545) (1946200 - 2451545) t)
    (Bd0 : ℤ) (hB : 1642760 - 2451545 ≤ Bd0 ∧ Bd0 ≤ 1946200 - 2451545) (n : ℕ) (hn : n ≤ 31) :
    ∃ days t', lunarSheet (ssqCalc E so qi) t Bd0 n = some (days, t') ∧ days.length = n ∧
      ∀ i : ℕ, i < n → ∃ o, days[i]? = some o ∧ RecordOK termDay moonDay (HistoricRule termDay moonDay yearMoon) (Bd0 + i) o :=
  c21_sheet_historic era_range (terms_ok E so qi) terms_near (moons_ok E so qi) starts_ok (by norm_num [meanTerm]) t ht Bd0 hB n hn

/-- the sheet of January of the year 1 (31 days from Julian day 1721424), as the first call of the program -/
example (E : Series) (so qi : List Char) : ∃ days t', lunarSheet (ssqCalc E so qi) Tables.init (1721424 - 2451545) 31 = some (days, t') ∧ days.length = 31 ∧
    ∀ i : ℕ, i < 31 → ∃ o, days[i]? = some o ∧ RecordOK termDay moonDay (HistoricRule termDay moonDay yearMoon) (1721424 - 2451545 + i) o :=
  c60_mean_era E so qi Tables.init .init _ (by norm_num) 31 (by norm_num)

/-- the month of the reform: the solstice of 105 BC is the first day of the eleventh month -/
example : moonDay 1449 = termDay (24 * (-2104)) ∧ yearMoon (-103) = 1448 := by decide +kernel

end Verif.Lunar
