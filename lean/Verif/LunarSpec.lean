import Verif.LunarYear
import Verif.GanZhiSpec

/-!
# Specification of the lunar year

`z k` (k = 0..24) is the day of the k-th solar term from a winter solstice to the next, `h i` (i = 0..14) the day of the
i-th new moon, `h 0` being the one of the month of the solstice.  The major terms are `z 0, z 2, …, z 24`.
-/

namespace Verif.Lunar
open Verif.GanZhi

/-- the table read from a function -/
def tab (n : ℕ) (f : ℕ → ℤ) : List ℤ := (List.range n).map f

/-- new moons and terms as the calendars have them: terms in order, months of 29 or 30 days — one month may be a day shorter
(the reform of AD 237 has one of 28 days) —, the first one containing the solstice -/
structure Consistent (z h : ℕ → ℤ) : Prop where
  terms : ∀ i, i < 24 → z i < z (i + 1)
  months : ∀ i j : ℕ, i ≤ j → j ≤ 14 → 29 * ((j : ℤ) - i) - 1 ≤ h j - h i ∧ h j - h i ≤ 30 * ((j : ℤ) - i)
  first : h 0 ≤ z 0 ∧ z 0 < h 1

/-- day `d` is in month `i` -/
def InMonth (h : ℕ → ℤ) (i : ℕ) (d : ℤ) : Prop := h i ≤ d ∧ d < h (i + 1)

/-- month `i` contains a major term -/
def HasMajor (z h : ℕ → ℤ) (i : ℕ) : Prop := ∃ k, k ≤ 12 ∧ InMonth h i (z (2 * k))

/-- month `i` contains two major terms -/
def HasTwoMajor (z h : ℕ → ℤ) (i : ℕ) : Prop := ∃ k k', k < k' ∧ k' ≤ 12 ∧ InMonth h i (z (2 * k)) ∧ InMonth h i (z (2 * k'))

/-- solar terms stay near their mean distance from the solstice (7 days is generous: the equation of centre moves
them by less than 4) -/
structure NearMean (z : ℕ → ℤ) : Prop where
  terms : ∀ i, i < 24 → z i < z (i + 1)
  near : ∀ k, k ≤ 24 → |((z k - z 0 : ℤ) : ℚ) - 152184/10000 * k| ≤ 7

/-- new moons stay within three days of their mean distances (they are off by at most about two) -/
def MoonsNear (h : ℕ → ℤ) : Prop := ∀ i j, i ≤ j → j ≤ 14 → |((h j - h i : ℤ) : ℚ) - 295306/10000 * ((j : ℚ) - i)| ≤ 3

/-- the dates on which a month name other than the default one is used (first day of the month, Julian day) -/
def SpecialDate (Dm : ℤ) : Prop :=
  (1724360 ≤ Dm ∧ Dm ≤ 1729794) ∨ (1807724 ≤ Dm ∧ Dm ≤ 1808699) ∨ (1999349 ≤ Dm ∧ Dm ≤ 1999467) ∨ (1973067 ≤ Dm ∧ Dm ≤ 1977052)

/-- usual name of the month with number `v` (0 = the month of the winter solstice = month eleven) -/
def usualName (v : ℕ) : String := (["十一","腊","正","二","三","四","五","六","七","八","九","十"][v % 12]?).getD ""

/-- the year is the one from the winter solstice of Gregorian year `2000 + N`: every term is within 20 days of its mean
place counted from 21 December 2000 -/
def Anchored (z : ℕ → ℤ) (N : ℤ) : Prop := ∀ k, k ≤ 24 → |((z k : ℤ) : ℚ) - (355 + 3652422/10000 * N + 152184/10000 * k)| ≤ 20

/-- month number with leap month `l` (0 = none) -/
def numOf (l i : ℕ) : ℕ := if l = 0 then i else if i < l then i else i - 1

/-- tables of a year: terms `z`, new moons `h`, leap month `l`, month names `nm` -/
structure YearTables (t : Tables) (z h : ℕ → ℤ) (l : ℕ) (nm : ℕ → String) : Prop where
  zq : t.ZQ = tab 25 z
  hs : t.HS = tab 15 h
  dx : t.dx = tab 14 (fun i => h (i + 1) - h i)
  leap : t.leap = l
  ym : t.ym = (List.range 14).map nm

/-- index of the month 正 that opens the lunar year -/
def springMonth (l : ℕ) : ℕ := if l = 0 ∨ 2 < l then 2 else 3

/-- mean place of the `m`-th solar term counted from the winter solstice of 2000 -/
def meanTerm (m : ℤ) : ℚ := 355 + 3652422/10000/24 * m

/-- the solar-term calculator is sane for the terms `m1`..`m2`: near the mean place of the `m`-th term it gives one and the same day
`Q m`, not more than 19 days away -/
def TermsOK (ssq : Calc) (m1 m2 : ℤ) (Q : ℤ → ℤ) : Prop :=
  ∀ m, m1 ≤ m → m ≤ m2 → |((Q m : ℤ) : ℚ) - meanTerm m| ≤ 19 ∧ ∀ x : ℚ, |x - meanTerm m| ≤ 1/20 → ssq x true = some (Q m)

/-- states of the tables after any history of calls: month sheets (`yueLiCalc`) and year texts (`nianLiSTR`, which calls
`calcY` directly), for days between `lo` and `hi` -/
inductive Reachable (ssq : Calc) (lo hi : ℤ) : Tables → Prop
  | init : Reachable ssq lo hi Tables.init
  | sheet {t t' days} (Bd0 : ℤ) (n : ℕ) (hr : Reachable ssq lo hi t) (hB : lo ≤ Bd0 ∧ Bd0 ≤ hi) (hn : n ≤ 31)
      (h : lunarSheet ssq t Bd0 n = some (days, t')) : Reachable ssq lo hi t'
  | year {t t'} (d : ℤ) (hr : Reachable ssq lo hi t) (hd : lo ≤ d ∧ d ≤ hi) (h : calcY ssq (d : ℚ) = some t') : Reachable ssq lo hi t'

/-- month `i` opens a lunar year: it is called 正 and is not the leap month -/
def Opens (nm : ℕ → String) (l i : ℕ) : Prop := nm i = "正" ∧ ¬ (l = i ∧ i ≠ 0)

/-- the day from which the lunar year of day `d` is counted: the first day of the last opening month, or, if an opening month begins
after `d`, 365 days before the first such month -/
def SpringDay (nm : ℕ → String) (l : ℕ) (h : ℕ → ℤ) (d D : ℤ) : Prop :=
  (∃ i, i < 14 ∧ Opens nm l i ∧ d < h i ∧ (∀ j, j < i → Opens nm l j → h j ≤ d) ∧ D = h i - 365) ∨
  ((∀ i, i < 14 → Opens nm l i → h i ≤ d) ∧ ((∃ i, i < 14 ∧ Opens nm l i ∧ (∀ j, j < 14 → i < j → ¬ Opens nm l j) ∧ D = h i) ∨ ((∀ i, i < 14 → ¬ Opens nm l i) ∧ D = h 2)))

/-- the name of the month with number `v` beginning on Julian day `Dm`: the usual one outside the periods in which the year began
with another month (8–23, 237–239, 689–700, 761–762) -/
def nameRule (Dm : ℤ) (v : ℕ) : String :=
  if Dm = 1729794 ∨ Dm = 1808699 then "拾贰"
  else if (1724360 ≤ Dm ∧ Dm < 1729794) ∨ (1807724 ≤ Dm ∧ Dm < 1808699) then usualName (v + 1)
  else if 1999349 ≤ Dm ∧ Dm ≤ 1999467 then usualName (v + 2)
  else if 1973067 ≤ Dm ∧ Dm ≤ 1977052 then (if v % 12 = 0 then "正" else if v = 2 then "一" else usualName v)
  else usualName v

/-- what the lunar record of day `d` must say, in the year with terms `z`, new moons `h`, leap month `l` (0: none), beginning
at the winter solstice of year `2000 + N` -/
structure DaySpec (z h : ℕ → ℤ) (l : ℕ) (nm : ℕ → String) (N Y d : ℤ) (first : Bool) (prev : MonthInfo) (o : LunarDay) : Prop where
  day : o.d0 = d
  /-- the month: its first day, day number and name, length, leap mark, name of the next month; on the days after the
  first of the month or of the sheet the month fields are those of the previous day -/
  month : ∃ k, k < 14 ∧ InMonth h k d ∧ o.Ldi = d - h k ∧ o.Ldi < 30 ∧ Fest.strRmc[(d - h k).toNat]? = some o.Ldc ∧
    o.month = if d = h k ∨ first then ⟨nm k, h (k + 1) - h k, decide (l ≠ 0 ∧ l = k), if k < 13 then nm (k + 1) else "未知"⟩ else prev
  /-- the solar term of the day -/
  term : ∀ j, j < 24 → d = z j → strJqmc[j]? = some o.Ljq
  noTerm : (∀ j, j < 24 → d ≠ z j) → o.Ljq = ""
  /-- distances from the terms that start the counts -/
  counts : o.cur_dz = d - z 0 ∧ o.cur_xz = d - z 12 ∧ o.cur_lq = d - z 15 ∧ o.cur_mz = d - z 11 ∧ o.cur_xs = d - z 13
  /-- year names: from Lichun, and from the first day of month 正 (year `Y` of the cycle; number 17 is year 2001) -/
  year : o.Lyear2 = name60 (if z 3 ≤ d then N + 17 else N + 16)
  year0 : o.Lyear3 = name60 Y
  huangdi : o.Lyear4 = Y + 4682
  /-- month name by the five-tigers rule from the year name: month `j` after 寅 begins on the minor term `z (3 + 2 j)`;
  before Lichun it is month 10 or 11 of the previous year -/
  pillar : ∃ j : ℕ, o.Lmonth2 = nameOf (fiveTigers (if z 3 ≤ d then N + 17 else N + 16) + j) (2 + j) ∧
    (z 3 ≤ d → j ≤ 10 ∧ z (3 + 2 * j) ≤ d ∧ (j < 10 → d < z (5 + 2 * j))) ∧
    (d < z 3 → (d < z 1 ∧ j = 10) ∨ (z 1 ≤ d ∧ j = 11))
  /-- day name -/
  dayName : o.Lday2 = name60 (d - 6)
  /-- sign of the zodiac -/
  zodiac : ∃ k, k < 12 ∧ z (2 * k) ≤ d ∧ d < z (2 * (k + 1)) ∧ strXz[k]? = some o.XiZ


/-- the leap month rule: none if twelve months lead from the month of the solstice to that of the next; with thirteen the first month
after the solstice month without a major term (unless an earlier month has two) -/
def LeapRule (z h : ℕ → ℤ) (l : ℕ) : Prop :=
  (InMonth h 12 (z 24) ∧ l = 0) ∨
  (InMonth h 13 (z 24) ∧ 1 ≤ l ∧ l ≤ 12 ∧ ¬ HasMajor z h l ∧ ∀ j, 1 ≤ j → j < l → ¬ HasMajor z h j → ∃ k, k < j ∧ HasTwoMajor z h k)

/-- the terms keep their order and stay near their mean distances, as seen from each solstice -/
def TermsNear (Q : ℤ → ℤ) (m1 m2 : ℤ) : Prop :=
  (∀ m, m1 ≤ m → m < m2 → Q m < Q (m + 1)) ∧
  ∀ m m', m1 ≤ m → m ≤ m' → m' ≤ m2 → m' ≤ m + 24 → |((Q m' - Q m : ℤ) : ℚ) - 152184/10000 * ((m' - m : ℤ) : ℚ)| ≤ 7

/-- the new-moon calculator is sane for the new moons `Mn j1`..`Mn j2`: months of 29 or 30 days (one in fifteen may be a day shorter),
within three days of their mean distances; near the `j`-th new moon it gives its day, and anywhere some new moon not more than 18 days
away -/
structure MoonsOK (ssq : Calc) (j1 j2 : ℤ) (Mn : ℤ → ℤ) : Prop where
  months : ∀ i j, j1 ≤ i → i ≤ j → j ≤ j2 → j ≤ i + 14 → 29 * (j - i) - 1 ≤ Mn j - Mn i ∧ Mn j - Mn i ≤ 30 * (j - i)
  near : ∀ i j, j1 ≤ i → i ≤ j → j ≤ j2 → j ≤ i + 15 → |((Mn j - Mn i : ℤ) : ℚ) - 295306/10000 * ((j - i : ℤ) : ℚ)| ≤ 3
  here : ∀ j, j1 ≤ j → j ≤ j2 → ∀ x : ℚ, |x - Mn j| ≤ 5 → ssq x false = some (Mn j)
  some : ∀ x : ℚ, (Mn j1 : ℚ) ≤ x → x ≤ Mn j2 → ∃ j, j1 ≤ j ∧ j ≤ j2 ∧ ssq x false = some (Mn j) ∧ |x - Mn j| ≤ 18

/-- the terms from the winter solstice of year `2000 + N`, if `Q` are the days of all terms (`Q 0` the solstice of 2000) -/
def zOf (Q : ℤ → ℤ) (N : ℤ) : ℕ → ℤ := fun i => Q (24 * N + i)
/-- the new moons from the `a`-th on -/
def hOf (Mn : ℤ → ℤ) (a : ℤ) : ℕ → ℤ := fun i => Mn (a + i)
/-- the names of the months from the `a`-th new moon on -/
def nmOf (Mn : ℤ → ℤ) (a : ℤ) (l : ℕ) : ℕ → String := fun i => nameRule (Mn (a + i) + 2451545) (numOf l i)

/-- days outside the years -721..-104, which have their own month names -/
def Ordinary (d : ℤ) : Prop := d ≤ -994100 ∨ -767700 ≤ d

/-- leap month and month names of an ordinary year -/
def OrdinaryRule (Q Mn : ℤ → ℤ) (N a : ℤ) (l : ℕ) (nm : ℕ → String) : Prop := LeapRule (zOf Q N) (hOf Mn a) l ∧ nm = nmOf Mn a l

/-- what the calendar must say of day `d`, given the days `Q` of the solar terms and `Mn` of the new moons: there is a solstice year
`N` containing the day, whose months are counted from the new moon `a` at or before the solstice, with the leap month `l` (0 for none) and
month names `nm` the rule gives; the day lies in month `k` of that count -/
def RecordOK (Q Mn : ℤ → ℤ) (rule : ℤ → ℤ → ℕ → (ℕ → String) → Prop) (d : ℤ) (o : LunarDay) : Prop :=
  ∃ (N a : ℤ) (l : ℕ) (nm : ℕ → String) (k : ℕ) (Y D : ℤ), (Q (24 * N) ≤ d ∧ d < Q (24 * (N + 1))) ∧ (Mn a ≤ Q (24 * N) ∧ Q (24 * N) < Mn (a + 1)) ∧
    rule N a l nm ∧ k < 14 ∧ InMonth (hOf Mn a) k d ∧
    -- name, length, leap mark of the month, name of the next month
    o.month.Lmc = nm k ∧ o.month.Ldn = Mn (a + k + 1) - Mn (a + k) ∧ o.month.Lleap = decide (l ≠ 0 ∧ l = k) ∧
    (1 ≤ k → k < 13 → o.month.Lmc2 = nm (k + 1)) ∧
    -- the year: counted from the first day of month 正
    SpringDay nm l (hOf Mn a) d D ∧ |(D : ℚ) + 5810 - 3652422/10000 * Y| ≤ 183 ∧
    -- everything else
    ∃ first prev, DaySpec (zOf Q N) (hOf Mn a) l nm N Y d first prev o

/-- the range of days: terms `m1`..`m2` and new moons `j1`..`j2` surround it with a margin -/
structure Range (Q Mn : ℤ → ℤ) (m1 m2 j1 j2 lo hi : ℤ) : Prop where
  big : -3500000 ≤ lo ∧ hi ≤ 3500000
  terms : meanTerm m1 + 2000 ≤ lo ∧ hi ≤ meanTerm m2 - 2000
  moons : Mn j1 + 800 ≤ lo ∧ hi + 900 ≤ Mn j2

/-! ## The calendars before the reform of 104 BC -/

/-- estimated first day of year `yy` (from midday of 1 January 2000): from the stated first new moons of the calendars of the Spring and Autumn period (722 BC),
the Warring States (481 BC) and Qin–Han (222 BC), with a mean number of months a year -/
def ancientStart (yy : ℤ) : ℚ :=
  if -220 ≤ yy then 1640641 - 2451545 + 295306/10000 * (⌊866/1000 + 12369/1000 * (yy + 220 : ℚ)⌋ : ℤ)
  else if -479 ≤ yy then 1546083 - 2451545 + 295306/10000 * (⌊500/1000 + 12368422/1000000 * (yy + 479 : ℚ)⌋ : ℤ)
  else 1457698 - 2451545 + 295306/10000 * (⌊342/1000 + 12368422/1000000 * (yy + 721 : ℚ)⌋ : ℤ)

/-- name of the `i`-th month (from 0) of year `yy`: the Qin–Han year begins with month ten and its thirteenth month is the later ninth; the
older years begin with month one and their thirteenth month is called so -/
def ancientMonth (yy : ℤ) (i : ℕ) : String :=
  if i < 12 then usualName (i + (if -220 ≤ yy then 11 else 2)) else (if -220 ≤ yy then "后九" else "十三")

/-- `s yy` is the first new moon of year `yy`, for the years `y0`..-103: it is near the estimated day; and the reform of 104 BC found the winter
solstice in the second month of its year -/
structure Starts (Q Mn : ℤ → ℤ) (j1 j2 y0 : ℤ) (s : ℤ → ℤ) : Prop where
  low : -721 ≤ y0 ∧ y0 ≤ -105
  near : ∀ yy, y0 ≤ yy → yy ≤ -103 → j1 ≤ s yy ∧ s yy ≤ j2 ∧ |((Mn (s yy) : ℤ) : ℚ) - ancientStart yy| ≤ 4
  room : (Mn j1 : ℚ) + 100 ≤ ancientStart y0 ∧ ancientStart (-103) + 100 ≤ Mn j2
  reform : Mn (s (-103) + 1) ≤ Q (24 * (-2104)) ∧ Q (24 * (-2104)) < Mn (s (-103) + 2)

/-- leap month and month names of a year before the reform: no month is marked as leap; each month is named after its place in the ancient year to which it belongs -/
def AncientRule (s : ℤ → ℤ) (a : ℤ) (l : ℕ) (nm : ℕ → String) : Prop :=
  l = 0 ∧ ∀ i : ℕ, i < 14 → ∃ (yy : ℤ) (m : ℕ), a + i = s yy + m ∧ (yy < -103 → a + i < s (yy + 1)) ∧ yy ≤ -103 ∧ nm i = ancientMonth yy m

/-- leap month and month names of the year from the winter solstice of year `2000 + N` -/
def HistoricRule (Q Mn s : ℤ → ℤ) (N a : ℤ) (l : ℕ) (nm : ℕ → String) : Prop :=
  if N + 2001 ≤ -104 then AncientRule s a l nm else OrdinaryRule Q Mn N a l nm

end Verif.Lunar
