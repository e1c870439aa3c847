import Verif.SsqSpec
import Verif.LunarSpec

/-!
# The mean-motion era

The moments of the mean new moons and solar terms from 220 BC to the seventh century, row by row: the first moment of the row and the
period (the constants of `SSQ::suoKB` rows 2-10 and `SSQ::qiKB` rows 0-9, /repo/lunar/lunar_ssq.cpp:27-81), as Julian dates.
-/

namespace Verif.Lunar
open Verif.Ssq

/-- moment of the `j`-th mean new moon, counted from that of 220 BC -/
def moonTime (j : ℤ) : ℚ :=
  if j < 62 then 1640640735300/1000000 + 2953060000/100000000 * (j : ℚ)
  else if j < 1449 then 1642472151543/1000000 + 2953085439/100000000 * ((j - 62) : ℚ)
  else if j < 3776 then 1683430509300/1000000 + 2953086148/100000000 * ((j - 1449) : ℚ)
  else if j < 5656 then 1752148041079/1000000 + 2953085097/100000000 * ((j - 3776) : ℚ)
  else if j < 8228 then 1807665420323/1000000 + 2953059851/100000000 * ((j - 5656) : ℚ)
  else if j < 9032 then 1883618114100/1000000 + 2953060000/100000000 * ((j - 8228) : ℚ)
  else if j < 10022 then 1907360704700/1000000 + 2953060000/100000000 * ((j - 9032) : ℚ)
  else if j < 10108 then 1936596224900/1000000 + 2953060000/100000000 * ((j - 10022) : ℚ)
  else 1939135675300/1000000 + 2953060000/100000000 * ((j - 10108) : ℚ)

/-- moment of the `m`-th mean solar term, counted from the winter solstice of 2000 -/
def termTime (m : ℤ) : ℚ :=
  if m < -53187 then 1640650479938/1000000 + 15218425000/1000000000 * ((m + 53307) : ℚ)
  else if m < -50496 then 1642476703182/1000000 + 1521874996/100000000 * ((m + 53187) : ℚ)
  else if m < -45980 then 1683430515601/1000000 + 15218750011/1000000000 * ((m + 50496) : ℚ)
  else if m < -42332 then 1752157640664/1000000 + 15218749978/1000000000 * ((m + 45980) : ℚ)
  else if m < -37341 then 1807675003759/1000000 + 15218620279/1000000000 * ((m + 42332) : ℚ)
  else if m < -35781 then 1883627765182/1000000 + 15218612292/1000000000 * ((m + 37341) : ℚ)
  else if m < -33860 then 1907369128100/1000000 + 15218449176/1000000000 * ((m + 35781) : ℚ)
  else if m < -33693 then 1936603140413/1000000 + 15218425000/1000000000 * ((m + 33860) : ℚ)
  else if m < -33165 then 1939145524180/1000000 + 15218466998/1000000000 * ((m + 33693) : ℚ)
  else 1947180798300/1000000 + 15218524844/1000000000 * ((m + 33165) : ℚ)

/-- the almanac day (from midday of 1 January 2000) of a moment: the nearest day; one historical day is moved -/
def almanacDay (t : ℚ) : ℤ := (if ⌊t + 1/2⌋ = 1683460 then 1683461 else ⌊t + 1/2⌋) - 2451545

/-- day of the `j`-th new moon -/
def moonDay (j : ℤ) : ℤ := almanacDay (moonTime j)
/-- day of the `m`-th solar term -/
def termDay (m : ℤ) : ℤ := almanacDay (termTime m)

/-- the first new moon of the ancient year `yy` (220 BC - 104 BC) -/
def yearMoon (yy : ℤ) : ℤ := ⌊866/1000 + 12369/1000 * (yy + 220 : ℚ)⌋

end Verif.Lunar
