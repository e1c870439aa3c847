import Verif.MonthEvents

/-!
# Model of the year text: `nianLiSTR`

/repo/lunar/lunar.cpp:196-238 and `OBB::so_accurate2`, `OBB::qi_accurate2` (/repo/lunar/lunar_ob.cpp:355-371).  The ephemeris (`OBB::so_accurate`, `OBB::qi_accurate`) is
a parameter: `so w` and `qi w` are the moments (days from midday of 1 January 2000, Beijing time) at which the elongation of the moon, the longitude of the sun is `w`.
The texts are `String`s here because the program measures their length in bytes (`std::string` = UTF-8 bytes).
-/

namespace Verif.Lunar
open Verif.Fp Verif.Cal Verif.GanZhi Verif.Ssq

/-- `std::string::substr(p, n)` of a text of ASCII characters; `p > size()` throws (here `none`) -/
def subs (s : Str) (p n : ℕ) : Option Str := if p ≤ s.length then some ((s.drop p).take n) else none

/-- `OBB::so_accurate2` — lunar_ob.cpp:366-369 -/
def soAccurate2 (so : ℚ → ℚ) (jd : ℤ) : ℚ := so (((⌊((jd : ℚ) ⊞ 8) ⊘ rnd (295306/10000)⌋ : ℤ) : ℚ) ⊠ mPi ⊠ 2)

/-- `OBB::qi_accurate2` — lunar_ob.cpp:355-364 -/
def qiAccurate2 (qi : ℚ → ℚ) (jd : ℤ) : ℚ :=
  let d := mPi ⊘ 12
  let w := ((⌊(((jd : ℚ) ⊞ 293) ⊘ cYear) ⊠ 24⌋ : ℤ) : ℚ) ⊠ d
  let a := qi w
  if a ⊟ (jd : ℚ) > 5 then qi (w ⊟ d)
  else if a ⊟ (jd : ℚ) < -5 then qi (w ⊞ d)
  else a

/-- `JD2str(day+J2000).substr(6,5)`, day an `int` — lunar.cpp:209, 227 -/
def dayPart (day : ℤ) : Option String := do
  let s ← jd2str ((day + 2451545 : ℤ) : ℚ)
  let r ← subs s 6 5
  pure (String.ofList r)

/-- `"("+ JD2str(v+J2000).substr(9,11)+")"`, in red if the moment is not on the day — lunar.cpp:212-213, 230-231 -/
def momentPart (v : ℚ) (day : ℤ) : Option String := do
  let s ← jd2str (v ⊞ 2451545)
  let r ← subs s 9 11
  let n ← int2 (v ⊞ rnd (1/2))
  pure (if n ≠ day then "\x1b[31m" ++ ("(" ++ String.ofList r ++ ")") ++ "\x1b[0m" else "(" ++ String.ofList r ++ ")")

/-- the day of term `j - 2` of the loop — lunar.cpp:219-222 -/
def termOf (t : Tables) (j : ℕ) : Option ℤ := if j = 0 then t.pe[1]? else if j = 1 then t.pe[0]? else t.ZQ[j-2]?

/-- one pass of the loop over the terms — lunar.cpp:219-234; `(j+24)%24` with `j` two less than here -/
def termPart (qi : ℚ → ℚ) (t : Tables) (h0 h1 : ℤ) (j : ℕ) : Option String := do
  let q ← termOf t j
  if q < h0 ∨ q ≥ h1 then pure ""
  else
    let nm ← strJqmc[(j + 22) % 24]?
    let D ← dayPart q
    let M ← momentPart (qiAccurate2 qi q) q
    pure ("  " ++ (nm ++ D) ++ M)

/-- the line of a month — lunar.cpp:204-235 -/
def monthLine (so qi : ℚ → ℚ) (t : Tables) (i : ℕ) : Option String := do
  let h0 ← t.HS[i]?
  let h1 ← t.HS[i+1]?
  let s1 := if t.leap ≠ 0 ∧ i = t.leap then "闰" else "  "
  let nm ← t.ym[i]?
  let s1 := s1 ++ nm
  let s1 := if s1.utf8ByteSize < 6 ∨ (s1.utf8ByteSize < 9 ∧ (t.leap ≠ 0 ∧ i = t.leap)) then s1 ++ "月" else s1
  let dx ← t.dx[i]?
  let s1 := s1 ++ (if dx > 29 then "大" else "小")
  let D ← dayPart h0
  let s1 := s1 ++ (" " ++ D)
  let M ← momentPart (soAccurate2 so h0) h0
  let s1 := s1 ++ M
  let ts ← (List.range 26).mapM (fun (j : ℕ) => termPart qi t h0 h1 j)
  pure (s1 ++ String.join ts ++ "\n")

/-- the loop over the months, from month `i` on — lunar.cpp:202-236 -/
def yearLoop (so qi : ℚ → ℚ) (t : Tables) : ℕ → ℕ → Option String
  | 0, _ => some ""
  | f + 1, i => do
    let h ← t.HS[i+1]?
    let z ← t.ZQ[24]?
    if h > z then pure ""
    else
      let l ← monthLine so qi t i
      let r ← yearLoop so qi t f (i + 1)
      pure (l ++ r)

/-- the day asked for: `int2((y-2000.0)*365.2422+180)` — lunar.cpp:201 -/
def yearDay (y : ℤ) : Option ℤ := int2 ((((y : ℚ) ⊟ 2000) ⊠ cYear) ⊞ 180)

/-- `nianLiSTR` — lunar.cpp:196-238; the tables of `SSQ` are overwritten whatever they were -/
def yearText (ssq : Calc) (so qi : ℚ → ℚ) (y : ℤ) : Option (String × Tables) := do
  let d ← yearDay y
  let t ← calcY ssq (d : ℚ)
  let s ← yearLoop so qi t 14 0
  pure (s, t)

end Verif.Lunar
