import Verif.GanZhi
import Verif.Festival

/-!
# Model of the lunar year: `SSQ::calcY` and the lunar part of `yueLiCalc`

/repo/lunar/lunar_ssq.cpp:282-368 and /repo/lunar/lunar.cpp:56-160.

`ssq x true` stands for `SSQ::calc(x,1)` (day of the solar term near `x`) and `ssq x false` for `SSQ::calc(x,0)` (day of
the new moon near `x`); `none` is an undefined outcome.  It is a parameter here; `Verif/SsqCalc.lean` models its
non-ephemeris part.  Differences and sums of two `int` day numbers are exact (no overflow is modelled for them: both are days
near `jd`).
-/

namespace Verif.Lunar
open Verif.Fp Verif.GanZhi

abbrev Calc := ℚ → Bool → Option ℤ

/-- the static tables of `SSQ` — lunar_ssq.cpp:275-280 -/
structure Tables where
  leap : ℕ
  ym : List String
  ZQ : List ℤ
  HS : List ℤ
  dx : List ℤ
  pe : List ℤ
deriving DecidableEq, Repr

/-- value before the first call: static objects are zero-initialised -/
def Tables.init : Tables := ⟨0, List.replicate 14 "", List.replicate 25 0, List.replicate 15 0, List.replicate 14 0, [0, 0]⟩

/-- `str_ymc` — /repo/lunar/lunar_ob.cpp:7 -/
def strYmc : List String := ["十一","腊","正","二","三","四","五","六","七","八","九","十"]
/-- `str_jqmc` — /repo/lunar/lunar_ob.cpp:9 -/
def strJqmc : List String := ["冬至","小寒","大寒","立春","雨水","惊蛰","春分","清明","谷雨","立夏","小满","芒种","夏至","小暑","大暑","立秋","处暑","白露","秋分","寒露","霜降","立冬","小雪","大雪"]
/-- `str_xz` — /repo/lunar/lunar_ob.cpp:17 (without the emoji) -/
def strXz : List String := ["摩羯座","水瓶座","双鱼座","白羊座","金牛座","双子座","巨蟹座","狮子座","处女座","天秤座","天蝎座","射手座"]

/-- the double constant 365.2422 -/
def cYear : ℚ := rnd (3652422/10000)

/-- winter-solstice estimate `W` — lunar_ssq.cpp:290-291 -/
def solsticeW (ssq : Calc) (jd : ℚ) : Option ℚ := do
  let n ← int2 ((jd ⊟ 355 ⊞ 183) ⊘ cYear)
  let W := (n : ℚ) ⊠ cYear ⊞ 355
  let c ← ssq W true
  pure (if (c : ℚ) > jd then W ⊟ cYear else W)

/-- the 25 terms — lunar_ssq.cpp:292-295 -/
def terms (ssq : Calc) (W : ℚ) : Option (List ℤ) :=
  (List.range 25).mapM (fun (i : ℕ) => ssq (W ⊞ rnd (152184/10000) ⊠ (i : ℚ)) true)

/-- first new moon and the 15 new moons — lunar_ssq.cpp:299-306 -/
def moons (ssq : Calc) (A0 : ℤ) : Option (List ℤ) := do
  let c ← ssq (A0 : ℚ) false
  let w : ℚ := if c > A0 then (c : ℚ) ⊟ rnd (2953/100) else c
  (List.range 15).mapM (fun (i : ℕ) => ssq (w ⊞ rnd (295306/10000) ⊠ (i : ℚ)) false)

/-- month lengths — lunar_ssq.cpp:313 -/
def lengths (HS : List ℤ) : Option (List ℤ) :=
  (List.range 14).mapM (fun (i : ℕ) => do pure ((← HS[i+1]?) - (← HS[i]?)))

/-- `for (i=1; B[i+1]>A[2*i] && i<13; i++);` — lunar_ssq.cpp:346 -/
def findLeap (A B : List ℤ) : ℕ → ℕ → Option ℕ
  | 0, _ => none
  | f + 1, i => do
    let x ← B[i+1]?
    let y ← A[2*i]?
    if x > y ∧ i < 13 then findLeap A B f (i + 1) else pure i

/-- leap month and month numbers — lunar_ssq.cpp:309-315, 344-349 -/
def monthNumbers (A B : List ℤ) : Option (ℕ × List ℕ) := do
  let b ← B[13]?
  let a ← A[24]?
  if b ≤ a then
    let l ← findLeap A B 14 1
    pure (l, (List.range 14).map (fun i => if l ≤ i then i - 1 else i))
  else pure (0, List.range 14)

/-- name of the month with number `v2` starting at the Julian day `Dm` — lunar_ssq.cpp:354-366 -/
def monthName (Dm : ℤ) (v2 : ℕ) : Option String := do
  let mc ← strYmc[v2 % 12]?
  let mc ← (if 1724360 ≤ Dm ∧ Dm ≤ 1729794 then strYmc[(v2 + 1) % 12]?
    else if 1807724 ≤ Dm ∧ Dm ≤ 1808699 then strYmc[(v2 + 1) % 12]?
    else if 1999349 ≤ Dm ∧ Dm ≤ 1999467 then strYmc[(v2 + 2) % 12]?
    else if 1973067 ≤ Dm ∧ Dm ≤ 1977052 then
      some (let mc := if v2 % 12 = 0 then "正" else mc
            if v2 = 2 then "一" else mc)
    else some mc)
  pure (if Dm = 1729794 ∨ Dm = 1808699 then "拾贰" else mc)

/-- the year number used to select the ancient calendars — lunar_ssq.cpp:318 -/
def yearOf (ZQ0 : ℤ) : Option ℤ := do
  let n ← int2 (((ZQ0 + 10 + 180 : ℤ) : ℚ) ⊘ cYear)
  pure (n + 2000)

/-- first days of the three surrounding ancient years, name of their 13th month, number of their first month —
lunar_ssq.cpp:324-331; entries not set stay 0 -/
def ancientYears (ssq : Calc) (YY : ℤ) : Option (List (ℤ × ℕ × ℕ)) :=
  (List.range 3).mapM (fun (i : ℕ) => do
    let yy := YY + i - 1
    let r : ℤ × ℕ × ℕ := (0, 0, 0)
    let r ← (if yy ≥ -721 then do
        let k ← int2 (rnd (342/1000) ⊞ ((yy + 721 : ℤ) : ℚ) ⊠ rnd (12368422/1000000))
        pure ((← ssq ((1457698 - 2451545 : ℤ) ⊞ (k : ℚ) ⊠ rnd (295306/10000)) false), 0, 2) else pure r)
    let r ← (if yy ≥ -479 then do
        let k ← int2 (rnd (500/1000) ⊞ ((yy + 479 : ℤ) : ℚ) ⊠ rnd (12368422/1000000))
        pure ((← ssq ((1546083 - 2451545 : ℤ) ⊞ (k : ℚ) ⊠ rnd (295306/10000)) false), 0, 2) else pure r)
    (if yy ≥ -220 then do
        let k ← int2 (rnd (866/1000) ⊞ ((yy + 220 : ℤ) : ℚ) ⊠ rnd (12369/1000))
        pure ((← ssq ((1640641 - 2451545 : ℤ) ⊞ (k : ℚ) ⊠ rnd (295306/10000)) false), 1, 11) else pure r))

/-- the year an ancient month belongs to: `for (nn=2;nn>=0;nn--) if (HS[i]>=ns[nn]) break;`; no year (`nn = -1`)
reads `ns[-1]`: undefined — lunar_ssq.cpp:336-337 -/
def ancientPick (ns : List (ℤ × ℕ × ℕ)) (h : ℤ) : Option (ℤ × ℕ × ℕ) := ns.reverse.find? (fun e => decide (h ≥ e.1))

/-- name of an ancient month — lunar_ssq.cpp:336-339; a negative table index is undefined -/
def ancientName (ns : List (ℤ × ℕ × ℕ)) (h : ℤ) : Option String := do
  let e ← ancientPick ns h
  let f1 ← int2 (((h - e.1 + 15 : ℤ) : ℚ) ⊘ rnd (295306/10000))
  if f1 < 12 then cget strYmc ((f1 + (e.2.2 : ℤ)).tmod 12) else ["十三", "后九"][e.2.1]?

/-- the body of `SSQ::calcY` after the solstice estimate `W` — lunar_ssq.cpp:292-368 -/
def yearFrom (ssq : Calc) (W : ℚ) : Option Tables := do
  let A ← terms ssq W
  let p0 ← ssq (W ⊟ rnd (152/10)) true
  let p1 ← ssq (W ⊟ rnd (304/10)) true
  let A0 ← A[0]?
  let B ← moons ssq A0
  let dx ← lengths B
  let YY ← yearOf A0
  if -721 ≤ YY ∧ YY ≤ -104 then
    let ns ← ancientYears ssq YY
    let ym ← (B.take 14).mapM (fun h => ancientName ns h)
    pure ⟨0, ym, A, B, dx, [p0, p1]⟩
  else
    let (leap, num) ← monthNumbers A B
    let ym ← (List.range 14).mapM (fun (i : ℕ) => do monthName ((← B[i]?) + 2451545) (← num[i]?))
    pure ⟨leap, ym, A, B, dx, [p0, p1]⟩

/-- `SSQ::calcY` — lunar_ssq.cpp:282-368 -/
def calcY (ssq : Calc) (jd : ℚ) : Option Tables := do
  let W ← solsticeW ssq jd
  yearFrom ssq W

/-- index of the lunar month of a day — lunar.cpp:58-60 -/
def monthIndex (HS : List ℤ) (d0 : ℤ) : Option ℤ := do
  let h0 ← HS[0]?
  let mk ← int2 (((d0 - h0 : ℤ) : ℚ) ⊘ 30)
  if mk < 13 then
    let h ← cget HS (mk + 1)
    pure (if h ≤ d0 then mk + 1 else mk)
  else pure mk

/-- index of the last solar term — lunar.cpp:89-91 -/
def termIndex (ZQ : List ℤ) (d0 : ℤ) : Option ℤ := do
  let z0 ← ZQ[0]?
  let qk ← int2 (((d0 - z0 - 7 : ℤ) : ℚ) ⊘ rnd (152184/10000))
  if qk < 23 then
    let z ← cget ZQ (qk + 1)
    pure (if d0 ≥ z then qk + 1 else qk)
  else pure qk

/-- months since the solstice counted by minor terms — lunar.cpp:127-129 -/
def pillarMonth (ZQ : List ℤ) (d0 : ℤ) : Option ℤ := do
  let z0 ← ZQ[0]?
  let mk ← int2 (((d0 - z0 : ℤ) : ℚ) ⊘ rnd (3043685/100000))
  if mk < 12 then
    let z ← cget ZQ (2 * mk + 1)
    pure (if d0 ≥ z then mk + 1 else mk)
  else pure mk

/-- months since the solstice counted by major terms — lunar.cpp:142-144 -/
def zodiacMonth (ZQ : List ℤ) (d0 : ℤ) : Option ℤ := do
  let z0 ← ZQ[0]?
  let mk ← int2 (((d0 - z0 - 15 : ℤ) : ℚ) ⊘ rnd (3043685/100000))
  if mk < 11 then
    let z ← cget ZQ (2 * mk + 2)
    pure (if d0 ≥ z then mk + 1 else mk)
  else pure mk

/-- `floor(D / 365.2422 + 0.5)` assigned to an int — lunar.cpp:103, 118 -/
def yearRound (D : ℤ) : Option ℤ := int2 (((D : ℚ) ⊘ cYear) ⊞ rnd (1/2))

/-- year count from Lichun — lunar.cpp:102-103; the double expression is an exact integer -/
def yearLichun (ZQ : List ℤ) (d0 : ℤ) : Option ℤ := do
  let z3 ← ZQ[3]?
  yearRound (z3 + (if d0 < z3 then -365 else 0) + 5844 - 35)

/-- the search for the first day of the lunar year — lunar.cpp:105-117 -/
def springFrom (t : Tables) (d0 : ℤ) : ℕ → ℕ → ℤ → Option ℤ
  | 0, _, D => some D
  | f + 1, j, D => do
    let nm ← t.ym[j]?
    if nm ≠ "正" ∨ (t.leap = j ∧ j ≠ 0) then springFrom t d0 f (j + 1) D
    else
      let h ← t.HS[j]?
      if d0 < h then pure (h - 365) else springFrom t d0 f (j + 1) h

/-- year count from the first day of the first month — lunar.cpp:105-119 -/
def yearSpring (t : Tables) (d0 : ℤ) : Option ℤ := do
  let D ← springFrom t d0 14 0 (← t.HS[2]?)
  yearRound (D + 5810)

/-- `str_gan[D % 10] + str_zhi[D % 12]` with `D = v + 12000` — lunar.cpp:120-125 -/
def yearName (v : ℤ) : Option String := pillar (v + 12000)

/-- the number whose name is the month pillar — lunar.cpp:131 -/
def monthPillarNum (ZQ : List ℤ) (d0 : ℤ) : Option ℤ := do
  let mk ← pillarMonth ZQ d0
  let z12 ← ZQ[12]?
  let y ← int2 (((z12 + 390 : ℤ) : ℚ) ⊘ cYear)
  pure (mk + y * 12 + 900000)

/-- the month fields of a day -/
structure MonthInfo where
  Lmc : String
  Ldn : ℤ
  Lleap : Bool
  Lmc2 : String
deriving DecidableEq, Repr

/-- the lunar fields of `OB_DAY` — /repo/lunar/lunar_ob.h:19-48 -/
structure LunarDay where
  d0 : ℤ
  Ldi : ℤ
  Ldc : String
  cur_dz : ℤ
  cur_xz : ℤ
  cur_lq : ℤ
  cur_mz : ℤ
  cur_xs : ℤ
  month : MonthInfo
  Ljq : String
  Lyear : ℤ
  Lyear0 : ℤ
  Lyear2 : String
  Lyear3 : String
  Lyear4 : ℤ
  Lmonth : ℤ
  Lmonth2 : String
  Lday2 : String
  XiZ : String
deriving DecidableEq, Repr

/-- month fields read from the tables — lunar.cpp:74-77 -/
def monthInfo (t : Tables) (mk : ℤ) : Option MonthInfo := do
  let nm ← cget t.ym mk
  let dn ← cget t.dx mk
  let n2 ← (if mk < 13 then cget t.ym (mk + 1) else some "未知")
  pure ⟨nm, dn, decide (t.leap ≠ 0 ∧ (t.leap : ℤ) = mk), n2⟩

/-- the lunar fields of day `d0` from the tables — lunar.cpp:58-145; `prev` are the month fields of the
previous day of the sheet -/
def dayFields (t : Tables) (Bd0 d0 : ℤ) (prev : Option MonthInfo) : Option LunarDay := do
  let mk ← monthIndex t.HS d0
  let h ← cget t.HS mk
  let rm ← cget Fest.strRmc (d0 - h)
  let z0 ← t.ZQ[0]?
  let z12 ← t.ZQ[12]?
  let z15 ← t.ZQ[15]?
  let z11 ← t.ZQ[11]?
  let z13 ← t.ZQ[13]?
  let mi ← (if d0 = h ∨ d0 = Bd0 then monthInfo t mk else prev)
  let qk ← termIndex t.ZQ d0
  let z ← cget t.ZQ qk
  let jq ← (if d0 = z then cget strJqmc qk else some "")
  let y1 ← yearLichun t.ZQ d0
  let y0 ← yearSpring t d0
  let y2 ← yearName y1
  let y3 ← yearName y0
  let D ← monthPillarNum t.ZQ d0
  let m2 ← pillar D
  let day2 ← dayName d0
  let zk ← zodiacMonth t.ZQ d0
  let xz ← cget strXz ((zk + 12).tmod 12)
  pure ⟨d0, d0 - h, rm, d0 - z0, d0 - z12, d0 - z15, d0 - z11, d0 - z13, mi, jq, y1, y0, y2, y3, y0 + 1984 + 2698, D.tmod 12, m2, day2, xz⟩

/-- the cache test — lunar.cpp:56-57 -/
def ensure (ssq : Calc) (t : Tables) (d0 : ℤ) : Option Tables := do
  let z0 ← t.ZQ[0]?
  let z24 ← t.ZQ[24]?
  if z0 = 0 ∨ d0 < z0 ∨ d0 ≥ z24 then calcY ssq d0 else pure t

/-- the loop over the days of a month: `n` days left, next day `d0`, month fields of the previous day; returns the
days and the tables left behind -/
def sheetLoop (ssq : Calc) (Bd0 : ℤ) : ℕ → ℤ → Option MonthInfo → Tables → Option (List LunarDay × Tables)
  | 0, _, _, t => some ([], t)
  | n + 1, d0, prev, t => do
    let t ← ensure ssq t d0
    let o ← dayFields t Bd0 d0 prev
    let r ← sheetLoop ssq Bd0 n (d0 + 1) (some o.month) t
    pure (o :: r.1, r.2)

/-- lunar part of `yueLiCalc` for the month of `Bdn` days starting at day `Bd0`, run with tables `t` left by
earlier calls -/
def lunarSheet (ssq : Calc) (t : Tables) (Bd0 : ℤ) (Bdn : ℕ) : Option (List LunarDay × Tables) :=
  sheetLoop ssq Bd0 Bdn Bd0 none t

end Verif.Lunar
