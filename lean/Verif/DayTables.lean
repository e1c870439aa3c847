import Verif.DateText

/-!
# The panel of rising and setting and the two yearly tables — /repo/eph/eph_show.cpp:235-298

Doubles.  Parameters: what `SZJ::St`, `SZJ::Mt`, `sunShengJ`, `dt_T` return, and the text of the equation of time (`m2fm(pty_zty(...)*86400, 2, 2)`, C35 and C70).
-/

namespace Verif.Cal
open Verif.Fp

/-- `SJ` — eph_szj.h: transits, rising and setting, civil, nautical and astronomical twilight, remark -/
structure SJ where
  z : ℚ
  x : ℚ
  s : ℚ
  j : ℚ
  c : ℚ
  h : ℚ
  c2 : ℚ
  h2 : ℚ
  c3 : ℚ
  h3 : ℚ
  sm : Str

/-- `8 / 24.0` -/
def zone : ℚ := (8 : ℚ) ⊘ 24

/-- `JD2str(t + c)`, `c = J2000 + 8 / 24.0` — eph_show.cpp:245-254 -/
def beijing (t : ℚ) : Option Str := jd2str (t ⊞ (2451545 ⊞ zone))

/-- two labelled instants in one line — e.g. eph_show.cpp:248 -/
def pair (a : String) (ta : ℚ) (b : String) (tb : ℚ) : Option Str := do
  let x ← beijing ta
  let y ← beijing tb
  pure (a.toList ++ x ++ b.toList ++ y ++ ['\n'])

/-- `shengjiang(y, m, d)` — eph_show.cpp:235-262; `sq` is the difference `L/2π` in days (the code computes `sq/24` with `sq = L/2π*24`), `sun` and `moon` are `SZJ::St` and `SZJ::Mt` -/
def shengjiang (sun moon : ℚ → SJ) (sq : ℚ) (y m d : ℤ) : Option Str := do
  let j ← toJD ⟨y, m, d, 12, 0, 0⟩
  let jd := j ⊟ 2451545
  let r := sun (jd ⊟ sq)
  let l1 ← pair "太阳升起 " r.s " 太阳降落 " r.j
  let l2 ← pair "日上中天 " r.z " 日下中天 " r.x
  let l3 ← pair "民用天亮 " r.c " 民用天黑 " r.h
  let l4 ← pair "航海天亮 " r.c2 " 航海天黑 " r.h2
  let l5 ← pair "天文天亮 " r.c3 " 天文天黑 " r.h3
  let n1 ← timeStr ((r.j ⊟ r.s) ⊟ (1/2))
  let n2 ← timeStr ((r.h ⊟ r.c) ⊟ (1/2))
  let q := moon (jd ⊟ sq)
  let l6 ← pair "月亮升起 " q.s " 月亮降落 " q.j
  let l7 ← pair "月上中天 " q.z " 月下中天 " q.x
  pure ("\u001b[31;1m北京时间(转为格林尼治时间请减8小时)：\u001b[0m\n".toList ++ l1 ++ l2 ++ l3 ++ l4 ++ l5
    ++ "日照长度  ".toList ++ n1 ++ " \n日光长度  ".toList ++ n2 ++ ['\n']
    ++ (if r.sm.length ≠ 0 then "注：".toList ++ r.sm ++ ['\n'] else []) ++ l6 ++ l7)

/-- `std::string::substr(p, n)`; `none`: the exception when `p` is behind the end -/
def substr (s : Str) (p n : ℕ) : Option Str := if p ≤ s.length then some ((s.drop p).take n) else none

/-- one row of `shengjiang2` — eph_show.cpp:275-279 -/
def sunRow (rise set : ℚ → ℚ) (jd : ℚ) (i : ℕ) : Option Str := do
  let t := (rise (jd ⊞ i) ⊞ 2451545) ⊞ zone
  let a ← jd2str t
  let a ← substr a 1 14
  let t := (set (jd ⊞ i) ⊞ 2451545) ⊞ zone
  let b ← timeStr t
  pure ("  \u001b[31m".toList ++ a ++ "\u001b[0m  ".toList ++ b ++ ['\n'])

/-- `shengjiang2(y)` — eph_show.cpp:264-284; `rise`, `set` are `sunShengJ(·, L, fa, -1)`, `sunShengJ(·, L, fa, 1)` -/
def shengjiang2 (rise set : ℚ → ℚ) (y : ℤ) : Option Str := do
  let j ← toJD ⟨y, 1, 1, 12, 0, 0⟩
  let jd := j ⊟ 2451545
  let rows ← (List.range 368).mapM (sunRow rise set jd)
  pure (decimal y ++ "年太阳年度升降表\n        升        降\n".toList ++ rows.flatten)

/-- one row of `shengjiang3` — eph_show.cpp:293-296; `dt` is `dt_T`, `eq x` the text of the equation of time at `x` days -/
def eqRow (dt : ℚ → ℚ) (eq : ℚ → Str) (jd : ℚ) (i : ℕ) : Option Str := do
  let D := ((jd ⊞ i) ⊟ zone) ⊟ 2451545
  let D := D ⊞ dt D
  let a ← jd2str (jd ⊞ i)
  let a ← substr a 0 11
  pure (a ++ " \u001b[31m".toList ++ eq D ++ "\u001b[0m\n".toList)

/-- `shengjiang3(y)` — eph_show.cpp:286-300 -/
def shengjiang3 (dt : ℚ → ℚ) (eq : ℚ → Str) (y : ℤ) : Option Str := do
  let jd ← toJD ⟨y, 1, 1, 12, 0, 0⟩
  let rows ← (List.range 368).mapM (eqRow dt eq jd)
  pure ("太阳时差表(所用时间为北京时间每日12点)\n".toList ++ rows.flatten)

end Verif.Cal
