import Verif.DayTables

/-!
# The report of sun, moon and eclipses for an instant — /repo/eph/eph_show.cpp:15-116

Doubles.  Parameters: what `MSC::calc`, `RS_PL::nbj`, `RS_PL::secMax`, `YS_PL::lecMax`, `dt_T` compute (C72, C80, C81, C88) and the texts `m2fm`, `to_str` (C35, C28).
-/

namespace Verif.Cal
open Verif.Fp

/-- `_pi`, `radd` — math_patch.h, eph0.h:17 -/
def piD : ℚ := rnd 3.14159265358979323846
def raddD : ℚ := (180 : ℚ) ⊘ piD

/-- what the report reads of `MSC` after `MSC::calc`: the difference of longitudes `rad2mrad(mHJ - sHJ)`, radii and distances in arc seconds, the site under the axis of the shadow in degrees
(none: `zx_W` is 100), the radii of the shadow, the distance of moon and shadow, and the text of `MSC::toStr(true)` -/
structure SkyNow where
  msHJ : ℚ
  sRad : ℚ
  mRad : ℚ
  dist : ℚ
  centre : Option (ℚ × ℚ)
  eShadow : ℚ
  eShadow2 : ℚ
  e_mRad : ℚ
  distShadow : ℚ
  text : Str

/-- what `RS_PL::nbj` leaves: five points (none: no such point), kind and width -/
structure LimitsNow where
  V : List (Option (ℚ × ℚ))
  Vc : Str
  Vb : Str

/-- what `RS_PL::secMax` and `YS_PL::lecMax` leave: kind, times of contact (0: does not happen), duration, magnitude, ratio -/
structure EclipseNow where
  LX : Str
  T : List ℚ
  dur : ℚ
  sf : ℚ
  b1 : ℚ

/-- the rest of the library -/
structure ReportEnv where
  dt : ℚ → ℚ
  sky : ℚ → SkyNow
  /-- `nasa_r` first -/
  limits : Bool → ℚ → LimitsNow
  secMax : Bool → ℚ → EclipseNow
  lecMax : ℚ → EclipseNow
  fm : ℚ → ℕ → ℕ → Str
  num : ℚ → ℕ → Str

/-- the loop over the times of contact — eph_show.cpp:74-83, 101-110; `td` is the label so far -/
def contactRows (dt : ℚ → ℚ) (utc : Bool) : List (Str × ℚ) → Str → Option Str
  | [], _ => some []
  | (mc, jd) :: r, td =>
    if jd = 0 then contactRows dt utc r td
    else do
      let jd' := if utc then jd ⊟ (((-8 : ℚ) ⊘ 24) ⊞ dt jd) else jd
      let td := if utc then " UTC".toList else td
      let x ← jd2str (jd' ⊞ 2451545)
      let rest ← contactRows dt utc r td
      pure (mc ++ [':'] ++ x ++ td ++ ['\n'] ++ rest)

/-- the solar part — eph_show.cpp:33-90 -/
def solarPart (e : ReportEnv) (m : SkyNow) (utc nasa : Bool) (jd : ℚ) : Option Str := do
  let d0 := m.mRad ⊞ m.sRad
  let s2 := match m.centre with
    | none => "此刻月亮本影中心线不经过地球。".toList
    | some (J, W) => "食中心地标：经 ".toList ++ e.num J 5 ++ " 纬 ".toList ++ e.num W 5
  let s := "日月站心视半径 ".toList ++ e.fm m.sRad 2 0 ++ "及".toList ++ e.fm m.mRad 2 0 ++ " \n\u001b[31m".toList ++ s2 ++ "\u001b[0m\n".toList
    ++ "日月中心视距 ".toList ++ e.fm m.dist 2 0 ++ " 日月半径和 ".toList ++ e.fm d0 2 0 ++ "\n半径差 ".toList ++ e.fm (m.sRad ⊟ m.mRad) 2 0 ++ "\t距外切 ".toList ++ e.fm (m.dist ⊟ d0) 2 0
  let now ← jd2str (jd ⊞ 2451545)
  let s := s ++ "\n--------------------------------------\n".toList ++ now ++ " TD\n--------------------------------------\n".toList ++ "南北界点：经度　　　　纬度\n".toList
  let v := e.limits nasa jd
  let pts := (["食中心点", "本影北界", "本影南界", "半影北界", "半影南界"].zip v.V).map fun x => x.1.toList ++ "：".toList ++ (match x.2 with
    | none => "无　　　　　无\n".toList
    | some (J, W) => e.num J 5 ++ "　".toList ++ e.num W 5 ++ ['\n'])
  let s := s ++ pts.flatten ++ "中心类型：".toList ++ v.Vc ++ "食\n".toList ++ "本影南北界距约".toList ++ v.Vb
  let x := e.secMax nasa jd
  let mc := if x.LX = "环".toList then ["初亏", "食甚", "复圆", "环食始", "环食终"] else ["初亏", "食甚", "复圆", "食既", "生光"]
  let rows ← contactRows e.dt utc ((mc.map String.toList).zip x.T) " TD".toList
  pure (s ++ "\n--------------------------------------\n".toList ++ "时间表 (日".toList ++ x.LX ++ "食)\n".toList ++ rows
    ++ "时长: ".toList ++ e.fm (x.dur ⊠ 86400) 1 1 ++ ['\n'] ++ "食分: ".toList ++ e.num x.sf 5 ++ ['\n'] ++ "月日视径比: ".toList ++ e.num x.b1 5 ++ "(全或环食分)\n".toList
    ++ "是否NASA径比(1是,0否): ".toList ++ (if nasa then ['1'] else ['0']) ++ ['\n'] ++ "食分指日面直径被遮比例\n\n".toList)

/-- the lunar part — eph_show.cpp:93-113 -/
def lunarPart (e : ReportEnv) (m : SkyNow) (utc : Bool) (jd : ℚ) : Option Str := do
  let d0 := m.e_mRad ⊞ m.eShadow
  let d2 := m.e_mRad ⊞ m.eShadow2
  let s := "本影半径 ".toList ++ e.fm m.eShadow 2 0 ++ " 半影半径 ".toList ++ e.fm m.eShadow2 2 0 ++ " 月亮地心视半径 ".toList ++ e.fm m.e_mRad 2 0 ++ ['\n'] ++ "影月中心距 ".toList
    ++ e.fm m.distShadow 2 0 ++ " 影月半径和 ".toList ++ e.fm d0 2 0 ++ " \n距相切 \u001b[31m".toList ++ e.fm (m.distShadow ⊟ d0) 2 0 ++ "\u001b[0m 距第二相切 ".toList ++ e.fm (m.distShadow ⊟ d2) 2 0
  let x := e.lecMax jd
  let rows ← contactRows e.dt utc ((["初亏", "食甚", "复圆", "半影食始", "半影食终", "食既", "生光"].map String.toList).zip x.T) " TD".toList
  pure (s ++ "\n\n时间表(月".toList ++ x.LX ++ "食)\n".toList ++ rows ++ "食分:".toList ++ e.num x.sf 5 ++ ['\n'] ++ "食分指月面直径被遮比例\n\n".toList)

/-- `rysCalc(d, is_utc, nasa_r)` — eph_show.cpp:15-116 -/
def rysCalc (e : ReportEnv) (d : Date) (utc nasa : Bool) : Option Str := do
  let j ← toJD d
  let jd := j ⊟ 2451545
  let jd := if utc then jd ⊞ (((-8 : ℚ) ⊘ 24) ⊞ e.dt jd) else jd
  let m := e.sky jd
  let s : Str := []
  let s ← (if m.msHJ < (3 : ℚ) ⊘ raddD ∨ (357 : ℚ) ⊘ raddD < m.msHJ then solarPart e m utc nasa jd else some s)
  let s ← (if (170 : ℚ) ⊘ raddD < m.msHJ ∧ m.msHJ < (190 : ℚ) ⊘ raddD then lunarPart e m utc jd else some s)
  pure (s ++ m.text)

end Verif.Cal
