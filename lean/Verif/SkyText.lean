import Verif.AngleText
import Verif.AngleNorm
import Verif.DateText
import Verif.Props.Grisu

/-!
# The text of the sun-moon panel — /repo/eph/eph_msc.cpp:182-215, `MSC::toStr`

Doubles.  The static members of `MSC` (what `MSC::calc` computed, C88) are the record `Sky`; `mem` is the memory behind the power table (C59).
-/

namespace Verif.SkyText
open Verif.Fp Verif.Cal Verif.Dtoa

structure Sky where
  pty : ℚ
  zty : ℚ
  sc : ℚ
  mIll : ℚ
  mHJ : ℚ
  sHJ : ℚ
  mHW : ℚ
  sHW : ℚ
  mCJ : ℚ
  sCJ : ℚ
  mCW : ℚ
  sCW : ℚ
  mR : ℚ
  sR : ℚ
  mPJ : ℚ
  sPJ : ℚ
  mPW : ℚ
  sPW : ℚ
  mShiJ : ℚ
  sShiJ : ℚ
  mRad : ℚ
  sRad : ℚ
  T : ℚ
  dt : ℚ
  dL : ℚ
  dE : ℚ
  E : ℚ

/-- `s + text`, the text computed by a function that may fail -/
def cat (s a : Option Str) : Option Str := do
  let s ← s
  let a ← a
  some (s ++ a)

/-- `s + "…"` -/
def lit (s : Option Str) (t : String) : Option Str := cat s (some t.toList)

/-- `to_str(x, p)` of a double — my_string.h:200-222 with the default arguments -/
def num (mem : ℕ → Option ℕ) (x : ℚ) (p : ℕ) : Option Str := toStrDec (decide (x < 0)) (Grisu.digitsOf mem |x|) p 0 false

/-- `rad2str(d, tim)` — tool.cpp:86-89 -/
def rad2str (d : ℚ) (tim : Bool) : Option Str := AngleText.rad2strE d tim 2

/-- `m2fm(v, fx, fs)` — tool.cpp:110-125 -/
def fm (mem : ℕ → Option ℕ) (v : ℚ) (fx fs : ℤ) : Option Str := MinSec.m2fm (Grisu.digitsOf mem) v fx fs

/-- `MSC::dL / pi2 * 360 * 3600` — eph_msc.cpp:208-209 -/
def arcsec (x : ℚ) : ℚ := ((x ⊘ AngleNorm.P) ⊠ 360) ⊠ 3600

/-- `MSC::toStr(fs)` — eph_msc.cpp:182-215 -/
def skyText (mem : ℕ → Option ℕ) (r : Sky) (fs : Bool) : Option Str :=
  let s := lit (some []) "-------------------------------------------\n"
  let s := lit (cat (lit (cat (lit s "平太阳 ") (timeStr r.pty)) " 真太阳 ") (timeStr r.zty)) "\n"
  let s := lit (cat (lit (cat (lit s "时差 ") (fm mem (r.sc ⊠ 86400) 2 1)) " 月亮被照亮 ") (num mem (r.mIll ⊠ 100) 2)) "% "
  let s := lit s "\n"
  let s := lit s "-------------------------------------------\n表一       月亮            太阳\n"
  let s := lit (cat (lit (cat (lit s "视黄经 ") (rad2str r.mHJ false)) "  ") (rad2str r.sHJ false)) "\n"
  let s := lit (cat (lit (cat (lit s "视黄纬 ") (rad2str r.mHW false)) "  ") (rad2str r.sHW false)) "\n"
  let s := lit (cat (lit (cat (lit s "视赤经 ") (rad2str r.mCJ true)) "  ") (rad2str r.sCJ true)) "\n"
  let s := lit (cat (lit (cat (lit s "视赤纬 ") (rad2str r.mCW false)) "  ") (rad2str r.sCW false)) "\n"
  let s := lit (lit (cat (lit (cat (lit s "距离    ") (num mem r.mR 2)) "千米    ") (num mem r.sR 8)) "AU") "\n"
  let s := lit s "-------------------------------------------\n表二       月亮            太阳\n"
  let s := lit (cat (lit (cat (lit s "方位角 ") (rad2str r.mPJ false)) "  ") (rad2str r.sPJ false)) "\n"
  let s := lit (cat (lit (cat (lit s "高度角 ") (rad2str r.mPW false)) "  ") (rad2str r.sPW false)) "\n"
  let s := lit (cat (lit (cat (lit s "时角   ") (rad2str r.mShiJ false)) "  ") (rad2str r.sShiJ false)) "\n"
  let s := lit (cat (lit (cat (lit s "视半径   ") (fm mem r.mRad 2 0)) "       ") (fm mem r.sRad 2 0)) " (观测点)\n"
  if fs then
    let s := lit s "-------------------------------------------\n"
    let s := cat (lit s "力学时") (jd2str (r.T ⊞ 2451545))
    let s := lit (cat (lit s " ΔT=") (num mem (r.dt ⊠ 86400) 1)) "秒\n"
    let s := lit (cat (lit s "黄经章 ") (num mem (arcsec r.dL) 2)) "\" "
    let s := lit (cat (lit s "交角章 ") (num mem (arcsec r.dE) 2)) "\" "
    let s := lit (cat (lit s "ε=") (rad2str r.E false)) "\n"
    lit s "-------------------------------------------\n"
  else s

end Verif.SkyText
