import Verif.Calendar
import Verif.Text

/-! # Model of /repo/mylib/tool.cpp: timeStr (22-38), DD2str (173-199), JD2str (201-206) -/

namespace Verif.Cal
open Verif.Fp

/-- `"0" + to_str(x)` cut to its last two characters — tool.cpp:34-37, 178-179, 188-196 -/
def two (x : ℤ) : Option Str := lastK 2 ('0' :: decimal x)

/-- carry chain of `DD2str` — tool.cpp:181-185; `s` is already `int2(r.s + .5)` -/
def carry (h m s : ℤ) : ℤ × ℤ × ℤ :=
  let (m, s) := if s ≥ 60 then (m + 1, s - 60) else (m, s)
  let (h, m) := if m ≥ 60 then (h + 1, m - 60) else (h, m)
  (h, m, s)

/-- `DD2str` — /repo/mylib/tool.cpp:174-199 -/
def dd2str (r : Date) : Option Str := do
  let s ← int2 (r.s ⊞ (1/2))
  let (h, m, s) := carry r.h r.m s
  let Y ← lastK 5 (' ' :: ' ' :: ' ' :: ' ' :: ' ' :: decimal r.Y)
  let M ← two r.M
  let D ← two r.D
  let hh ← two h
  let mm ← two m
  let ss ← two s
  pure (Y ++ '-' :: M ++ '-' :: D ++ ' ' :: hh ++ ':' :: mm ++ ':' :: ss)

/-- `JD2str` — /repo/mylib/tool.cpp:202-206 -/
def jd2str (jd : ℚ) : Option Str := do
  let r ← setFromJD jd
  dd2str r

/-- `timeStr` — /repo/mylib/tool.cpp:23-38 -/
def timeStr (jd : ℚ) : Option Str := do
  let jd := jd ⊞ (1/2)
  let d ← int2 jd
  let jd := jd ⊟ (d : ℚ)
  let s ← int2 ((jd ⊠ 86400) ⊞ (1/2))
  let h ← int2 ((s : ℚ) ⊘ 3600)
  let s ← i32 (s - h * 3600)
  let m ← int2 ((s : ℚ) ⊘ 60)
  let s ← i32 (s - m * 60)
  let H ← two h
  let M ← two m
  let S ← two s
  pure (H ++ ':' :: M ++ ':' :: S)

example : jd2str (4903090/2) = some " 2000-01-01 12:00:00".toList := by decide +kernel
example : timeStr (2451545 + 1/3) = some "20:00:00".toList := by decide +kernel

end Verif.Cal
