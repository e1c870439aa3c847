import Verif.SsqData
import Verif.StrOps
import Verif.CBase

/-!
# Model of `SSQ::jieya` and `SSQ::calc`

/repo/lunar/lunar_ssq.cpp:86-171, 220-273.  The four series `qi_low`, `so_low`, `qi_high`, `so_high` (lines 173-218) are
parameters: any functions from doubles to doubles.
-/

namespace Verif.Ssq
open Verif.Fp Verif.StrOps

/-- one `string_replace(str, c, d)` -/
def replStep (s : List Char) (r : Char × String) : Option (List Char) := stringReplace (s.length + 1) s [r.1] r.2.toList

/-- `SSQ::jieya` on the compressed string `s`: the replacements one after the other — lunar_ssq.cpp:132-164 -/
def jieya (s : List Char) : Option (List Char) := replacements.foldlM replStep s

/-- adjacent string literals are concatenated -/
def chars (l : List (List Char)) : List Char := l.flatten

/-- `SSQ::suoKB` as doubles — lunar_ssq.cpp:27-41 -/
def suoKB : List ℚ := suoKBDec.map rnd
/-- `SSQ::qiKB` as doubles — lunar_ssq.cpp:43-81 -/
def qiKB : List ℚ := qiKBDec.map rnd

/-- `for (i = 0; i < L; i += 2) if (x < B[i + 2]) break;` — lunar_ssq.cpp:246-248; reading outside `B` is undefined -/
def rowFind (B : List ℚ) (x : ℚ) : ℕ → ℕ → Option ℕ
  | 0, _ => none
  | f + 1, i =>
    if i < B.length then do
      let b ← B[i + 2]?
      if x < b then pure i else rowFind B x f (i + 2)
    else some i

/-- the four series -/
structure Series where
  qiLow : ℚ → ℚ
  soLow : ℚ → ℚ
  qiHigh : ℚ → ℚ
  soHigh : ℚ → ℚ

/-- `M_PI` -/
def mPi : ℚ := 884279719003555/281474976710656
/-- 365.2422 and 29.5306 as doubles -/
def cYear : ℚ := rnd (3652422/10000)
def cMonth : ℚ := rnd (295306/10000)

/-- argument of the solar-term series: `floor((jd + pc - 2451259) / 365.2422 * 24) * M_PI / 12` — lunar_ssq.cpp:238, 260 -/
def qiArg (jd : ℚ) : ℚ := (((⌊(jd ⊞ 7 ⊟ 2451259) ⊘ cYear ⊠ 24⌋ : ℤ) : ℚ) ⊠ mPi) ⊘ 12
/-- argument of the new-moon series: `floor((jd + pc - 2451551) / 29.5306) * M_PI * 2` — lunar_ssq.cpp:240, 265 -/
def soArg (jd : ℚ) : ℚ := (((⌊(jd ⊞ 14 ⊟ 2451551) ⊘ cMonth⌋ : ℤ) : ℚ) ⊠ mPi) ⊠ 2

/-- the mean-motion branch — lunar_ssq.cpp:244-254.  `floor` is exact; the sums of integers of this size are exact. -/
def meanBranch (B : List ℚ) (pc jd : ℚ) : Option ℤ := do
  let i ← rowFind B (jd ⊞ pc) (B.length + 1) 0
  let b ← B[i]?
  let k ← B[i + 1]?
  let n : ℤ := ⌊((jd ⊞ pc) ⊟ b) ⊘ k⌋
  let D : ℤ := ⌊(b ⊞ k ⊠ (n : ℚ)) ⊞ rnd (1/2)⌋
  let D : ℤ := if D = 1683460 then D + 1 else D
  i32 (D - 2451545)

/-- the correction digit: reading past the terminating NUL is undefined — lunar_ssq.cpp:261, 266 -/
def digit (str : List Char) (i : ℤ) : Option Char := if 0 ≤ i then (str ++ ['\x00'])[i.toNat]? else none

/-- the corrected-series branch — lunar_ssq.cpp:256-271 -/
def lowBranch (E : Series) (str : List Char) (f2 jd : ℚ) (qs : Bool) : Option ℤ := do
  let D : ℤ := if qs then ⌊E.qiLow (qiArg jd) ⊞ rnd (1/2)⌋ else ⌊E.soLow (soArg jd) ⊞ rnd (1/2)⌋
  let i ← (if qs then int2 ((jd ⊟ f2) ⊘ cYear ⊠ 24) else int2 ((jd ⊟ f2) ⊘ cMonth))
  let n ← digit str i
  if n = '1' then i32 (D + 1) else if n = '2' then i32 (D - 1) else i32 D

/-- `SSQ::calc(jd0, qs)` — lunar_ssq.cpp:220-273 -/
def ssqCalc (E : Series) (strSo strQi : List Char) (jd0 : ℚ) (qs : Bool) : Option ℤ := do
  let jd := jd0 ⊞ 2451545
  let B := if qs then qiKB else suoKB
  let pc : ℚ := if qs then 7 else 14
  let f1 := (← B[0]?) ⊟ pc
  let f2 := (← B[B.length - 1]?) ⊟ pc
  let f3 : ℚ := 2436935
  if jd < f1 ∨ jd ≥ f3 then
    if qs then int2 (E.qiHigh (qiArg jd) ⊞ rnd (1/2)) else int2 (E.soHigh (soArg jd) ⊞ rnd (1/2))
  else if jd ≥ f1 ∧ jd < f2 then meanBranch B pc jd
  else if jd ≥ f2 ∧ jd < f3 then lowBranch E (if qs then strQi else strSo) f2 jd qs
  else some 0

end Verif.Ssq
