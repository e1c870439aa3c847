import Verif.FestivalData
import Verif.NumText
import Verif.GanZhi

/-!
# Festivals of a day: `OBA::getDayName` and `OBB::getDayName2`

Strings here are byte strings (`Str`, one element per byte, codes below 256): the code takes byte offsets into UTF-8
text.  `b "…"` is the UTF-8 encoding of a literal.
-/

namespace Verif.Fest

open Verif.NumText

/-- UTF-8 encoding of one character, each byte as a `Char` below 256 -/
def utf8 (c : Char) : Str :=
  let n := c.toNat
  if n < 0x80 then [c]
  else if n < 0x800 then [Char.ofNat (0xC0 + n / 64), Char.ofNat (0x80 + n % 64)]
  else if n < 0x10000 then [Char.ofNat (0xE0 + n / 4096), Char.ofNat (0x80 + n / 64 % 64), Char.ofNat (0x80 + n % 64)]
  else [Char.ofNat (0xF0 + n / 262144), Char.ofNat (0x80 + n / 4096 % 64), Char.ofNat (0x80 + n / 64 % 64), Char.ofNat (0x80 + n % 64)]

/-- bytes of a string literal (the sources are UTF-8) -/
def b (s : String) : Str := s.toList.flatMap utf8

/-- `s.substr(pos, n)`; throws (`none`) when `pos > size()` -/
def substr (s : Str) (pos n : ℕ) : Option Str := if pos ≤ s.length then some ((s.drop pos).take n) else none

/-- `s.length() - k` in `size_t` -/
def lenMinus (s : Str) (k : ℕ) : ℕ := if k ≤ s.length then s.length - k else 2^64 + s.length - k

/-- the festival fields of `OB_DAY` — /repo/lunar/lunar_ob.h:57-60 -/
structure Marks where
  Fjia : Bool
  A : Str
  B : Str
  C : Str
  deriving DecidableEq

/-- `if(type=="#") r.A += s + " ", r.Fjia = 1; if(type=="I") r.B += …; if(type==".") r.C += …` — lunar_ob.cpp:153-155 and
171-173 -/
def addByType (r : Marks) (type s : Str) : Marks :=
  let r := if type = b "#" then { r with A := r.A ++ s ++ b " ", Fjia := true } else r
  let r := if type = b "I" then { r with B := r.B ++ s ++ b " " } else r
  if type = b "." then { r with C := r.C ++ s ++ b " " } else r

/-- `my_stoi` with a clean `errno`; `none` is an exception -/
def stoi (s : Str) : Option ℤ := match (myStoi s false).1 with
  | .ok n => some n
  | _ => none

/-- `(v<10?"0":"")+to_str(v)` — lunar_ob.cpp:127-128 -/
def two0 (v : ℤ) : Str := (if v < 10 then b "0" else []) ++ decimal v

/-- body of the loop over the fixed-date table — lunar_ob.cpp:137-156 -/
def fixedStep (y : ℤ) (d0 : Str) (r : Marks) (s : Str) : Option Marks := do
  if (← substr s 0 2) ≠ d0 then pure r
  else
    let s ← substr s 2 (lenMinus s 2)
    let type ← substr s 0 1
    if (← substr s 5 1) = b "-" then
      let lo ← stoi (← substr s 1 4)
      if y < lo then pure r
      else
        let hi ← stoi (← substr s 6 4)
        if y > hi then pure r
        else
          let s ← substr s 10 (lenMinus s 10)
          pure (addByType r type s)
    else
      if y < 1850 then pure r
      else
        let s ← substr s 1 (lenMinus s 1)
        pure (addByType r type s)

/-- body of the loop over the weekday table — lunar_ob.cpp:164-174 -/
def weeklyStep (w w2 : Str) (r : Marks) (s : Str) : Option Marks := do
  let s2 ← substr s 0 4
  if s2 ≠ w ∧ s2 ≠ w2 then pure r
  else
    let type ← substr s 4 1
    let s ← substr s 5 (lenMinus s 5)
    pure (addByType r type s)

/-- Gregorian inputs of `getDayName` (fields of `OB_DAY`) -/
structure DayIn where
  y : ℤ
  m : ℤ
  d : ℤ
  week : ℤ
  week0 : ℤ
  weeki : ℤ
  weekN : ℤ

/-- `OBA::getDayName(r)` — lunar_ob.cpp:115-175.  `r` carries the festival fields on entry (`Fjia` is not initialised by
anybody before, so it is whatever was in memory).  `sFtv[m-1]` outside the table is undefined. -/
def getDayName (u : DayIn) (r : Marks) : Option Marks := do
  let m0 := two0 u.m
  let d0 := two0 u.d
  let r := if u.week = 0 ∨ u.week = 6 then { r with Fjia := true } else r
  if u.m - 1 < 0 then none else
  let tbl ← sFtv[(u.m - 1).toNat]?
  let r ← (tbl.map b).foldlM (fixedStep u.y d0) r
  let w1 := if u.week ≥ u.week0 then u.weeki + 1 else u.weeki
  let w2 := if u.weeki = u.weekN - 1 then 5 else w1
  let w := m0 ++ decimal w1 ++ decimal u.week
  let w' := m0 ++ decimal w2 ++ decimal u.week
  (wFtv.map b).foldlM (weeklyStep w w') r

/-- lunar inputs of `getDayName2` (fields of `OB_DAY`) -/
structure LunarIn where
  Lmc : Str
  Ldc : Str
  Lleap : Str
  Lmc2 : Str
  Ldn : ℤ
  Ljq : Str
  cur_dz : ℤ
  cur_xz : ℤ
  cur_lq : ℤ
  cur_mz : ℤ
  cur_xs : ℤ
  Lday2 : Str

/-- `if(d==key) r.A += text` -/
def onA (d : Str) (key text : String) (fj : Bool) (r : Marks) : Marks :=
  if d = b key then { r with A := r.A ++ b text, Fjia := r.Fjia || fj } else r

/-- `if(d==key) r.B += text` -/
def onB (d : Str) (key text : String) (fj : Bool) (r : Marks) : Marks :=
  if d = b key then { r with B := r.B ++ b text, Fjia := r.Fjia || fj } else r

/-- `if(d==key) r.C += text` -/
def onC (d : Str) (key text : String) (r : Marks) : Marks :=
  if d = b key then { r with C := r.C ++ b text } else r

/-- festivals by lunar date — lunar_ob.cpp:258-279 -/
def lunarDates (d : Str) (r : Marks) : Marks :=
  let r := onA d "正月初一" "春节 " true r
  let r := onB d "正月初二" "大年初二 " true r
  let r := onA d "五月初五" "端午节 " true r
  let r := onA d "八月十五" "中秋节 " true r
  let r := onA d "正月十五" "元宵节 " false r
  let r := onC d "正月廿五" "填仓节 " r
  let r := onC d "正月廿九" "送穷日 " r
  let r := onB d "二月初二" "春龙节(龙抬头) " false r
  let r := onB d "三月初三" "北帝诞 " false r
  let r := onB d "三月廿三" "天后诞 妈祖诞 " false r
  let r := onB d "四月初八" "牛王诞 " false r
  let r := onB d "五月十三" "关帝诞 " false r
  let r := onB d "六月初六" "姑姑节 天贶节 " false r
  let r := onB d "七月初七" "七夕(中国情人节,乞巧节,女儿节 ) " false r
  let r := onB d "七月十五" "中元节 鬼节" false r
  let r := onB d "九月初九" "重阳节 " false r
  let r := onB d "十月初一" "祭祖节(十月朝) " false r
  let r := onB d "十月十五" "下元节 " false r
  onB d "冬月初八" "腊八节 " false r

/-- New Year's Eve and Little New Year — lunar_ob.cpp:280-285 -/
def yearEnd (d : Str) (Ldn : ℤ) (r : Marks) : Marks :=
  let r := if d = b "腊月三十" ∧ Ldn = 30 then { r with A := r.A ++ b "除夕 ", Fjia := true } else r
  let r := if d = b "腊月廿九" ∧ Ldn = 29 then { r with A := r.A ++ b "除夕 ", Fjia := true } else r
  onB d "腊月廿三" "小年 " false r

/-- solar term — lunar_ob.cpp:286-290 -/
def solarTerm (jq : Str) (r : Marks) : Marks :=
  if jq.length ≠ 0 then
    if jq = b "清明" then { r with A := r.A ++ (jq ++ b " "), Fjia := true } else { r with B := r.B ++ (jq ++ b " ") }
  else r

/-- `str_num` — lunar_ob.cpp:6 -/
def strNum : List String := ["零", "一", "二", "三", "四", "五", "六", "七", "八", "九", "十"]

/-- counting of nines — lunar_ob.cpp:294-300; `none` when `str_num` is read out of bounds -/
def nines (cur_dz : ℤ) (r : Marks) : Option Marks := do
  if cur_dz ≥ 0 ∧ cur_dz < 81 then
    let w ← strNum[(cur_dz.tdiv 9 + 1).toNat]?
    if cur_dz.tmod 9 = 0 then pure { r with B := r.B ++ (b "『" ++ b w ++ b "九』 ") }
    else pure { r with C := r.C ++ (b w ++ b "九第" ++ decimal (cur_dz.tmod 9 + 1) ++ b "天 ") }
  else pure r

/-- dog days and plum rains — lunar_ob.cpp:302-308 -/
def dogDays (u : LunarIn) (r : Marks) : Option Marks := do
  let w ← substr u.Lday2 0 3
  let w2 ← substr u.Lday2 3 6
  let r := if u.cur_xz ≥ 20 ∧ u.cur_xz < 30 ∧ w = b "庚" then { r with B := r.B ++ b "初伏 " } else r
  let r := if u.cur_xz ≥ 30 ∧ u.cur_xz < 40 ∧ w = b "庚" then { r with B := r.B ++ b "中伏 " } else r
  let r := if u.cur_lq ≥ 0 ∧ u.cur_lq < 10 ∧ w = b "庚" then { r with B := r.B ++ b "末伏 " } else r
  let r := if u.cur_mz ≥ 0 ∧ u.cur_mz < 10 ∧ w = b "丙" then { r with B := r.B ++ b "入梅 " } else r
  pure (if u.cur_xs ≥ 0 ∧ u.cur_xs < 12 ∧ w2 = b "未" then { r with B := r.B ++ b "出梅 " } else r)

/-- `OBB::getDayName2(r)` — lunar_ob.cpp:252-309 -/
def getDayName2 (u : LunarIn) (r : Marks) : Option Marks := do
  let d := u.Lmc ++ b "月" ++ u.Ldc
  let r := if u.Lleap ≠ b "闰" then lunarDates d r else r
  let r := if u.Lmc2 = b "正" then yearEnd d u.Ldn r else r
  let r := solarTerm u.Ljq r
  let r ← nines u.cur_dz r
  dogDays u r

/-- `str_rmc` — lunar_ob.cpp:15 -/
def strRmc : List String := ["初一","初二","初三","初四","初五","初六","初七","初八","初九","初十","十一","十二","十三","十四","十五","十六","十七","十八","十九","二十","廿一","廿二","廿三","廿四","廿五","廿六","廿七","廿八","廿九","三十"]

end Verif.Fest
