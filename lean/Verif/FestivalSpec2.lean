import Verif.FestivalSpec
import Verif.Festival

/-!
# Festivals: the specification in terms of calendar dates
-/

namespace Verif.Fest

/-- names joined the way the day record shows them: each followed by a blank -/
def texts (names : List String) : Str := names.flatMap (fun n => b n ++ b " ")

/-- the fixed-date festival falls on `y-m-d` -/
def Fixed.On (f : Fixed) (y m d : ℤ) : Prop :=
  f.month = m ∧ f.day = d ∧ f.first ≤ y ∧ (∀ l, f.last = some l → y ≤ l)

instance (f : Fixed) (y m d : ℤ) : Decidable (f.On y m d) :=
  match h : f.last with
  | none => decidable_of_iff (f.month = m ∧ f.day = d ∧ f.first ≤ y) (by simp [Fixed.On, h])
  | some l => decidable_of_iff (f.month = m ∧ f.day = d ∧ f.first ≤ y ∧ y ≤ l) (by simp [Fixed.On, h])

/-- the weekday festival falls on the day of month `m` that is the `n`-th `wd` of its month (the last one iff `last`) -/
def Weekly.On (f : Weekly) (m wd : ℤ) (n : ℕ) (last : Prop) : Prop :=
  f.month = m ∧ f.weekday = wd ∧ (f.nth = n ∨ (f.nth = 5 ∧ last))

instance (f : Weekly) (m wd : ℤ) (n : ℕ) (last : Prop) [Decidable last] : Decidable (f.On m wd n last) := by
  unfold Weekly.On; infer_instance

/-- names of the festivals of class `c` on the day: first the fixed dates, then the weekday festivals -/
def namesOn (c : Cls) (y m d wd : ℤ) (n : ℕ) (last : Prop) [Decidable last] : List String :=
  (fixedDays.filter (fun f => decide (f.cls = c ∧ f.On y m d))).map (·.name) ++
  (weeklyDays.filter (fun f => decide (f.cls = c ∧ f.On m wd n last))).map (·.name)

/-- a festival on a day of a lunar month: month name, day (1 = first), class, text, day off -/
structure LunarFest where
  month : String
  day : ℕ
  cls : Cls
  text : String
  off : Bool

/-- traditional festivals by lunar date (leap months have none); the Laba festival is not in this list: see
`c16_laba_missing` -/
def lunarFestivals : List LunarFest := [
  ⟨"正", 1, .A, "春节 ", true⟩, ⟨"正", 2, .B, "大年初二 ", true⟩, ⟨"五", 5, .A, "端午节 ", true⟩, ⟨"八", 15, .A, "中秋节 ", true⟩,
  ⟨"正", 15, .A, "元宵节 ", false⟩, ⟨"正", 25, .C, "填仓节 ", false⟩, ⟨"正", 29, .C, "送穷日 ", false⟩,
  ⟨"二", 2, .B, "春龙节(龙抬头) ", false⟩, ⟨"三", 3, .B, "北帝诞 ", false⟩, ⟨"三", 23, .B, "天后诞 妈祖诞 ", false⟩,
  ⟨"四", 8, .B, "牛王诞 ", false⟩, ⟨"五", 13, .B, "关帝诞 ", false⟩, ⟨"六", 6, .B, "姑姑节 天贶节 ", false⟩,
  ⟨"七", 7, .B, "七夕(中国情人节,乞巧节,女儿节 ) ", false⟩, ⟨"七", 15, .B, "中元节 鬼节", false⟩, ⟨"九", 9, .B, "重阳节 ", false⟩,
  ⟨"十", 1, .B, "祭祖节(十月朝) ", false⟩, ⟨"十", 15, .B, "下元节 ", false⟩]

/-- a lunar date as the calendar shows it -/
structure LunarDate where
  /-- month name (bytes), without "月" -/
  month : Str
  /-- 1..30 -/
  day : ℕ
  leap : Bool
  /-- length of the month -/
  len : ℤ
  /-- name of the following month -/
  nextMonth : Str

/-- a mark of a day: class, text, and whether it makes the day a day off -/
abbrev Mark := Cls × Str × Bool

/-- marks of a lunar date -/
def lunarMarks (u : LunarDate) : List Mark :=
  (if u.leap then [] else (lunarFestivals.filter (fun f => decide (u.month = b f.month ∧ u.day = f.day))).map (fun f => (f.cls, b f.text, f.off))) ++
  (if u.nextMonth = b "正" ∧ u.month = b "腊" ∧ (u.day : ℤ) = u.len then [(Cls.A, b "除夕 ", true)] else []) ++
  (if u.nextMonth = b "正" ∧ u.month = b "腊" ∧ u.day = 23 then [(Cls.B, b "小年 ", false)] else [])

/-- mark of a solar term (`jq` its name, empty on other days): a class-B mark, except that Qingming is a holiday -/
def termMarks (jq : Str) : List Mark :=
  if jq = [] then [] else if jq = b "清明" then [(Cls.A, jq ++ b " ", true)] else [(Cls.B, jq ++ b " ", false)]

/-- day `n` (2000-01-01 = 0) has stem `g` (0 = 甲); 2000-01-07 is 甲子 -/
def hasStem (g n : ℤ) : Prop := (n - 6) % 10 = g
/-- day `n` has branch `z` (0 = 子) -/
def hasBranch (z n : ℤ) : Prop := (n - 6) % 12 = z
instance (g n : ℤ) : Decidable (hasStem g n) := by unfold hasStem; infer_instance
instance (g n : ℤ) : Decidable (hasBranch g n) := by unfold hasBranch; infer_instance

/-- number of days from `s` to `n` inclusive with property `p` -/
def countFrom (p : ℤ → Prop) [DecidablePred p] (s n : ℤ) : ℕ := ((List.range (n - s + 1).toNat).filter (fun j : ℕ => decide (p (s + j)))).length

/-- `n` is the `k`-th day with property `p` counted from day `s` (inclusive) -/
def NthFrom (p : ℤ → Prop) [DecidablePred p] (k : ℕ) (s n : ℤ) : Prop := p n ∧ s ≤ n ∧ countFrom p s n = k
instance (p : ℤ → Prop) [DecidablePred p] (k : ℕ) (s n : ℤ) : Decidable (NthFrom p k s n) := by unfold NthFrom; infer_instance

/-- dog days and plum rains of day `n`: `xz` summer solstice, `lq` Liqiu, `mz` Mangzhong, `xs` Xiaoshu -/
def dogMarks (n xz lq mz xs : ℤ) : List Mark :=
  (if NthFrom (hasStem 6) 3 xz n then [(Cls.B, b "初伏 ", false)] else []) ++
  (if NthFrom (hasStem 6) 4 xz n then [(Cls.B, b "中伏 ", false)] else []) ++
  (if NthFrom (hasStem 6) 1 lq n then [(Cls.B, b "末伏 ", false)] else []) ++
  (if NthFrom (hasStem 2) 1 mz n then [(Cls.B, b "入梅 ", false)] else []) ++
  (if NthFrom (hasBranch 7) 1 xs n then [(Cls.B, b "出梅 ", false)] else [])

/-- nine nines: the 81 days from the winter solstice `dz` on are nine nines of nine days; the first day of each is
announced in class B, the others are numbered in class C -/
def nineMarks (n dz : ℤ) : List Mark :=
  (List.range 9).flatMap fun (k : ℕ) => (List.range 9).flatMap fun (j : ℕ) =>
    if n = dz + 9 * k + j then
      if j = 0 then [(Cls.B, b "『" ++ b ((strNum[k + 1]?).getD "") ++ b "九』 ", false)]
      else [(Cls.C, b ((strNum[k + 1]?).getD "") ++ b "九第" ++ decimal (j + 1) ++ b "天 ", false)]
    else []

/-- concatenation of the texts of one class -/
def ofCls (c : Cls) (l : List Mark) : Str := (l.filter (fun m => decide (m.1 = c))).flatMap (·.2.1)

/-- some mark makes the day a day off -/
def anyOff (l : List Mark) : Bool := l.any (·.2.2)

end Verif.Fest
