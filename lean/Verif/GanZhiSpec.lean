import Verif.GanZhi

/-! # Specification of the sexagenary cycle and of the stem rules -/

namespace Verif.GanZhi

/-- name with stem number `g` and branch number `z` (both counted from 0) -/
def nameOf (g z : ℤ) : String := (strGan[(g % 10).toNat]?).getD "" ++ (strZhi[(z % 12).toNat]?).getD ""

/-- `n`-th name of the sexagenary cycle, 0 = 甲子 -/
def name60 (n : ℤ) : String := nameOf n n

/-- five-tigers rule 五虎遁: stem of the first (寅) month, by the stem of the year
(甲己→丙, 乙庚→戊, 丙辛→庚, 丁壬→壬, 戊癸→甲) -/
def fiveTigers (yearStem : ℤ) : ℤ :=
  match (yearStem % 5).toNat with
  | 0 => 2 | 1 => 4 | 2 => 6 | 3 => 8 | _ => 0

/-- five-rats rule 五鼠遁: stem of the 子 hour, by the stem of the day
(甲己→甲, 乙庚→丙, 丙辛→戊, 丁壬→庚, 戊癸→壬) -/
def fiveRats (dayStem : ℤ) : ℤ :=
  match (dayStem % 5).toNat with
  | 0 => 0 | 1 => 2 | 2 => 4 | 3 => 6 | _ => 8

example : name60 0 = "甲子" ∧ name60 59 = "癸亥" ∧ name60 60 = name60 0 ∧ name60 (-1) = "癸亥" := by decide

end Verif.GanZhi
