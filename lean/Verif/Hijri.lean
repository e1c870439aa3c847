import Verif.CBase

/-! # Model of /repo/lunar/lunar_ob.cpp:177-189 `OBA::getHuiLi` -/

namespace Verif.Hijri
open Verif.Fp

/-- `OBA::getHuiLi` — lunar_ob.cpp:177-189, returns (Hyear, Hmonth, Hday).  `z*10631` and
`z*30+y+1` are int operations. -/
def getHuiLi (d0 : ℚ) : Option (ℤ × ℤ × ℤ) := do
  let d := d0 ⊞ 503105
  let z ← int2 (d ⊘ 10631)
  let t ← i32 (z * 10631)
  let d := d ⊟ (t : ℚ)
  let y ← int2 ((d ⊞ (1/2)) ⊘ rnd (354366/1000))
  let t ← int2 (((y:ℚ) ⊠ rnd (354366/1000)) ⊞ (1/2))
  let d := d ⊟ (t : ℚ)
  let m ← int2 ((d ⊞ rnd (11/100)) ⊘ rnd (2951/100))
  let t ← int2 (((m:ℚ) ⊠ (59/2)) ⊞ (1/2))
  let d := d ⊟ (t : ℚ)
  let a ← i32 (z * 30)
  let hy ← i32 (a + y + 1)
  let hm ← i32 (m + 1)
  let hd ← toInt (d ⊞ 1)
  pure (hy, hm, hd)

end Verif.Hijri
