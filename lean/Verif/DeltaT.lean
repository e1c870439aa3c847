import Verif.CBase

/-!
# Model of `dt_calc`: difference between dynamical and universal time

/repo/eph/eph0.cpp:149-204.  The arithmetic is a parameter `r`: `rnd` gives the double computation, `id` the exact one.
-/

namespace Verif.DeltaT
open Verif.Fp

/-- `dt_at` — eph0.cpp:157-181 -/
def dtAt : List ℚ := [
  -4000, 1083717/10, -1303680/100, 392000/1000, 0,
  -500, 172010/10, -62782/100, 16170/1000, -3413/10000,
  -150, 122006/10, -34641/100, 5403/1000, -1593/10000,
  150, 91138/10, -32813/100, -1647/1000, 377/10000,
  500, 57075/10, -39141/100, 915/1000, 3145/10000,
  900, 22034/10, -28345/100, 13034/1000, -1778/10000,
  1300, 4901/10, -5735/100, 2085/1000, -72/10000,
  1600, 1200/10, -981/100, -1532/1000, 1403/10000,
  1700, 102/10, -91/100, 510/1000, -370/10000,
  1800, 134/10, -72/100, 202/1000, -193/10000,
  1830, 78/10, -181/100, 416/1000, -247/10000,
  1860, 83/10, -13/100, -406/1000, 292/10000,
  1880, -54/10, 32/100, -183/1000, 173/10000,
  1900, -23/10, 206/100, 169/1000, -135/10000,
  1920, 212/10, 169/100, -304/1000, 167/10000,
  1940, 242/10, 122/100, -64/1000, 31/10000,
  1960, 332/10, 51/100, 231/1000, -109/10000,
  1980, 510/10, 129/100, -26/1000, 32/10000,
  2000, 6387/100, 1/10, 0, 0,
  2005, 647/10, 21/100, 0, 0,
  2012, 668/10, 22/100, 0, 0,
  2018, 690/10, 36/100, 0, 0,
  2028, 726/10]

/-- `dt_ext` — eph0.cpp:149-153 -/
def dtExt (r : ℚ → ℚ) (y jsd : ℚ) : ℚ :=
  let dy := r (r (y - 1820) / 100)
  r (-20 + r (r (jsd * dy) * dy))

/-- the loop over the rows — eph0.cpp:196-200; reading outside the table is undefined -/
def findRow (t : List ℚ) (y : ℚ) : ℕ → ℕ → Option ℕ
  | 0, _ => none
  | f + 1, i =>
    if i < t.length then do
      let b ← t[i + 5]?
      if y < b then pure i else findRow t y f (i + 5)
    else some i

/-- the cubic of a row — eph0.cpp:201-202 -/
def cubic (r : ℚ → ℚ) (a c0 c1 c2 c3 b y : ℚ) : ℚ :=
  let t1 := r (r (r (y - a) / r (b - a)) * 10)
  let t2 := r (t1 * t1)
  let t3 := r (t2 * t1)
  r (r (r (r c0 + r (r c1 * t1)) + r (r c2 * t2)) + r (r c3 * t3))

/-- `dt_calc` — eph0.cpp:155-203 -/
def dtCalc (r : ℚ → ℚ) (y : ℚ) : Option ℚ := do
  let y0 ← dtAt[dtAt.length - 2]?
  let t0 ← dtAt[dtAt.length - 1]?
  if y ≥ y0 then
    if y > r (y0 + 100) then pure (dtExt r y 31)
    else
      let v := dtExt r y 31
      let dv := r (dtExt r y0 31 - r t0)
      pure (r (v - r (r (dv * r (r (y0 + 100) - y)) / 100)))
  else
    let i ← findRow dtAt y (dtAt.length + 1) 0
    let a ← dtAt[i]?
    let c0 ← dtAt[i + 1]?
    let c1 ← dtAt[i + 2]?
    let c2 ← dtAt[i + 3]?
    let c3 ← dtAt[i + 4]?
    let b ← dtAt[i + 5]?
    pure (cubic r a c0 c1 c2 c3 b y)

end Verif.DeltaT
