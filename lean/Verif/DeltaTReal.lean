import Verif.DeltaT
import Mathlib.Data.Real.Basic

/-!
# `dt_calc`, `dt_T` in exact real arithmetic — /repo/eph/eph0.cpp:149-208

The same functions as in `Verif/DeltaT.lean` on `ℝ`, for use with the real ephemeris (`Verif/HighTime.lean`); the table is that of `Verif/DeltaT.lean`.
-/

namespace Verif.DeltaT

open scoped Classical

/-- `dt_at` — eph0.cpp:157-181 -/
noncomputable def dtAtR : List ℝ := dtAt.map (fun (q : ℚ) => (q : ℝ))

/-- `dt_ext` — eph0.cpp:149-153 -/
noncomputable def dtExtR (y jsd : ℝ) : ℝ :=
  let dy := (y - 1820) / 100;
  (-20 + jsd * dy * dy)


/-- the loop over the rows — eph0.cpp:196-200 -/
noncomputable def findRowR (t : List ℝ) (y : ℝ) : ℕ → ℕ → Option ℕ
  | 0, _ => none
  | f + 1, i =>
    if i < t.length then do
      let b ← t[i + 5]?
      if y < b then pure i else findRowR t y f (i + 5)
    else some i

/-- the cubic of a row — eph0.cpp:201-202 -/
noncomputable def cubicR (a c0 c1 c2 c3 b y : ℝ) : ℝ :=
  let t1 := (y - a) / (b - a) * 10
  let t2 := t1 * t1
  let t3 := t2 * t1
  c0 + c1 * t1 + c2 * t2 + c3 * t3


/-- `dt_calc` — eph0.cpp:155-203 -/
noncomputable def dtCalcR (y : ℝ) : Option ℝ := do
  let y0 ← dtAtR[dtAtR.length - 2]?
  let t0 ← dtAtR[dtAtR.length - 1]?
  if y ≥ y0 then
    if y > y0 + 100 then pure (dtExtR y 31)
    else
      let v := dtExtR y 31
      let dv := dtExtR y0 31 - t0
      pure (v - dv * (y0 + 100 - y) / 100)
  else
    let i ← findRowR dtAtR y (dtAtR.length + 1) 0
    let a ← dtAtR[i]?
    let c0 ← dtAtR[i + 1]?
    let c1 ← dtAtR[i + 2]?
    let c2 ← dtAtR[i + 3]?
    let c3 ← dtAtR[i + 4]?
    let b ← dtAtR[i + 5]?
    pure (cubicR a c0 c1 c2 c3 b y)

/-- `dt_T(t)`, in days; `none` if the table is read outside its bounds — eph0.cpp:205-208 -/
noncomputable def dtTR (t : ℝ) : Option ℝ := (dtCalcR (t / 365.2425 + 2000)).map (· / 86400)

end Verif.DeltaT
