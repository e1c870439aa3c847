import Verif.Dtoa
import Verif.CBase

/-!
# `m2fm` — /repo/mylib/tool.cpp:110-125
-/

namespace Verif.MinSec

open Verif Verif.Fp Verif.Dtoa Verif.NumText

/-- `m2fm(v, fx, fs)` — tool.cpp:110-125.  `dig x` are the digits that `Grisu2` finds for the double `x > 0` (nothing for 0); they are a
parameter of the model.  `none` is undefined behaviour: the conversion to `int` or the product `f * 60` overflows. -/
def m2fm (dig : ℚ → Option Dec) (v : ℚ) (fx fs : ℤ) : Option Str := do
  let gn : Str := if v < 0 then ['-'] else []
  let v := if v < 0 then -v else v
  let f ← int2 (rnd (v / 60))
  let f60 ← i32 (f * 60)
  let m := rnd (v - f60)
  if fs = 0 then
    pure (gn ++ (← toStrInt 32 f 0 false) ++ ['\''] ++ (← toStrDec (m < 0) (dig |m|) fx 0 false) ++ ['"'])
  else if fs = 1 then
    pure (gn ++ (← toStrInt 32 f 0 false) ++ ['分'] ++ (← toStrDec (m < 0) (dig |m|) fx 0 false) ++ ['秒'])
  else if fs = 2 then
    pure (gn ++ (← toStrInt 32 f 0 false) ++ ['m'] ++ (← toStrDec (m < 0) (dig |m|) fx 0 false) ++ ['s'])
  else pure ['e', 'r', 'r', 'o', 'r']

end Verif.MinSec
