import Verif.EraData
import Verif.NumText
import Verif.StrOps

/-!
# Era names: `OBB::getNH` — /repo/lunar/lunar_ob.cpp:237-250

Strings are only concatenated here, so one list element per character is exact enough.
-/

namespace Verif.Era

open Verif.NumText

/-- `my_stoi` with `errno` threaded; `none` is an exception. -/
def stoi (s : String) (errno : Bool) : Option (ℤ × Bool) :=
  match myStoi s.toList errno with
  | (.ok n, e) => some (n, e)
  | _ => none

/-- `to_str(n)` of an `int` -/
def toStr (n : ℤ) : Option String := (toStrInt 32 n 0 false).map String.ofList

/-- the `for` loop of `getNH`: `ob` is the rest of the table from index `i` on, `s` the text so far.  `none`: exception, int
overflow, or a read behind the end of the table (`ob[i+6]` with fewer than 7 fields left). -/
def getNHLoop (y : ℤ) : List String → String → Bool → Option String
  | [], s, _ => some s
  | f0 :: f1 :: f2 :: f3 :: f4 :: f5 :: f6 :: rest, s, e => do
    let (j, e) ← stoi f0 e
    if y < j then getNHLoop y rest s e
    else
      let (n, e) ← stoi f1 e
      let jn ← i32 (j + n)
      if y ≥ jn then getNHLoop y rest s e
      else
        let (k, e) ← stoi f2 e
        let a ← i32 (y - j)
        let a ← i32 (a + 1)
        let a ← i32 (a + k)
        let c := f6 ++ (← toStr a) ++ "年"
        let s := s ++ (if s.isEmpty then "" else ";") ++ "[" ++ f3 ++ "]" ++ f4 ++ " " ++ f5 ++ " " ++ c
        getNHLoop y rest s e
  | _, _, _ => none

/-- `OBB::getNH(y)` — /repo/lunar/lunar_ob.cpp:237-250; `errno` as in `my_stoi`. -/
def getNH (y : ℤ) (errno : Bool) : Option String := getNHLoop y fields "" errno

end Verif.Era
