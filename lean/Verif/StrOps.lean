import Mathlib.Data.List.Infix

/-!
# String utilities: string_replace, split, fill_str

Strings are lists over an arbitrary character type (bytes).  The three `std::string` members used (`find`,
`find_first_of`, `substr`, `replace`) are modelled by their standard specification.
-/

namespace Verif.StrOps

variable {α : Type} [DecidableEq α]

/-- position of the first occurrence of `pat` in `s` (`std::string::find(pat, 0)`; `none` is `npos`). -/
def findAt (pat : List α) : List α → Option ℕ
  | [] => if pat = [] then some 0 else none
  | x :: t => if pat.isPrefixOf (x :: t) then some 0 else (findAt pat t).map (· + 1)

/-- `s.find(pat, pos)`: the smallest index `≥ pos` where `pat` occurs; `npos` if none or `pos > size()`. -/
def find (s pat : List α) (pos : ℕ) : Option ℕ :=
  if pos ≤ s.length then (findAt pat (s.drop pos)).map (· + pos) else none

/-- the `while` loop of `string_replace` — /repo/mylib/tool.cpp:9-20.  `fuel` bounds the number of tests of the loop
condition; `none` means the loop has not ended within `fuel` tests. -/
def replaceLoop (src dst : List α) : ℕ → List α → ℕ → Option (List α)
  | 0, _, _ => none
  | fuel + 1, big, pos =>
    match find big src pos with
    | none => some big
    | some p =>
      -- strBig.replace(pos, srclen, strdst); pos += dstlen
      replaceLoop src dst fuel (big.take p ++ dst ++ big.drop (p + src.length)) (p + dst.length)

/-- `string_replace(big, src, dst)` — /repo/mylib/tool.cpp:9-20; the new value of `big`. -/
def stringReplace (fuel : ℕ) (big src dst : List α) : Option (List α) := replaceLoop src dst fuel big 0

/-- `s.find_first_of(set, start)`: first index `≥ start` whose character belongs to `set`; `npos` if none. -/
def findFirstOf (s set : List α) (start : ℕ) : Option ℕ :=
  if start < s.length then ((s.drop start).findIdx? (fun c => decide (c ∈ set))).map (· + start) else none

/-- `s.substr(start)`: throws `out_of_range` (here `none`) when `start > size()`. -/
def substr (s : List α) (start : ℕ) : Option (List α) := if start ≤ s.length then some (s.drop start) else none

/-- the `do … while` loop of `split` — /repo/lunar/lunar_ob.cpp:44-71.  `none`: fuel exhausted or exception.
(`start == npos` at line 63 cannot happen: `start` is at most `size() + separator.size()`.) -/
def splitLoop (sep : List α) (s : List α) : ℕ → ℕ → List (List α) → Option (List (List α))
  | 0, _, _ => none
  | fuel + 1, start, dest =>
    match findFirstOf s sep start with
    | some index =>
      -- substring = str.substr(start, index - start)
      splitLoop sep s fuel (index + sep.length) (dest ++ [(s.drop start).take (index - start)])
    | none => (substr s start).map (fun r => dest ++ [r])

/-- `split(src, separator)` — /repo/lunar/lunar_ob.cpp:44-71. -/
def split (fuel : ℕ) (src sep : List α) : Option (List (List α)) := splitLoop sep src fuel 0 []

/-- the loop of `fill_str`: `for (i = 0; i < k; i++) s = c + s`. -/
def fillLoop (c : List α) : ℕ → List α → List α
  | 0, s => s
  | k + 1, s => fillLoop c k (c ++ s)

/-- `fill_str(s, n, c)` — /repo/mylib/tool.cpp:208-214 (a non-positive `n - len` runs the loop zero times). -/
def fillStr (s : List α) (n : ℤ) (c : List α) : List α := fillLoop c (n - s.length).toNat s

end Verif.StrOps
