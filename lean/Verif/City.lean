import Verif.CityData
import Verif.Fp

/-!
# The choice of a place — /repo/mylib/lat_lon_data.cpp:28-144

Strings are lists of bytes (`ℕ`).  The screen output and the reading from the terminal are not modelled: what the user enters is an argument.
-/

namespace Verif.City

open Verif.Fp

/-- the UTF-8 bytes of a character (the encoding of the source file) -/
def utf8 (c : Char) : List ℕ :=
  let n := c.toNat
  if n < 128 then [n]
  else if n < 2048 then [192 + n / 64, 128 + n % 64]
  else if n < 65536 then [224 + n / 4096, 128 + n / 64 % 64, 128 + n % 64]
  else [240 + n / 262144, 128 + n / 4096 % 64, 128 + n / 64 % 64, 128 + n % 64]

/-- the bytes of a text -/
def bytes (s : List Char) : List ℕ := s.flatMap utf8

/-- the places of a row as they stand in the C string -/
def encRecs (l : List (List Char × List Char)) : List ℕ := l.flatMap (fun q => 32 :: (bytes q.1 ++ bytes q.2))

/-- the C string of a row — lat_lon_data.cpp:31-62 -/
def cstr (r : Row) : List ℕ := bytes r.prov ++ encRecs r.recs

/-- `isalnum`; for the bytes ≥ 128 (negative `char`s) the C standard leaves it undefined, the usual libraries return 0 -/
def isAlnum (b : ℕ) : Bool := (48 ≤ b && b ≤ 57) || (65 ≤ b && b ≤ 90) || (97 ≤ b && b ≤ 122)

/-- the loop that fills `ch[i]` — lat_lon_data.cpp:71-81; `cur` is `ch[i][j]` so far, `none` a write outside `ch[32][210][48]` -/
def fieldsLoop : List ℕ → ℕ → List ℕ → List (List ℕ) → Option (List (List ℕ))
  | [], _, cur, acc => some (acc ++ [cur])
  | b :: bs, j, cur, acc =>
    if b = 32 then fieldsLoop bs (j + 1) [] (acc ++ [cur])
    else if isAlnum b then fieldsLoop bs j cur acc
    else if j < 210 ∧ cur.length < 48 then fieldsLoop bs j (cur ++ [b]) acc
    else none

/-- `ch[i]` — lat_lon_data.cpp:68-81 -/
def fields (text : List ℕ) : Option (List (List ℕ)) := fieldsLoop text 0 [] []

/-- `strstr(text, str)` as an offset -/
def strstr : List ℕ → List ℕ → Option ℕ
  | [], s => if s = [] then some 0 else none
  | b :: t, s => if s.isPrefixOf (b :: t) then some 0 else (strstr t s).map (· + 1)

/-- a byte as a (signed) `char` -/
def sc (b : ℕ) : ℤ := if 128 ≤ b then (b : ℤ) - 256 else b

/-- conversion of an `int` to `char` -/
def wrap (v : ℤ) : ℤ := (v + 128) % 256 - 128

/-- decompression of one code character — lat_lon_data.cpp:130-132 -/
def decode1 (b : ℕ) : ℤ :=
  let c := sc b
  wrap (if c > 96 then c - 61 else if c > 64 then c - 55 else c - 48)

/-- `JINGWEI` — lat_lon_data.h:4-10 -/
structure Place where
  J : ℚ
  W : ℚ
  s : List ℕ
  x : List ℕ
deriving DecidableEq

/-- longitude and latitude of four code bytes — lat_lon_data.cpp:134-135, in doubles -/
def lon (a2 a3 : ℤ) : ℚ := rnd (rnd (a2 + rnd (a3 / 60)) + 73)
def lat (a0 a1 : ℤ) : ℚ := rnd (a0 + rnd (a1 / 60))

/-- the place of a hit: the four bytes before it are decoded -/
def placeOf (code prov str : List ℕ) : Option Place := do
  let c0 ← code[0]?
  let c1 ← code[1]?
  let c2 ← code[2]?
  let c3 ← code[3]?
  pure ⟨lon (decode1 c2) (decode1 c3), lat (decode1 c0) (decode1 c1), prov, str⟩

/-- `jw0` — lat_lon_data.cpp:66 -/
def default : Place := ⟨rnd (1163833333 / 10000000), rnd 39, bytes ['默', '认'], bytes ['北', '京']⟩

/-- the search — lat_lon_data.cpp:120-143; `prov` is `ch[i][0]` -/
def lookup : List (List ℕ × List ℕ) → List ℕ → Option Place
  | [], _ => some default
  | (text, prov) :: rest, str =>
    match strstr (text.drop 8) str with
    | some k => placeOf ((text.drop (k + 8 - 4)).take 4) prov str
    | none => lookup rest str

/-- the string searched for — lat_lon_data.cpp:91-116; `typed` is what the user types when asked.  `none`: an access outside the tables, a typed text that does not fit into `str[48]`, or
(`num > 32`) an uninitialised `str`. -/
def query (ch : List (List (List ℕ))) (num num0 : ℤ) (typed : List ℕ) : Option (List ℕ) :=
  if num = 0 then (if typed.length < 48 then some typed else none)
  else if num < 33 then
    if num - 1 < 0 then none
    else do
      let row ← ch[(num - 1).toNat]?
      if 210 ≤ row.length then none
      else if num0 = 0 then (if typed.length < 48 then some typed else none)
      else if 0 ≤ num0 ∧ num0 < 210 then some (row.getD num0.toNat [])
      else none
  else none

/-- `GeographicalPosition()` with the inputs `num`, `num0`, `typed` — lat_lon_data.cpp:28-144 -/
def position (rs : List Row) (num num0 : ℤ) (typed : List ℕ) : Option Place := do
  let ch ← rs.mapM (fun r => fields (cstr r))
  let str ← query ch num num0 typed
  lookup ((rs.map cstr).zip (ch.map (fun row => row.getD 0 []))) str

end Verif.City
