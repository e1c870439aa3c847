import Verif.Geom
import Verif.CBase

/-!
# Series of the planets, the moon and Pluto; precession polynomials — /repo/eph/eph0.cpp:15-53, 210-236, 377-524

Exact arithmetic on `ℝ` for the values (see `Verif/Geom.lean`), `int` arithmetic with overflow for the positions in the tables.  Of the tables of eph_data.h only the
lengths and the index entries are transcribed; the coefficients are parameters.
-/

namespace Verif.Series

open Real Verif.Fp

/-- `F[p]`; outside the array: undefined -/
def rd (F : List ℝ) (p : ℤ) : Option ℝ := if 0 ≤ p then F[p.toNat]? else none

/-- the conversion of a double to `int` -/
noncomputable def toI (x : ℝ) : Option ℤ := i32 (Geom.trunc x)

/-- the index entries `F[1] … F[19]` of `X0 … X7` — eph_data.h:142, 162, 184, 206, 229, 252, 275, 296 -/
def index : List (List ℤ) := [
  [20, 578, 920, 1100, 1124, 1136, 1148, 1217, 1226, 1229, 1229, 1229, 1229, 1937, 2363, 2618, 2633, 2660, 2666],
  [20, 443, 710, 761, 791, 818, 824, 1043, 1106, 1142, 1169, 1190, 1196, 1550, 1742, 1781, 1808, 1823, 1823],
  [20, 257, 374, 425, 437, 449, 458, 566, 629, 641, 653, 665, 668, 929, 1040, 1082, 1091, 1094, 1094],
  [20, 596, 1028, 1289, 1385, 1427, 1454, 1586, 1670, 1694, 1709, 1718, 1724, 2360, 2873, 3155, 3239, 3275, 3287],
  [20, 503, 863, 1256, 1451, 1529, 1550, 1676, 1802, 1910, 1964, 1988, 1991, 2513, 2945, 3482, 3761, 3896, 3923],
  [20, 806, 1406, 1946, 2177, 2282, 2333, 2537, 2726, 2867, 2963, 3008, 3026, 4091, 5063, 5789, 6260, 6452, 6536],
  [20, 539, 836, 980, 1070, 1085, 1088, 1193, 1271, 1307, 1322, 1325, 1325, 2150, 2660, 2936, 3089, 3122, 3122],
  [20, 188, 260, 281, 293, 299, 302, 359, 404, 419, 422, 425, 425, 638, 701, 743, 746, 746, 746]]

/-- lengths of `X0 … X7` — eph_data.h:140-314 -/
def lengths : List ℕ := [2666, 1823, 1094, 3287, 3923, 6536, 3122, 746]

/-- lengths of `ML0 … MR2` — eph_data.h:316-331 -/
def moonLengths : List (List ℕ) := [[2652, 894, 204, 12], [1236, 270, 72], [1326, 312, 72]]

/-- lengths of `PL0 … PL8` — eph_data.h:332-340 -/
def plutoLengths : List ℕ := [579, 78, 39, 549, 87, 42, 510, 60, 33]

/-- the loop over the terms — eph0.cpp:402-403: `for (j = n1, c = 0; j < N; j += 3) c += F[j] * cos(F[j + 1] + t * F[j + 2])` -/
noncomputable def xl0Terms (F : List ℝ) (t : ℝ) (N : ℤ) : ℕ → ℤ → ℝ → Option ℝ
  | 0, _, _ => none
  | fuel + 1, j, c =>
    if j < N then do
      let a ← rd F j
      let b ← rd F (j + 1)
      let w ← rd F (j + 2)
      xl0Terms F t N fuel (j + 3) (c + a * cos (b + t * w))
    else some c

/-- the end of the loop of order `i` — eph0.cpp:390-400; `(n1, n2)` are the bounds of the series, `N0` the length of the one of order 0 -/
def xl0End (n1 n2 N0 n : ℤ) (i : ℕ) : Option ℤ :=
  if n < 0 then some n2
  else do
    let a ← i32 (3 * n)
    let a ← i32 (a * (n2 - n1))
    if N0 = 0 then none
    else
      let N := a.tdiv N0 + n1
      let N := if i ≠ 0 then N + 3 else N
      pure (if N > n2 then n2 else N)

/-- one order — eph0.cpp:388-404; `0` when the series is empty (`continue`) -/
noncomputable def xl0Order (F : List ℝ) (pn N0 n : ℤ) (t : ℝ) (i : ℕ) : Option ℝ := do
  let n1 ← toI (← rd F (pn + i))
  let n2 ← toI (← rd F (pn + 1 + i))
  if n2 - n1 = 0 then some 0
  else do
    let N ← xl0End n1 n2 N0 n i
    xl0Terms F t N ((N - n1).toNat + 1) n1 0

/-- the loop over the orders — eph0.cpp:386-405 -/
noncomputable def xl0Orders (F : List ℝ) (pn N0 n : ℤ) (t : ℝ) : ℕ → ℕ → ℝ → ℝ → Option ℝ
  | 0, _, _, v => some v
  | k + 1, i, tn, v => do
    let c ← xl0Order F pn N0 n t i
    xl0Orders F pn N0 n t k (i + 1) (tn * t) (v + c * tn)

/-- `rad` — eph0.h -/
noncomputable def radSec : ℝ := 180 * 3600 / π

/-- the corrections — eph0.cpp:407-427 -/
noncomputable def xl0Corr (xzb : List ℝ) (xt zn : ℤ) (t : ℝ) : Option ℝ :=
  if xt = 0 then
    some (if zn = 0 then (-0.0728 - 2.7702 * t - 1.1019 * (t * t) - 0.0996 * (t * t * t)) / radSec
      else if zn = 1 then (0.0000 + 0.0004 * t + 0.0004 * (t * t) - 0.0026 * (t * t * t)) / radSec
      else if zn = 2 then (-0.0020 + 0.0044 * t + 0.0213 * (t * t) - 0.0250 * (t * t * t)) / 1000000
      else 0)
  else do
    let dv ← rd xzb ((xt - 1) * 3 + zn)
    pure ((if zn = 0 then -3 * t / radSec else 0) + (if zn = 2 then dv / 1000000 else dv / radSec))

/-- `XL0_calc(xt, zn, t, n)` — eph0.cpp:377-429; `X` are the tables `X0 … X7` -/
noncomputable def xl0Calc (X : List (List ℝ)) (xzb : List ℝ) (xt zn : ℤ) (t : ℝ) (n : ℤ) : Option ℝ := do
  let t := t / 10
  let F ← (if 0 ≤ xt then X[xt.toNat]? else none)
  let pn := zn * 6 + 1
  let N0 ← toI ((← rd F (pn + 1)) - (← rd F pn))
  let v ← xl0Orders F pn N0 n t 6 0 1 0
  let f0 ← rd F 0
  let corr ← xl0Corr xzb xt zn t
  pure (v / f0 + corr)

/-! ## The moon -/

/-- the loop over the terms — eph0.cpp:519-520 -/
noncomputable def xl1Terms (F : List ℝ) (t t2 t3 t4 : ℝ) (N : ℤ) : ℕ → ℤ → ℝ → Option ℝ
  | 0, _, _ => none
  | fuel + 1, j, c =>
    if j < N then do
      let a ← rd F j
      let b ← rd F (j + 1)
      let w ← rd F (j + 2)
      let x ← rd F (j + 3)
      let y ← rd F (j + 4)
      let z ← rd F (j + 5)
      xl1Terms F t t2 t3 t4 N fuel (j + 6) (c + a * cos (b + t * w + t2 * x + t3 * y + t4 * z))
    else some c

/-- the mean longitude and precession in arc seconds — eph0.cpp:506-512 -/
noncomputable def moonMean (t : ℝ) : ℝ :=
  let t2 := t * t
  let t3 := t2 * t
  let t4 := t3 * t
  let t5 := t4 * t
  let tx := t - 10
  (3.81034409 + 8399.684730072 * t - 3.319e-05 * t2 + 3.11e-08 * t3 - 2.033e-10 * t4) * radSec
    + (5028.792262 * t + 1.1124406 * t2 + 0.00007699 * t3 - 0.000023479 * t4 - 0.0000000178 * t5)
    + (if tx > 0 then -0.866 + 1.43 * tx + 0.054 * tx * tx else 0)

/-- the end of the loop of order `i` — eph0.cpp:517-519; `n` has been multiplied by 6, `len0`, `len` are the hard-coded lengths of eph0.cpp:493-497 -/
def xl1End (n len0 len : ℤ) (i : ℕ) : Option ℤ := do
  let a ← i32 (n * len)
  let N := a.tdiv len0
  let N := if i ≠ 0 then N + 6 else N
  pure (if N ≥ len then len else N)

/-- the loop over the orders — eph0.cpp:515-522 -/
noncomputable def xl1Orders (ob : List (List ℝ)) (lens : List ℕ) (len0 n : ℤ) (t t2 t3 t4 : ℝ) : ℕ → ℕ → ℝ → ℝ → Option ℝ
  | 0, _, _, v => some v
  | k + 1, i, tn, v => do
    let F ← ob[i]?
    let len ← lens[i]?
    let N ← xl1End n len0 len i
    let c ← xl1Terms F t t2 t3 t4 N (N.toNat + 1) 0 0
    xl1Orders ob lens len0 n t t2 t3 t4 k (i + 1) (tn * t) (v + c * tn)

/-- `XL1_calc(zn, t, n)` — eph0.cpp:499-524; `M` are the tables `ML`, `MB`, `MR` and `lens` the hard-coded lengths `len_M` -/
noncomputable def xl1Calc (M : List (List (List ℝ))) (lens : List (List ℕ)) (zn : ℤ) (t : ℝ) (n : ℤ) : Option ℝ := do
  let ob ← (if 0 ≤ zn then M[zn.toNat]? else none)
  let ls : List ℕ ← (if 0 ≤ zn then lens[zn.toNat]? else none)
  let v := if zn = 0 then moonMean t else 0
  let n ← i32 (n * 6)
  let l0 : ℕ ← ls[(0 : ℕ)]?
  let n := if n < 0 then (l0 : ℤ) else n
  let v ← xl1Orders ob ls l0 n t (t * t / 1e4) (t * t * t / 1e8) (t * t * t * t / 1e8) ls.length 0 1 v
  pure (if zn ≠ 2 then v / radSec else v)

/-! ## Pluto -/

/-- the loop over the terms — eph0.cpp:450-451; the bound is the true length of the array -/
noncomputable def plTerms (F : List ℝ) (T c0 : ℝ) : ℕ → ℕ → ℝ → Option ℝ
  | 0, _, _ => none
  | fuel + 1, j, v =>
    if j < F.length then do
      let a ← F[j]?
      let b ← F[j + 1]?
      let w ← F[j + 2]?
      plTerms F T c0 fuel (j + 3) (v + a * sin (b * T + w * c0))
    else some v

/-- one coordinate of `pluto_coord` before the final line: the arrays `3k`, `3k+1`, `3k+2` — eph0.cpp:448-457 -/
noncomputable def plCoord (P : List (List ℝ)) (t : ℝ) (k : ℕ) : Option ℝ := do
  let c0 := π / 180 / 100000
  let x := -1 + 2 * (t * 36525 + 1825394.5) / 2185000
  let T := t / 100000000
  let a ← P[3 * k]?
  let b ← P[3 * k + 1]?
  let c ← P[3 * k + 2]?
  let a ← plTerms a T c0 (a.length + 1) 0 0
  let b ← plTerms b T c0 (b.length + 1) 0 0
  let c ← plTerms c T c0 (c.length + 1) 0 0
  pure (a / 100000000 + b * x / 100000000 + c * (x * x) / 100000000)

/-- `pluto_coord(t)` — eph0.cpp:428-461 -/
noncomputable def plutoCoord (P : List (List ℝ)) (t : ℝ) : Option Geom.V3 := do
  let x := -1 + 2 * (t * 36525 + 1825394.5) / 2185000
  let r0 ← plCoord P t 0
  let r1 ← plCoord P t 1
  let r2 ← plCoord P t 2
  pure ⟨r0 + (9.922274 + 0.154154 * x), r1 + (10.016090 + 0.064073 * x), r2 + (-3.947474 - 0.042746 * x)⟩

/-! ## Precession -/

/-- `strstr(str, s)` as an offset -/
def strstr (str s : List Char) : Option ℕ := (List.range (str.length + 1)).find? (fun k => s.isPrefixOf (str.drop k))

/-- the name list of `prece` — eph0.cpp:226 -/
def preceNames : List Char :=
  ['f','i',' ', 'w',' ',' ', 'P',' ',' ', 'Q',' ',' ', 'E',' ',' ', 'x',' ',' ', 'p','i',' ', 'I','I',' ', 'p',' ',' ', 't','h',' ', 'Z',' ',' ', 'z',' ']

/-- the polynomial — eph0.cpp:232-233 -/
noncomputable def preceLoop (p : List ℝ) (base n : ℕ) (t : ℝ) : ℕ → ℝ → ℝ → Option ℝ
  | 0, _, c => some c
  | k + 1, tn, c => do
    let a ← p[base + (n - (k + 1))]?
    preceLoop p base n t k (tn * t) (c + a * tn)

/-- `prece(t, ss, mx)` — eph0.cpp:210-235; `none`: the name does not fit into the four bytes of `s`, or an access outside the table.  `p76`, `p00`, `p03` are the three tables. -/
noncomputable def prece (p76 p00 p03 : List ℝ) (t : ℝ) (ss : List Char) (mx : String) : Option ℝ :=
  if 3 < ss.length + 1 then none else
  let go (p : List ℝ) (n : ℕ) : Option ℝ := match strstr preceNames (ss ++ [' ']) with
    | none => some 0
    | some k => (preceLoop p (k / 3 * n) n t n 1 0).map (· / radSec)
  if mx = "IAU1976" then go p76 4 else if mx = "IAU2000" then go p00 6 else if mx = "P03" then go p03 6 else some 0

end Verif.Series
