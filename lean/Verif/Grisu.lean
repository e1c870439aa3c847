import Verif.GrisuData
import Verif.Dtoa
import Verif.Fp

/-!
# `Grisu2` — /repo/mylib/mystl/dtoa.h:21-306

64-bit unsigned arithmetic on `ℕ` with explicit wrap-around; the gcc/x86-64 branches of the `#if`s are modelled.
`assert`s are ignored.  A digit in the character buffer is stored as its offset from `'0'` (an `ℤ`, since
`buffer[len - 1]--` is ordinary char arithmetic).
-/

namespace Verif.Grisu
open Verif.Fp

/-- wrap-around of `uint64_t` -/
def u64 (n : ℕ) : ℕ := n % 2^64

/-- subtraction of `uint64_t` values -/
def sub64 (a b : ℕ) : ℕ := u64 (a + 2^64 - b)

/-- dtoa.h:22-137 -/
structure DiyFp where
  f : ℕ
  e : ℤ

/-- `DiyFp(double)` — dtoa.h:27-43, for a positive double given by its biased exponent and significand fields -/
def ofDouble (biased sig : ℕ) : DiyFp :=
  if biased ≠ 0 then ⟨sig + 2^52, (biased : ℤ) - 1075⟩ else ⟨sig, -1075 + 1⟩

/-- `operator*` — dtoa.h:51-79 (128-bit product, rounded) -/
def mul (a b : DiyFp) : DiyFp :=
  let p := a.f * b.f
  let h := p / 2^64
  let l := p % 2^64
  ⟨u64 (if 2^63 ≤ l then h + 1 else h), a.e + b.e + 64⟩

/-- `Normalize` — dtoa.h:81-99 (`__builtin_clzll`; its argument must not be zero) -/
def normalize (a : DiyFp) : Option DiyFp :=
  if a.f = 0 then none
  else
    let s := 63 - Nat.log2 a.f
    some ⟨u64 (a.f * 2^s), a.e - s⟩

/-- the loop of `NormalizeBoundary` — dtoa.h:107-111 -/
def nbLoop : ℕ → DiyFp → Option DiyFp
  | 0, _ => none
  | fuel + 1, a => if a.f / 2^53 % 2 = 1 then some a else nbLoop fuel ⟨u64 (a.f * 2), a.e - 1⟩

/-- `NormalizeBoundary` — dtoa.h:101-116 -/
def normalizeBoundary (a : DiyFp) : Option DiyFp := do
  let r ← nbLoop 64 a
  pure ⟨u64 (r.f * 2^10), r.e - 10⟩

/-- `NormalizedBoundaries(&minus, &plus)` — dtoa.h:118-125; the shift count must not be negative -/
def boundaries (a : DiyFp) : Option (DiyFp × DiyFp) := do
  let pl ← normalizeBoundary ⟨u64 (a.f * 2) + 1, a.e - 1⟩
  let mi : DiyFp := if a.f = 2^52 then ⟨u64 (a.f * 4) - 1, a.e - 2⟩ else ⟨u64 (a.f * 2) - 1, a.e - 1⟩
  if mi.e - pl.e < 0 ∨ 64 ≤ mi.e - pl.e then none
  else pure (⟨u64 (mi.f * 2 ^ (mi.e - pl.e).toNat), pl.e⟩, pl)

/-- `GetCachedPower(e, &K)` — dtoa.h:139-210: the cached power and `K`.  Reading outside the tables is undefined. -/
def cachedPower (e : ℤ) : Option (DiyFp × ℤ) := do
  let dk := (((-61 - e : ℤ) : ℚ) ⊠ rnd (30102999566398114 / 100000000000000000)) ⊞ 347
  let k ← toInt dk
  let k := if dk ⊟ (k : ℚ) > 0 then k + 1 else k
  let index := k / 8 + 1
  if index < 0 then none
  else
    let f ← cachedF[index.toNat]?
    let e ← cachedE[index.toNat]?
    pure (⟨f, e⟩, -(-348 + index * 8))

/-- `buffer[len - 1]--` -/
def decLast (buf : List ℤ) : List ℤ := buf.dropLast ++ (buf.getLast?.map (fun d => d - 1)).toList

/-- `GrisuRound` — dtoa.h:212-219; every round adds `tenKappa ≥ 1` to `rest ≤ delta`, so `fuel = delta + 1` rounds suffice -/
def grisuRound : ℕ → List ℤ → ℕ → ℕ → ℕ → ℕ → Option (List ℤ)
  | 0, _, _, _, _, _ => none
  | fuel + 1, buf, delta, rest, tenKappa, wpw =>
    if rest < wpw ∧ sub64 delta rest ≥ tenKappa ∧ (u64 (rest + tenKappa) < wpw ∨ wpw - rest > sub64 (u64 (rest + tenKappa)) wpw) then
      grisuRound fuel (decLast buf) delta (u64 (rest + tenKappa)) tenKappa wpw
    else some buf

/-- `CountDecimalDigit32` — dtoa.h:221-233 -/
def countDigits (n : ℕ) : ℕ :=
  if n < 10 then 1 else if n < 100 then 2 else if n < 1000 then 3 else if n < 10000 then 4 else if n < 100000 then 5
  else if n < 1000000 then 6 else if n < 10000000 then 7 else if n < 100000000 then 8 else if n < 1000000000 then 9 else 10

/-- first loop of `DigitGen` — dtoa.h:244-275; `kappa` counts down, `s = -one.e`.  Result: digits and the exponent `kappa`,
or (second component `none`) the digits with which the second loop starts. -/
def gen1 (s delta wpw p2 : ℕ) : ℕ → ℕ → List ℤ → Option (List ℤ × Option ℤ)
  | 0, _, buf => some (buf, none)
  | kappa + 1, p1, buf => do
    let d := p1 / 10^kappa
    let p1 := p1 % 10^kappa
    let buf := if d ≠ 0 ∨ buf ≠ [] then buf ++ [(d : ℤ)] else buf
    let tmp := u64 (u64 (p1 * 2^s) + p2)
    if tmp ≤ delta then
      let b ← grisuRound (delta + 1) buf delta tmp (u64 (10^kappa * 2^s)) wpw
      pure (b, some (kappa : ℤ))
    else gen1 s delta wpw p2 kappa p1 buf

/-- second loop of `DigitGen` — dtoa.h:278-291.  The loop is unbounded in the code; `fuel` counts its rounds (`none` when
exceeded).  `kPow10` has the ten entries 10⁰..10⁹: `mem i` is what memory holds at `kPow10[i]` for `i ≥ 10`, `none` making the
read undefined behaviour. -/
def gen2 (mem : ℕ → Option ℕ) (s wpw : ℕ) : ℕ → ℕ → ℕ → ℕ → List ℤ → Option (List ℤ × ℤ)
  | 0, _, _, _, _ => none
  | fuel + 1, n, p2, delta, buf => do
    let p2 := u64 (p2 * 10)
    let delta := u64 (delta * 10)
    let d := p2 / 2^s
    let buf := if d ≠ 0 ∨ buf ≠ [] then buf ++ [(d : ℤ)] else buf
    let p2 := p2 % 2^s
    let n := n + 1
    if p2 < delta then
      let pw ← (if n < 10 then some (10^n) else mem n)
      let b ← grisuRound (delta + 1) buf delta p2 (2^s) (u64 (wpw * pw))
      pure (b, -(n : ℤ))
    else gen2 mem s wpw fuel n p2 delta buf

/-- `DigitGen` — dtoa.h:235-292: digits and the amount added to `K` -/
def digitGen (mem : ℕ → Option ℕ) (W Mp : DiyFp) (delta : ℕ) : Option (List ℤ × ℤ) := do
  let s := (-Mp.e).toNat
  let wpw := sub64 Mp.f W.f
  let p1 := Mp.f / 2^s % 2^32
  let p2 := Mp.f % 2^s
  let (buf, r) ← gen1 s delta wpw p2 (countDigits p1) p1 []
  match r with
  | some kappa => pure (buf, kappa)
  | none => gen2 mem s wpw 400 0 p2 delta buf

/-- the three scaled numbers of `Grisu2` — dtoa.h:299-304: `W`, `Wp` (lowered by one), and `Wp - Wm` after `Wm` was raised by one -/
def scaleUp (wm wp w c : DiyFp) : DiyFp × DiyFp × ℕ :=
  (mul w c, ⟨sub64 (mul wp c).f 1, (mul wp c).e⟩, sub64 (sub64 (mul wp c).f 1) (u64 ((mul wm c).f + 1)))

/-- `Grisu2(value, buffer, &length, &K)` — dtoa.h:294-306 -/
def grisu2 (mem : ℕ → Option ℕ) (v : DiyFp) : Option (List ℤ × ℤ) := do
  let (wm, wp) ← boundaries v
  let (c, K) ← cachedPower wp.e
  let w ← normalize v
  let r := scaleUp wm wp w c
  let (buf, kappa) ← digitGen mem r.1 r.2.1 r.2.2
  pure (buf, K + kappa)

/-- the characters left in the buffer -/
def chars (buf : List ℤ) : Str := buf.map (fun d => Char.ofNat (48 + d).toNat)

/-- digits and exponent as `Prettify` gets them -/
def grisuDec (mem : ℕ → Option ℕ) (biased sig : ℕ) : Option Verif.Dtoa.Dec :=
  (grisu2 mem (ofDouble biased sig)).map (fun r => ⟨chars r.1, r.2⟩)

/-- 19.96 -/
example : grisu2 (fun _ => none) (ofDouble 1027 1114640907774198) = some ([1, 9, 9, 6], -2) := by decide +kernel

end Verif.Grisu
