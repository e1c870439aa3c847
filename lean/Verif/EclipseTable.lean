import Verif.Geom
import Mathlib.Data.Real.Basic
import Mathlib.Algebra.Order.Floor.Ring
import Mathlib.Data.List.OfFn

/-!
# The interpolation table of the solar eclipse module — /repo/eph/eph_rsgs.cpp:7-93

Exact arithmetic on `ℝ`; the ephemeris is a parameter.
-/

namespace Verif.Geom

open Real

/-- `suoN(jd)` — eph0.cpp:751-754 -/
noncomputable def suoN (jd : ℝ) : ℤ := ⌊(jd + 8) / 29.5306⌋

/-- what `init` takes from the ephemeris: the instant of the new moon number `k` (line 22), the equatorial coordinates of sun and moon (longitude in one turn from 0, lines
34-42 up to `S[2]*=cs_AU`) and the true sidereal time (line 57) for the lunation `k`, the precision `n` and the instant -/
structure Eph where
  newMoon : ℤ → ℝ
  sun : ℤ → ℕ → ℝ → V3
  moon : ℤ → ℕ → ℝ → V3
  gst : ℤ → ℕ → ℝ → ℝ

/-- static members — eph_rsgs.cpp:7-8; `Zdt` is never changed (line 9) -/
structure RsTab where
  Zjd : ℝ
  Zs : List ℝ

/-- the members before the first call — eph_rsgs.cpp:7-8 -/
noncomputable def RsTab.fresh : RsTab := ⟨0, []⟩

/-- the instant of the node `i` of `n` — eph_rsgs.cpp:33 (without the change of unit) -/
noncomputable def nodeTime (zjd : ℝ) (n i : ℕ) : ℝ := zjd + ((i : ℝ) - n / 2 + 0.5) * 0.04

/-- one node: nine numbers — eph_rsgs.cpp:33-57.  `first` holds the nine numbers of node 0 (`a[0]`, `a[3]`, `a[6]` are read by the corrections for continuity, which are
skipped for node 0). -/
noncomputable def node (e : Eph) (k : ℤ) (n i : ℕ) (first : Option (List ℝ)) : List ℝ :=
  let T := nodeTime (e.newMoon k) n i
  let S := e.sun k n T
  let M := e.moon k n T
  let wrap (j : ℕ) (x : ℝ) : ℝ := match first with
    | none => x
    | some f => if x < f.getD j 0 then x + 2 * π else x
  let S : V3 := ⟨wrap 0 S.x, S.y, S.z⟩
  let M : V3 := ⟨wrap 3 M.x, M.y, M.z⟩
  let a := llr2xyz S
  let b := llr2xyz M
  let B := xyz2llr ⟨a.x - b.x, a.y - b.y, a.z - b.z⟩
  let B : V3 := ⟨π / 2 + B.x, π / 2 - B.y, B.z⟩
  let B : V3 := ⟨wrap 6 B.x, B.y, B.z⟩
  [S.x, S.y, S.z, M.x, M.y, M.z, B.x, B.y, e.gst k n T]

/-- the table of the lunation `k` with `n` nodes — eph_rsgs.cpp:31-58 -/
noncomputable def build (e : Eph) (k : ℤ) (n : ℕ) : List ℝ :=
  (List.range n).flatMap (fun i => node e k n i (if i = 0 then none else some (node e k n 0 none)))

/-- `RS_GS::init(jd, n)` — eph_rsgs.cpp:19-58 (the derived parameters of lines 60-70 are functions of the table and not modelled here) -/
noncomputable def RsTab.init (e : Eph) (s : RsTab) (jd : ℝ) (n : ℕ) : RsTab :=
  if suoN jd = suoN s.Zjd ∧ s.Zs.length = n * 9 then s
  else ⟨e.newMoon (suoN jd), build e (suoN jd) n⟩

/-- one component of the interpolation, three table entries — eph_rsgs.cpp:89-91 -/
noncomputable def quad (b bp bm t : ℝ) : ℝ := b + (bp - bm + (bp + bm - b * 2) * t) * t / 2

/-- `RS_GS::chazhi(jd, xt)` — eph_rsgs.cpp:76-93; `none`: an index outside the table or a division by zero (empty table).  Indices are integers, as in the code. -/
noncomputable def RsTab.chazhi (s : RsTab) (jd : ℝ) (xt : ℤ) : Option V3 :=
  let at' (p : ℤ) : Option ℝ := if 0 ≤ p then s.Zs[p.toNat]? else none
  let p := xt * 3
  let N : ℤ := (s.Zs.length / 9 : ℕ)
  if N = 0 then none else
  let w : ℤ := s.Zs.length / N
  let t := (jd - s.Zjd) / 0.04 + (N : ℝ) / 2 - 0.5
  if N = 2 then do
    let f (q : ℤ) : Option ℝ := do
      let a ← at' q
      let b ← at' (q + w)
      pure (a + (b - a) * t)
    let x ← f p
    let y ← f (p + 1)
    let z ← f (p + 2)
    pure ⟨x, y, z⟩
  else do
    let c := ⌊t + 0.5⌋
    let c := if c ≤ 0 then 1 else c
    let c := if c > N - 2 then N - 2 else c
    let t := t - c
    let p := p + c * w
    let f (q : ℤ) : Option ℝ := do
      let b ← at' q
      let bp ← at' (q + w)
      let bm ← at' (q - w)
      pure (quad b bp bm t)
    let x ← f p
    let y ← f (p + 1)
    let z ← f (p + 2)
    pure ⟨x, y, z⟩

end Verif.Geom
