import Verif.PlanetPanel

/-!
# The functions whose zeros are conjunctions, oppositions and stations — /repo/eph/eph.cpp:65-82, 131-145, 175-187

Exact real arithmetic.  Parameters: the series (`p_coord`, `m_coord`, `nutation2`, `hcjj`), with the number of terms `n` they are asked for.
-/

namespace Verif.Geom

open Real Verif.Precession

/-- what the three functions use of the rest of the library -/
structure DiffEnv where
  /-- `nutation2` -/
  nut : ℝ → ℝ × ℝ
  hcjj : ℝ → ℝ
  /-- `p_coord(xt, t, n, n, n)` -/
  planet : ℕ → ℝ → ℤ → V3
  /-- `m_coord(t, n, n, n)` -/
  moon : ℝ → ℤ → V3

/-- `xingLiu0(xt, t, n, gxs)` — eph.cpp:65-82 -/
noncomputable def xingLiu0 (e : DiffEnv) (xt : ℕ) (t : ℝ) (n : ℤ) (gxs : ℝ) : V3 :=
  let E := e.hcjj t
  let a := e.planet 0 (t - gxs) n
  let z := e.planet xt (t - gxs) n
  let z := h2g z a
  if gxs ≠ 0 then
    let zd := e.nut t
    llrConv ⟨z.x + zd.1, z.y, z.z⟩ (E + zd.2)
  else llrConv z E

/-- `xingMP(xt, t, n, E, g)` — eph.cpp:131-145; `g`: the light times of moon and planet, the nutation in longitude and obliquity -/
noncomputable def xingMP (e : DiffEnv) (xt : ℕ) (t : ℝ) (n : ℤ) (E : ℝ) (g : ℝ × ℝ × ℝ × ℝ) : ℝ × ℝ × ℝ × ℝ :=
  let a := e.planet 0 (t - g.2.1) n
  let p := e.planet xt (t - g.2.1) n
  let m := e.moon (t - g.1) n
  let p := h2g p a
  let m : V3 := ⟨m.x + g.2.2.1, m.y, m.z⟩
  let p : V3 := ⟨p.x + g.2.2.1, p.y, p.z⟩
  let m := llrConv m (E + g.2.2.2)
  let p := llrConv p (E + g.2.2.2)
  (rrad (m.x - p.x), m.y - p.y, m.z / lightSpeed / 86400 / 36525.0, p.z / lightSpeed / 86400 / 36525.0 * AU)

/-- `xingSP(xt, t, n, w0, ts, tp)` — eph.cpp:175-187; `_pi` is π -/
noncomputable def xingSP (e : DiffEnv) (xt : ℕ) (t : ℝ) (n : ℤ) (w0 ts tp : ℝ) : ℝ × ℝ × ℝ × ℝ :=
  let a := e.planet 0 (t - tp) n
  let p := e.planet xt (t - tp) n
  let s := e.planet 0 (t - ts) n
  let s : V3 := ⟨s.x + π, -s.y, s.z⟩
  let p := h2g p a
  (rrad (p.x - s.x - w0), p.y - s.y, s.z * agx, p.z * agx)

end Verif.Geom
