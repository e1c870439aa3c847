import Verif.PlanetPanel
import Verif.Props.SkyPanel
import Mathlib.Analysis.InnerProductSpace.PiL2

/-!
# C96: the panel of a planet, the sun or the moon
-/

namespace Verif.Geom

open Real Verif.Precession

/-! ## Specification -/

def sub3 (a b : V3) : V3 := ⟨a.x - b.x, a.y - b.y, a.z - b.z⟩
def scale3 (k : ℝ) (a : V3) : V3 := ⟨k * a.x, k * a.y, k * a.z⟩

/-- `s` are the spherical coordinates (longitude in [0, 2π), latitude, distance) of the point `v` -/
def Spherical (s v : V3) : Prop := llr2xyz s = v ∧ 0 ≤ s.x ∧ s.x < 2 * π ∧ -(π / 2) ≤ s.y ∧ s.y ≤ π / 2 ∧ 0 ≤ s.z

/-- azimuth `a` (from the south through the west) and altitude `h` of the direction `p` at a site -/
def Horizontal (a h : ℝ) (p : V3) (θ fa : ℝ) : Prop :=
  0 ≤ a ∧ a < 2 * π ∧ -(π / 2) ≤ h ∧ h ≤ π / 2 ∧ ∃ r, 0 ≤ r ∧ r * sin h = dot3 p (up θ fa) ∧ r * (cos h * cos a) = dot3 p (south θ fa) ∧ r * (cos h * sin a) = dot3 p (west θ)

/-- what the panel says about a body whose place (nutation included, ecliptic of date) is `g`, in units of `k` kilometres, at an instant of obliquity `E` and sidereal time `gst`: the text `s` gives its ecliptic and
equatorial place, the place seen from the site (the sea level ellipsoid, longitude `L`, latitude `fa`), azimuth and altitude there (lifted by refraction when above the horizon) and the
sidereal times; `ra`, `rb`, `rc` are the distances shown, with `n` digits -/
def Panel (e : PlanetEnv) (g : V3) (k E gst gstPing L fa ra rb rc : ℝ) (n : ℕ) (s : String) : Prop :=
  ∃ ecl equ top : V3, ∃ az alt : ℝ, Spherical ecl g ∧ Spherical equ (rotX E g)
    ∧ Spherical top (sub3 (scale3 k (rotX E g)) (site (gst + L) fa 0))
    ∧ Horizontal az alt (sub3 (scale3 k (rotX E g)) (site (gst + L) fa 0)) (gst + L) fa
    ∧ s = "视黄经 " ++ e.ang ecl.x false ++ " 视黄纬 " ++ e.ang ecl.y false ++ " 地心距 " ++ e.num ra n ++ "\n"
      ++ "视赤经 " ++ e.ang equ.x true ++ " 视赤纬 " ++ e.ang equ.y false ++ " 光行距 " ++ e.num rb n ++ "\n"
      ++ "站赤经 " ++ e.ang top.x true ++ " 站赤纬 " ++ e.ang top.y false ++ " 视距离 " ++ e.num rc n ++ "\n"
      ++ "方位角 " ++ e.ang az false ++ " 高度角 " ++ e.ang (if alt > 0 then alt + mqc alt else alt) false ++ "\n"
      ++ "恒星时 " ++ e.ang (mrad gstPing) true ++ "(平) " ++ e.ang (mrad gst) true ++ "(真)\n"

/-! ## Proof -/

theorem rrad_mrad (v : ℝ) : rrad v = if mrad v > π then mrad v - 2 * π else mrad v := by
  obtain ⟨S, h, h1, h2, k, hk⟩ := mrad_half v
  rw [← h]
  exact c36_rrad_unique v S ⟨h1, h2⟩ k hk

theorem llr2xyz_dir (s : V3) : llr2xyz s = scale3 s.z (dir s.x s.y) := by
  unfold llr2xyz scale3 dir
  simp only [V3.mk.injEq]
  refine ⟨by ring, by ring, trivial⟩

theorem rotX_scale (k E : ℝ) (v : V3) : rotX E (scale3 k v) = scale3 k (rotX E v) := by
  unfold rotX scale3
  simp only [V3.mk.injEq]
  refine ⟨trivial, by ring, by ring⟩

theorem scale_scale (a b : ℝ) (v : V3) : scale3 a (scale3 b v) = scale3 (b * a) v := by
  unfold scale3
  simp only [V3.mk.injEq]
  refine ⟨by ring, by ring, by ring⟩

theorem panel_text (e : PlanetEnv) (z : V3) (E gst gstPing L fa ra rb : ℝ) (n : ℕ) (b : SkyBody) (hb : b = skyBody z E gst L fa 0) :
    (twoLines e z E ra rb n).1 ++ lastLines e (twoLines e z E ra rb n).2 z.z n gst gstPing L fa
    = "视黄经 " ++ e.ang z.x false ++ " 视黄纬 " ++ e.ang z.y false ++ " 地心距 " ++ e.num ra n ++ "\n"
      ++ "视赤经 " ++ e.ang b.CJ true ++ " 视赤纬 " ++ e.ang b.CW false ++ " 光行距 " ++ e.num rb n ++ "\n"
      ++ "站赤经 " ++ e.ang b.CJ2 true ++ " 站赤纬 " ++ e.ang b.CW2 false ++ " 视距离 " ++ e.num z.z n ++ "\n"
      ++ "方位角 " ++ e.ang b.PJ false ++ " 高度角 " ++ e.ang b.PW false ++ "\n"
      ++ "恒星时 " ++ e.ang (mrad gstPing) true ++ "(平) " ++ e.ang (mrad gst) true ++ "(真)\n" := by
  have h : lastLines e (llrConv z E) z.z n gst gstPing L fa
    = "站赤经 " ++ e.ang b.CJ2 true ++ " 站赤纬 " ++ e.ang b.CW2 false ++ " 视距离 " ++ e.num z.z n ++ "\n"
      ++ "方位角 " ++ e.ang b.PJ false ++ " 高度角 " ++ e.ang b.PW false ++ "\n"
      ++ "恒星时 " ++ e.ang (mrad gstPing) true ++ "(平) " ++ e.ang (mrad gst) true ++ "(真)\n" := by
    rw [hb]
    unfold lastLines
    rw [rrad_mrad]
    rfl
  have h2 : (twoLines e z E ra rb n).2 = llrConv z E := rfl
  have h3 : (twoLines e z E ra rb n).1 = "视黄经 " ++ e.ang z.x false ++ " 视黄纬 " ++ e.ang z.y false ++ " 地心距 " ++ e.num ra n ++ "\n"
      ++ "视赤经 " ++ e.ang b.CJ true ++ " 视赤纬 " ++ e.ang b.CW false ++ " 光行距 " ++ e.num rb n ++ "\n" := by
    rw [hb]; rfl
  rw [h2, h, h3]
  simp only [String.append_assoc]

/-- the panel of the place `z` -/
theorem panel_ok (e : PlanetEnv) (z : V3) (E gst gstPing L fa ra rb : ℝ) (n : ℕ) (hz : 0 ≤ z.x ∧ z.x < 2 * π) (hW : -(π / 2) < z.y ∧ z.y < π / 2) (hR : 0 ≤ z.z)
    (g : V3) (hg : g = llr2xyz z) (p : V3) (hp : p = sub3 (scale3 (unit z.z) (rotX E g)) (site (gst + L) fa 0)) (hax : p.x ≠ 0 ∨ p.y ≠ 0) :
    Panel e g (unit z.z) E gst gstPing L fa ra rb z.z n ((twoLines e z E ra rb n).1 ++ lastLines e (twoLines e z E ra rb n).2 z.z n gst gstPing L fa) := by
  obtain ⟨b, hb⟩ : ∃ b, b = skyBody z E gst L fa 0 := ⟨_, rfl⟩
  rw [panel_text e z E gst gstPing L fa ra rb n b hb]
  have k0 : 0 < unit z.z := by unfold unit AU; split_ifs <;> norm_num
  have bR : b.R = z.z := by rw [hb]; rfl
  have rot : rotX E g = scale3 z.z (rotX E (dir z.x z.y)) := by rw [hg, llr2xyz_dir, rotX_scale]
  have dirE : dir b.CJ b.CW = rotX E (dir z.x z.y) := by rw [hb]; exact (c38_rotation z E hW).1
  have hB : scale3 (unit z.z) (rotX E g) = llr2xyz ⟨b.CJ, b.CW, b.R * unit z.z⟩ := by
    rw [rot, llr2xyz_dir, scale_scale]
    simp only
    rw [dirE, bR]
  obtain ⟨h1, h2, h3, h4, h5, h6, h7, h8, h9, h10⟩ := c72_body z E gst L fa 0 (gst + L) b hb rfl hW (unit z.z) rfl (scale3 (unit z.z) (rotX E g)) (site (gst + L) fa 0) p hB rfl
    (by rw [hp]; rfl) hax
  have c1 : 0 ≤ b.CJ ∧ b.CJ < 2 * π := by rw [hb]; exact conv_lon z E
  have c2 : -(π / 2) ≤ b.CW ∧ b.CW ≤ π / 2 := by rw [hb]; exact conv_lat z E
  have c3 : 0 ≤ b.CJ2 ∧ b.CJ2 < 2 * π ∧ -(π / 2) ≤ b.CW2 ∧ b.CW2 ≤ π / 2 ∧ 0 ≤ b.R2 := by
    rw [hb]; exact (c57_parallax _ _ _ _).2
  refine ⟨z, ⟨b.CJ, b.CW, z.z⟩, ⟨b.CJ2, b.CW2, b.R2 * unit z.z⟩, b.DJ, b.DW, ⟨hg.symm, hz.1, hz.2, hW.1.le, hW.2.le, hR⟩, ⟨?_, c1.1, c1.2, c2.1, c2.2, hR⟩,
    ⟨?_, c3.1, c3.2.1, c3.2.2.1, c3.2.2.2.1, mul_nonneg c3.2.2.2.2 k0.le⟩, ⟨h8.1, h8.2.1, h8.2.2.1, h8.2.2.2.1, b.R2 * unit z.z, mul_nonneg c3.2.2.2.2 k0.le, ?_, ?_, ?_⟩, ?_⟩
  · rw [llr2xyz_dir, rot]
    simp only
    rw [dirE]
  · rw [h4, hp]
  · rw [h5, hp]
  · rw [h6, hp]
  · rw [h7, hp]
  · rw [h9, h10]

theorem h2g_z (z a : V3) : (h2g z a).z = dist3 (llr2xyz z) (llr2xyz a) := by
  unfold h2g xyz2llr dist3
  simp only [sq]

theorem llr_turn (s : V3) (a : ℝ) : llr2xyz ⟨mrad (s.x + a), s.y, s.z⟩ = rotZ a (llr2xyz s) := by
  unfold llr2xyz rotZ
  simp only [cos_mrad, sin_mrad, cos_add, sin_add, V3.mk.injEq]
  refine ⟨by ring, by ring, trivial⟩

theorem arcsin_lt {x y z : ℝ} (h : x ≠ 0 ∨ y ≠ 0) : -(π / 2) < arcsin (z / √(x * x + y * y + z * z)) ∧ arcsin (z / √(x * x + y * y + z * z)) < π / 2 := by
  have hp : 0 < x * x + y * y := by
    rcases h with h | h
    · have := mul_self_pos.2 h; nlinarith [mul_self_nonneg y]
    · have := mul_self_pos.2 h; nlinarith [mul_self_nonneg x]
  have hs : 0 < √(x * x + y * y + z * z) := Real.sqrt_pos.2 (by nlinarith [mul_self_nonneg z])
  have hz : |z| < √(x * x + y * y + z * z) := by
    rw [← Real.sqrt_sq_eq_abs]
    exact Real.sqrt_lt_sqrt (sq_nonneg _) (by nlinarith)
  obtain ⟨a, b⟩ := abs_lt.1 hz
  constructor
  · rw [Real.neg_pi_div_two_lt_arcsin, lt_div_iff₀ hs]; linarith
  · rw [Real.arcsin_lt_pi_div_two, div_lt_one hs]; exact b

theorem rotZ_xy {a : ℝ} {v : V3} (h : (rotZ a v).x ≠ 0 ∨ (rotZ a v).y ≠ 0) : v.x ≠ 0 ∨ v.y ≠ 0 := by
  by_contra hc
  push Not at hc
  unfold rotZ at h
  simp [hc.1, hc.2] at h

/-- **C96 (planets and sun).**  `P` and `A` are the heliocentric places of the body and of the Earth.  The first line gives the heliocentric coordinates at the instant; the light time `τ` belongs to the
distance at that instant; the apparent place is the body at `T - τ` seen from the Earth at `T - τ`, turned by the nutation; the rest is as `Panel` says.  The distances shown are the one at the
instant, the one the light travelled and the apparent one. -/
theorem c96_planet (e : PlanetEnv) {xt : ℕ} (hx : xt ≤ 9) (jd L fa T τ E gst : ℝ) (P A : ℝ → V3) (g p : V3)
    (hT : T = jd / 36525) (hP : ∀ t, P t = llr2xyz (e.planet xt t)) (hA : ∀ t, A t = llr2xyz (e.planet 0 t))
    (hτ : τ = dist3 (P T) (A T) * (149597870.691 / 299792.458 / 86400 / 36525))
    (hE : E = e.hcjj T + (e.nut T).2) (hgst : gst = e.pGST2 jd + (e.nut T).1 * cos E)
    (hg : g = rotZ (e.nut T).1 (sub3 (P (T - τ)) (A (T - τ)))) (hxy : g.x ≠ 0 ∨ g.y ≠ 0)
    (hp : p = sub3 (scale3 (unit (dist3 (P (T - τ)) (A (T - τ)))) (rotX E g)) (site (gst + L) fa 0)) (hax : p.x ≠ 0 ∨ p.y ≠ 0) :
    ∃ s, xingX e xt jd L fa = some ("黄经一 " ++ e.ang (mrad (e.planet xt T).x) false ++ " 黄纬一 " ++ e.ang (e.planet xt T).y false ++ " 向径一 " ++ e.num (e.planet xt T).z 8 ++ "\n" ++ s)
      ∧ Panel e g (unit (dist3 (P (T - τ)) (A (T - τ)))) E gst (e.pGST2 jd) L fa (dist3 (P T) (A T)) (dist3 (P (T - τ)) (A T)) (dist3 (P (T - τ)) (A (T - τ))) 8 s := by
  have ag : agx = 149597870.691 / 299792.458 / 86400 / 36525 := by unfold agx AU lightSpeed; norm_num
  have m0 : llr2xyz ⟨mrad (e.planet xt T).x, (e.planet xt T).y, (e.planet xt T).z⟩ = P T := by
    rw [hP]; unfold llr2xyz; simp only [cos_mrad, sin_mrad]
  have ra : (h2g ⟨mrad (e.planet xt T).x, (e.planet xt T).y, (e.planet xt T).z⟩ (e.planet 0 T)).z = dist3 (P T) (A T) := by
    rw [h2g_z, m0, hA]
  have rb : (h2g (e.planet xt (T - τ)) (e.planet 0 T)).z = dist3 (P (T - τ)) (A T) := by rw [h2g_z, hP, hA]
  obtain ⟨w, hw⟩ : ∃ w, w = h2g (e.planet xt (T - τ)) (e.planet 0 (T - τ)) := ⟨_, rfl⟩
  have rc : w.z = dist3 (P (T - τ)) (A (T - τ)) := by rw [hw, h2g_z, hP, hA]
  have hxy' : (sub3 (P (T - τ)) (A (T - τ))).x ≠ 0 ∨ (sub3 (P (T - τ)) (A (T - τ))).y ≠ 0 := rotZ_xy (a := (e.nut T).1) (by rw [← hg]; exact hxy)
  have wv : llr2xyz w = sub3 (P (T - τ)) (A (T - τ)) := by
    obtain ⟨x1, x2, x3⟩ := c37_h2g (e.planet xt (T - τ)) (e.planet 0 (T - τ)) (by
      rw [hP, hA] at hxy'
      simp only [sub3, ne_eq, sub_eq_zero] at hxy'
      tauto)
    rw [hw, hP, hA]
    exact v3_ext x1 x2 x3
  obtain ⟨z, hz⟩ : ∃ z : V3, z = ⟨mrad (w.x + (e.nut T).1), w.y, w.z⟩ := ⟨_, rfl⟩
  have zz : z.z = dist3 (P (T - τ)) (A (T - τ)) := by rw [hz]; exact rc
  have zg : g = llr2xyz z := by rw [hz, llr_turn, wv, hg]
  have zx : 0 ≤ z.x ∧ z.x < 2 * π := by
    have := c36_mrad_real (w.x + (e.nut T).1)
    rw [hz]; exact ⟨this.1, this.2.1⟩
  have zy : -(π / 2) < z.y ∧ z.y < π / 2 := by
    have e1 : z.y = w.y := by rw [hz]
    rw [e1, hw]
    rw [hP, hA] at hxy'
    exact arcsin_lt hxy'
  have zr : 0 ≤ z.z := by rw [zz]; exact Real.sqrt_nonneg _
  refine ⟨(twoLines e z E (dist3 (P T) (A T)) (dist3 (P (T - τ)) (A T)) 8).1 ++ lastLines e (twoLines e z E (dist3 (P T) (A T)) (dist3 (P (T - τ)) (A T)) 8).2 z.z 8 gst (e.pGST2 jd) L fa, ?_, ?_⟩
  · unfold xingX
    simp only []
    rw [if_neg (by omega), if_pos (by omega)]
    simp only [Int.toNat_natCast, ← hT, ← hE]
    rw [ra, ag, ← hτ, rb, ← hw, ← hz, ← hgst, rc, zz]
    simp only [String.append_assoc]
  · have := panel_ok e z E gst (e.pGST2 jd) L fa (dist3 (P T) (A T)) (dist3 (P (T - τ)) (A T)) 8 zx zy zr g zg p (by rw [hp, zz]) hax
    rw [zz] at this ⊢
    exact this

/-- **C96 (moon).**  The same for the moon, whose place is geocentric, in kilometres: the light time belongs to the distance at the instant; the apparent place is the geocentric one at `T - τ`,
turned by the nutation; the light travelled from there to where the Earth is at `T`. -/
theorem c96_moon (e : PlanetEnv) (jd L fa T τ E gst : ℝ) (A : ℝ → V3) (g p : V3)
    (hT : T = jd / 36525) (hA : ∀ t, A t = llr2xyz (e.earth15 t)) (hτ : τ = (e.moon1 T).z / 299792.458 / 86400 / 36525)
    (hE : E = e.hcjj T + (e.nut T).2) (hgst : gst = e.pGST2 jd + (e.nut T).1 * cos E)
    (hy : -(π / 2) < (e.moon (T - τ)).y ∧ (e.moon (T - τ)).y < π / 2) (hr : 500 ≤ (e.moon (T - τ)).z) (hm : A T ≠ A (T - τ))
    (hg : g = rotZ (e.nut T).1 (llr2xyz (e.moon (T - τ)))) (hp : p = sub3 (rotX E g) (site (gst + L) fa 0)) (hax : p.x ≠ 0 ∨ p.y ≠ 0) :
    ∃ s, xingX e 10 jd L fa = some s
      ∧ Panel e g 1 E gst (e.pGST2 jd) L fa (e.moon1 T).z (dist3 (llr2xyz (e.moon (T - τ))) (scale3 149597870.691 (sub3 (A T) (A (T - τ))))) (e.moon (T - τ)).z 2 s := by
  have ag : (e.moon1 T).z * agx / AU = τ := by
    have : agx = AU * (1 / 299792.458 / 86400 / 36525) := by unfold agx AU lightSpeed; norm_num
    have h : AU ≠ 0 := by unfold AU; norm_num
    rw [hτ, this]
    field_simp
  obtain ⟨w, hw⟩ : ∃ w, w = h2g (e.earth15 T) (e.earth15 (T - τ)) := ⟨_, rfl⟩
  have wv : llr2xyz w = sub3 (A T) (A (T - τ)) := by
    obtain ⟨x1, x2, x3⟩ := c37_h2g (e.earth15 T) (e.earth15 (T - τ)) (by
      rw [hA, hA] at hm
      by_contra hc
      push Not at hc
      exact hm (v3_ext hc.1 hc.2.1 hc.2.2))
    rw [hw, hA, hA]
    exact v3_ext x1 x2 x3
  have wa : llr2xyz ⟨w.x, w.y, w.z * AU⟩ = scale3 149597870.691 (sub3 (A T) (A (T - τ))) := by
    rw [← wv, llr2xyz_dir, llr2xyz_dir w, scale_scale]; rfl
  have rb : (h2g (e.moon (T - τ)) ⟨w.x, w.y, w.z * AU⟩).z = dist3 (llr2xyz (e.moon (T - τ))) (scale3 149597870.691 (sub3 (A T) (A (T - τ)))) := by rw [h2g_z, wa]
  obtain ⟨z, hz⟩ : ∃ z : V3, z = ⟨mrad ((e.moon (T - τ)).x + (e.nut T).1), (e.moon (T - τ)).y, (e.moon (T - τ)).z⟩ := ⟨_, rfl⟩
  have zz : z.z = (e.moon (T - τ)).z := by rw [hz]
  have zg : g = llr2xyz z := by rw [hz, llr_turn, hg]
  have zx : 0 ≤ z.x ∧ z.x < 2 * π := by
    have := c36_mrad_real ((e.moon (T - τ)).x + (e.nut T).1)
    rw [hz]; exact ⟨this.1, this.2.1⟩
  have un : unit z.z = 1 := by unfold unit; rw [zz, if_neg (by linarith)]
  have one : ∀ v : V3, scale3 1 v = v := fun v => by unfold scale3; simp
  refine ⟨(twoLines e z E (e.moon1 T).z (dist3 (llr2xyz (e.moon (T - τ))) (scale3 149597870.691 (sub3 (A T) (A (T - τ))))) 2).1
    ++ lastLines e (twoLines e z E (e.moon1 T).z (dist3 (llr2xyz (e.moon (T - τ))) (scale3 149597870.691 (sub3 (A T) (A (T - τ))))) 2).2 z.z 2 gst (e.pGST2 jd) L fa, ?_, ?_⟩
  · unfold xingX
    simp only []
    rw [if_pos trivial]
    simp only [← hT, ← hE]
    rw [ag, ← hw, rb, ← hz, ← hgst, zz]
  · have := panel_ok e z E gst (e.pGST2 jd) L fa (e.moon1 T).z (dist3 (llr2xyz (e.moon (T - τ))) (scale3 149597870.691 (sub3 (A T) (A (T - τ))))) 2 zx (by rw [hz]; exact hy) (by rw [zz]; linarith) g zg p
      (by rw [hp, un, one]) hax
    rw [un, zz] at this
    rw [zz]
    exact this

/-- **C96 (light time).**  If the body never moves faster than `V` astronomical units a century, the light time used differs from the one of the way the light travelled by at most the fraction
`V / c` of it. -/
theorem c96_light (P : ℝ → V3) (o : V3) (T c V τ : ℝ) (hc : 0 < c) (hV : ∀ t u, dist3 (P t) (P u) ≤ V * |t - u|) (hτ : τ = dist3 (P T) o / c) :
    |τ - dist3 (P (T - τ)) o / c| ≤ V / c * τ := by
  have tri : ∀ a b o : V3, dist3 a o ≤ dist3 a b + dist3 b o := by
    intro a b o
    have h := fun v : V3 => EuclideanSpace.norm_eq (𝕜 := ℝ) (n := Fin 3) (WithLp.toLp 2 ![v.x, v.y, v.z])
    have d : ∀ u v : V3, dist3 u v = ‖(WithLp.toLp 2 ![u.x, u.y, u.z] : EuclideanSpace ℝ (Fin 3)) - WithLp.toLp 2 ![v.x, v.y, v.z]‖ := by
      intro u v
      rw [EuclideanSpace.norm_eq]
      unfold dist3
      simp [Fin.sum_univ_three]
    rw [d, d, d]
    exact norm_sub_le_norm_sub_add_norm_sub _ _ _
  have sym : ∀ a b : V3, dist3 a b = dist3 b a := by
    intro a b
    unfold dist3
    congr 1
    ring
  have h0 : 0 ≤ τ := by rw [hτ]; exact div_nonneg (Real.sqrt_nonneg _) hc.le
  have h1 := tri (P T) (P (T - τ)) o
  have h2 := tri (P (T - τ)) (P T) o
  have h3 := hV T (T - τ)
  rw [show T - (T - τ) = τ by ring, abs_of_nonneg h0] at h3
  rw [sym] at h2
  rw [sym (P (T - τ)) (P T)] at h2
  have h4 := sym o (P (T - τ))
  have e : τ - dist3 (P (T - τ)) o / c = (dist3 (P T) o - dist3 (P (T - τ)) o) / c := by rw [sub_div, ← hτ]
  rw [e, abs_div, abs_of_pos hc, div_mul_eq_mul_div]
  refine div_le_div_of_nonneg_right ?_ hc.le
  rw [abs_le]
  constructor <;> linarith

/-- **C96 (defect).**  For a number outside 0 … 10 the code uses values it never set. -/
theorem c96_unset (e : PlanetEnv) (xt : ℤ) (h : xt < 0 ∨ 10 < xt) (jd L fa : ℝ) : xingX e xt jd L fa = none := by
  unfold xingX
  simp only []
  rw [if_neg (by omega), if_neg (by omega)]

/-- a case: the Earth at distance 1 in the direction 0, a planet at distance 5 in the direction π/2, both at rest, seen from the equator at sidereal time π/2 -/
example : ∃ s t, xingX ⟨fun _ => (0, 0), fun _ => 0, fun _ => π / 2, fun n _ => if n = 0 then ⟨0, 0, 1⟩ else ⟨π / 2, 0, 5⟩, fun _ => ⟨0, 0, 1⟩, fun _ => ⟨0, 0, 400000⟩, fun _ => ⟨0, 0, 400000⟩,
    fun _ _ => "a", fun _ _ => "n"⟩ 5 0 0 0 = some (t ++ s) ∧ Panel ⟨fun _ => (0, 0), fun _ => 0, fun _ => π / 2, fun n _ => if n = 0 then ⟨0, 0, 1⟩ else ⟨π / 2, 0, 5⟩, fun _ => ⟨0, 0, 1⟩,
      fun _ => ⟨0, 0, 400000⟩, fun _ => ⟨0, 0, 400000⟩, fun _ _ => "a", fun _ _ => "n"⟩ ⟨-1, 5, 0⟩ (unit (dist3 ⟨0, 5, 0⟩ ⟨1, 0, 0⟩)) 0 (π / 2) (π / 2) 0 0
      (dist3 ⟨0, 5, 0⟩ ⟨1, 0, 0⟩) (dist3 ⟨0, 5, 0⟩ ⟨1, 0, 0⟩) (dist3 ⟨0, 5, 0⟩ ⟨1, 0, 0⟩) 8 s := by
  have k0 : 0 < unit (dist3 ⟨0, 5, 0⟩ ⟨1, 0, 0⟩) := by unfold unit AU; split_ifs <;> norm_num
  obtain ⟨s, h1, h2⟩ := c96_planet ⟨fun _ => (0, 0), fun _ => 0, fun _ => π / 2, fun n _ => if n = 0 then ⟨0, 0, 1⟩ else ⟨π / 2, 0, 5⟩, fun _ => ⟨0, 0, 1⟩, fun _ => ⟨0, 0, 400000⟩,
    fun _ => ⟨0, 0, 400000⟩, fun _ _ => "a", fun _ _ => "n"⟩ (xt := 5) (by norm_num) 0 0 0 0 _ 0 (π / 2) (fun _ => ⟨0, 5, 0⟩) (fun _ => ⟨1, 0, 0⟩) ⟨-1, 5, 0⟩ _ (by norm_num) (by intro t; simp [llr2xyz])
    (by intro t; simp [llr2xyz]) rfl (by simp) (by simp) (by simp [rotZ, sub3]) (Or.inl (by norm_num)) rfl (Or.inl (by
      simp only [sub3, scale3, rotX, site]
      simp only [add_zero, cos_pi_div_two, mul_zero, sub_zero]
      nlinarith))
  exact ⟨s, _, h1, h2⟩

end Verif.Geom
