import Verif.SkyDiff
import Verif.Props.PlanetPanel

/-!
# C108: what is zero at a conjunction, an opposition, a station
-/

namespace Verif.Geom

open Real Verif.Precession

/-- the direction from the origin in the plane of `x` and `y` -/
def OffAxis (v : V3) : Prop := v.x ≠ 0 ∨ v.y ≠ 0

/-- the two points lie in the same half plane bounded by the axis: on one meridian -/
def SameMeridian (v w : V3) : Prop := v.x * w.y = v.y * w.x ∧ 0 < v.x * w.x + v.y * w.y

theorem llr_turn' (s : V3) (a : ℝ) : llr2xyz ⟨s.x + a, s.y, s.z⟩ = rotZ a (llr2xyz s) := by
  unfold llr2xyz rotZ
  simp only [cos_add, sin_add, V3.mk.injEq]
  refine ⟨by ring, by ring, trivial⟩

/-- the equatorial place of a point whose ecliptic place is known -/
theorem conv_ok (p : V3) (E : ℝ) (hW : -(π / 2) < p.y ∧ p.y < π / 2) (hz : 0 ≤ p.z) : Spherical (llrConv p E) (rotX E (llr2xyz p)) := by
  obtain ⟨h1, h2⟩ := c38_rotation p E hW
  have h3 := c36_mrad_real (atan2 (sin p.x * cos E - tan p.y * sin E) (cos p.x))
  refine ⟨?_, h3.1, h3.2.1, Real.neg_pi_div_two_le_arcsin _, Real.arcsin_le_pi_div_two _, by rw [h2]; exact hz⟩
  rw [llr2xyz_dir (llrConv p E), h1, h2, llr2xyz_dir p, rotX_scale]

/-- the geocentric place -/
theorem geo_ok (z a : V3) (h : OffAxis (sub3 (llr2xyz z) (llr2xyz a))) :
    llr2xyz (h2g z a) = sub3 (llr2xyz z) (llr2xyz a) ∧ -(π / 2) < (h2g z a).y ∧ (h2g z a).y < π / 2 ∧ (h2g z a).z = dist3 (llr2xyz z) (llr2xyz a) ∧ 0 ≤ (h2g z a).x ∧ (h2g z a).x < 2 * π := by
  have hz := h2g_z z a
  obtain ⟨x1, x2, x3⟩ := c37_h2g z a (by
    unfold OffAxis at h
    simp only [sub3, ne_eq, sub_eq_zero] at h
    tauto)
  have hr := c37_range ⟨(llr2xyz z).x - (llr2xyz a).x, (llr2xyz z).y - (llr2xyz a).y, (llr2xyz z).z - (llr2xyz a).z⟩
  have hl : -(π / 2) < (h2g z a).y ∧ (h2g z a).y < π / 2 := arcsin_lt h
  exact ⟨v3_ext x1 x2 x3, hl.1, hl.2, hz, hr.1, hr.2.1⟩

/-- two longitudes agree up to whole turns exactly if the points are on one meridian -/
theorem meridian_iff {s v s' v' : V3} (hs : llr2xyz s = v) (hs' : llr2xyz s' = v') (hp : 0 < s.z * cos s.y) (hp' : 0 < s'.z * cos s'.y) :
    (∃ k : ℤ, s.x = s'.x + 2 * π * k) ↔ SameMeridian v v' := by
  have ex : v.x = s.z * cos s.y * cos s.x := by rw [← hs]; rfl
  have ey : v.y = s.z * cos s.y * sin s.x := by rw [← hs]; rfl
  have ex' : v'.x = s'.z * cos s'.y * cos s'.x := by rw [← hs']; rfl
  have ey' : v'.y = s'.z * cos s'.y * sin s'.x := by rw [← hs']; rfl
  unfold SameMeridian
  rw [ex, ey, ex', ey']
  generalize s.z * cos s.y = ρ at *
  generalize s'.z * cos s'.y = σ at *
  have hc : cos (s.x - s'.x) = cos s.x * cos s'.x + sin s.x * sin s'.x := cos_sub _ _
  have hsn : sin (s.x - s'.x) = sin s.x * cos s'.x - cos s.x * sin s'.x := sin_sub _ _
  have hps : 0 < ρ * σ := mul_pos hp hp'
  constructor
  · rintro ⟨k, hk⟩
    have e1 : cos s.x = cos s'.x := by rw [hk, show s'.x + 2 * π * k = s'.x + k * (2 * π) by ring, cos_add_int_mul_two_pi]
    have e2 : sin s.x = sin s'.x := by rw [hk, show s'.x + 2 * π * k = s'.x + k * (2 * π) by ring, sin_add_int_mul_two_pi]
    rw [e1, e2]
    refine ⟨by ring, ?_⟩
    have : ρ * cos s'.x * (σ * cos s'.x) + ρ * sin s'.x * (σ * sin s'.x) = ρ * σ * (sin s'.x ^ 2 + cos s'.x ^ 2) := by ring
    rw [this, sin_sq_add_cos_sq]; linarith
  · rintro ⟨h1, h2⟩
    have s0 : sin (s.x - s'.x) = 0 := by
      rw [hsn]
      have : ρ * σ * (sin s.x * cos s'.x - cos s.x * sin s'.x) = 0 := by linear_combination -h1
      rcases mul_eq_zero.1 this with h | h
      · exact absurd h (ne_of_gt hps)
      · exact h
    have c0 : 0 < cos (s.x - s'.x) := by
      rw [hc]
      have e : ρ * cos s.x * (σ * cos s'.x) + ρ * sin s.x * (σ * sin s'.x) = ρ * σ * (cos s.x * cos s'.x + sin s.x * sin s'.x) := by ring
      rw [e] at h2
      exact (pos_iff_pos_of_mul_pos h2).1 hps
    have c1 : cos (s.x - s'.x) = 1 := by
      have := sin_sq_add_cos_sq (s.x - s'.x)
      rw [s0] at this
      nlinarith
    obtain ⟨k, hk⟩ := (Real.cos_eq_one_iff _).1 c1
    exact ⟨k, by linear_combination -hk⟩

theorem rho_pos {s v : V3} (hs : Spherical s v) (h : OffAxis v) : 0 < s.z * cos s.y := by
  obtain ⟨h1, -, -, h4, h5, h6⟩ := hs
  have hc : 0 ≤ cos s.y := cos_nonneg_of_mem_Icc ⟨h4, h5⟩
  rcases lt_or_eq_of_le (mul_nonneg h6 hc) with g | g
  · exact g
  · exfalso
    have ex : v.x = s.z * cos s.y * cos s.x := by rw [← h1]; rfl
    have ey : v.y = s.z * cos s.y * sin s.x := by rw [← h1]; rfl
    rw [← g, zero_mul] at ex ey
    rcases h with h | h
    · exact h ex
    · exact h ey

theorem rrad_zero (v : ℝ) : rrad v = 0 ↔ ∃ k : ℤ, v = 2 * π * k := by
  constructor
  · intro h
    obtain ⟨-, -, k, hk⟩ := c36_rrad_real v
    exact ⟨-k, by rw [h] at hk; push_cast; linarith⟩
  · rintro ⟨k, hk⟩
    exact c36_rrad_unique v 0 ⟨by linarith [pi_pos], by linarith [pi_pos]⟩ (-k) (by rw [hk]; push_cast; ring)

/-- **C108 (moon and planet).**  `xingMP` compares the moon with a planet: `gm` and `gp` are the places of the moon (at `t` less its light time) and of the planet seen from the Earth (both at
`t` less the planet's light time), turned by the nutation and referred to the equator of obliquity `E + dE`.  The first number is the difference of the right ascensions, brought between -π and π;
it is 0 exactly if the two are on one meridian of the sky.  The second is the difference of declinations, the others are the light times in centuries. -/
theorem c108_moon_planet (e : DiffEnv) (xt : ℕ) (t : ℝ) (n : ℤ) (E τm τp dL dE : ℝ) (P A M gm gp : V3)
    (hP : P = llr2xyz (e.planet xt (t - τp) n)) (hA : A = llr2xyz (e.planet 0 (t - τp) n)) (hM : M = llr2xyz (e.moon (t - τm) n))
    (hm : -(π / 2) < (e.moon (t - τm) n).y ∧ (e.moon (t - τm) n).y < π / 2) (hr : 0 ≤ (e.moon (t - τm) n).z) (hp : OffAxis (sub3 P A))
    (hgm : gm = rotX (E + dE) (rotZ dL M)) (hgp : gp = rotX (E + dE) (rotZ dL (sub3 P A))) (am : OffAxis gm) (ap : OffAxis gp) :
    ∃ sm sp : V3, ∃ d : ℝ, Spherical sm gm ∧ Spherical sp gp ∧
      xingMP e xt t n E (τm, τp, dL, dE) = (d, sm.y - sp.y, (e.moon (t - τm) n).z / 299792.458 / 86400 / 36525, dist3 P A * 149597870.691 / 299792.458 / 86400 / 36525) ∧
      (-π < d ∧ d ≤ π ∧ ∃ k : ℤ, d = sm.x - sp.x + 2 * π * k) ∧ (d = 0 ↔ SameMeridian gm gp) := by
  rw [hP, hA] at hp
  obtain ⟨g1, g2, g3, g4, -, -⟩ := geo_ok _ _ hp
  generalize hw : h2g (e.planet xt (t - τp) n) (e.planet 0 (t - τp) n) = w at *
  have cm := conv_ok ⟨(e.moon (t - τm) n).x + dL, (e.moon (t - τm) n).y, (e.moon (t - τm) n).z⟩ (E + dE) hm hr
  have cp := conv_ok ⟨w.x + dL, w.y, w.z⟩ (E + dE) ⟨g2, g3⟩ (show 0 ≤ w.z by rw [g4]; exact Real.sqrt_nonneg _)
  rw [llr_turn', ← hM, ← hgm] at cm
  rw [llr_turn', g1, ← hP, ← hA, ← hgp] at cp
  refine ⟨_, _, rrad ((llrConv ⟨(e.moon (t - τm) n).x + dL, (e.moon (t - τm) n).y, (e.moon (t - τm) n).z⟩ (E + dE)).x - (llrConv ⟨w.x + dL, w.y, w.z⟩ (E + dE)).x), cm, cp, ?_, c36_rrad_real _, ?_⟩
  · unfold xingMP
    simp only []
    rw [hw]
    refine Prod.ext rfl (Prod.ext rfl (Prod.ext ?_ ?_))
    · show (llrConv _ _).z / lightSpeed / 86400 / 36525.0 = _
      unfold lightSpeed llrConv
      norm_num
    · show (llrConv _ _).z / lightSpeed / 86400 / 36525.0 * AU = _
      unfold lightSpeed AU llrConv
      simp only []
      rw [g4, hP, hA, show (36525.0 : ℝ) = 36525 by norm_num]
      generalize dist3 _ _ = D
      field_simp
  · rw [rrad_zero, ← meridian_iff cm.1 cp.1 (rho_pos cm am) (rho_pos cp ap)]
    exact ⟨fun ⟨k, hk⟩ => ⟨k, by linarith⟩, fun ⟨k, hk⟩ => ⟨k, by linarith⟩⟩

/-- **C108 (sun and planet).**  `xingSP` compares the planet with the sun in longitude: the sun is opposite to the Earth's heliocentric place at `t - ts`, the planet is seen from the Earth, both at `t - tp`.
The first number is how much the difference of longitudes exceeds `w0`, brought between -π and π: it is 0 exactly if the planet is on the meridian of the sun turned by `w0` (0: conjunction, π: opposition). -/
theorem c108_planet_sun (e : DiffEnv) (xt : ℕ) (t : ℝ) (n : ℤ) (w0 ts tp : ℝ) (P A S : V3)
    (hP : P = llr2xyz (e.planet xt (t - tp) n)) (hA : A = llr2xyz (e.planet 0 (t - tp) n)) (hS : S = scale3 (-1) (llr2xyz (e.planet 0 (t - ts) n)))
    (hy : -(π / 2) < (e.planet 0 (t - ts) n).y ∧ (e.planet 0 (t - ts) n).y < π / 2) (hr : 0 < (e.planet 0 (t - ts) n).z) (hp : OffAxis (sub3 P A)) :
    ∃ sp ss : V3, ∃ d : ℝ, Spherical sp (sub3 P A) ∧ (llr2xyz ss = S ∧ -(π / 2) < ss.y ∧ ss.y < π / 2 ∧ ss.z = (e.planet 0 (t - ts) n).z) ∧
      xingSP e xt t n w0 ts tp = (d, sp.y - ss.y, ss.z * (149597870.691 / 299792.458 / 86400 / 36525), dist3 P A * (149597870.691 / 299792.458 / 86400 / 36525)) ∧
      (-π < d ∧ d ≤ π ∧ ∃ k : ℤ, d = sp.x - ss.x - w0 + 2 * π * k) ∧ (d = 0 ↔ SameMeridian (sub3 P A) (rotZ w0 S)) := by
  have ag : agx = 149597870.691 / 299792.458 / 86400 / 36525 := by unfold agx AU lightSpeed; norm_num
  rw [hP, hA] at hp
  obtain ⟨g1, g2, g3, g4, g5, g6⟩ := geo_ok _ _ hp
  generalize hw : h2g (e.planet xt (t - tp) n) (e.planet 0 (t - tp) n) = w at *
  generalize hs : e.planet 0 (t - ts) n = s at *
  have hSS : llr2xyz ⟨s.x + π, -s.y, s.z⟩ = S := by
    rw [hS]
    unfold llr2xyz scale3
    simp only [cos_add_pi, sin_add_pi, cos_neg, sin_neg, V3.mk.injEq]
    refine ⟨by ring, by ring, by ring⟩
  have sw : Spherical w (sub3 P A) := by
    rw [hP, hA]
    exact ⟨g1, g5, g6, g2.le, g3.le, by rw [g4]; exact Real.sqrt_nonneg _⟩
  refine ⟨w, ⟨s.x + π, -s.y, s.z⟩, rrad (w.x - (s.x + π) - w0), sw, ⟨hSS, by show -(π / 2) < -s.y; linarith [hy.2], by show -s.y < π / 2; linarith [hy.1], rfl⟩, ?_, c36_rrad_real _, ?_⟩
  · unfold xingSP
    simp only []
    rw [hw, hs, g4, hP, hA, ag]
  · have hp' : OffAxis (sub3 P A) := by rw [hP, hA]; exact hp
    have h0 : llr2xyz ⟨s.x + π + w0, -s.y, s.z⟩ = rotZ w0 S := by
      have := llr_turn' ⟨s.x + π, -s.y, s.z⟩ w0
      rw [hSS] at this
      exact this
    have hc : 0 < s.z * cos (-s.y) := mul_pos hr (by rw [cos_neg]; exact cos_pos_of_mem_Ioo ⟨hy.1, hy.2⟩)
    rw [rrad_zero, ← meridian_iff sw.1 h0 (rho_pos sw hp') hc]
    exact ⟨fun ⟨k, hk⟩ => ⟨k, by show w.x = s.x + π + w0 + 2 * π * k; linarith⟩, fun ⟨k, hk⟩ => ⟨k, by
      have hk' : w.x = s.x + π + w0 + 2 * π * k := hk
      linarith⟩⟩

/-- **C108 (station).**  `xingLiu0` gives right ascension, declination and distance of the planet at `t - gxs` seen from the Earth at `t - gxs`; with a light time also the nutation of the
instant is applied, in longitude and in the obliquity. -/
theorem c108_apparent (e : DiffEnv) (xt : ℕ) (t : ℝ) (n : ℤ) (gxs : ℝ) (P A : V3) (hP : P = llr2xyz (e.planet xt (t - gxs) n)) (hA : A = llr2xyz (e.planet 0 (t - gxs) n)) (hp : OffAxis (sub3 P A)) :
    (gxs ≠ 0 → Spherical (xingLiu0 e xt t n gxs) (rotX (e.hcjj t + (e.nut t).2) (rotZ (e.nut t).1 (sub3 P A)))) ∧
    (gxs = 0 → Spherical (xingLiu0 e xt t n gxs) (rotX (e.hcjj t) (sub3 P A))) ∧ (xingLiu0 e xt t n gxs).z = dist3 P A := by
  rw [hP, hA] at hp
  obtain ⟨g1, g2, g3, g4, -, -⟩ := geo_ok _ _ hp
  generalize hw : h2g (e.planet xt (t - gxs) n) (e.planet 0 (t - gxs) n) = w at *
  have hz : 0 ≤ w.z := by rw [g4]; exact Real.sqrt_nonneg _
  refine ⟨fun h => ?_, fun h => ?_, ?_⟩
  · have := conv_ok ⟨w.x + (e.nut t).1, w.y, w.z⟩ (e.hcjj t + (e.nut t).2) ⟨g2, g3⟩ hz
    rw [llr_turn', g1, ← hP, ← hA] at this
    unfold xingLiu0
    simp only []
    rw [if_pos h, hw]
    exact this
  · have := conv_ok w (e.hcjj t) ⟨g2, g3⟩ hz
    rw [g1, ← hP, ← hA] at this
    unfold xingLiu0
    simp only []
    rw [if_neg (by simpa using h), hw]
    exact this
  · unfold xingLiu0
    simp only []
    rw [hw, hP, hA, ← g4]
    split <;> rfl

/-! ## a concrete case: Earth, planet and moon on one line -/

/-- the Earth at distance 1, the planet at distance 2, the moon 400000 km away, all in direction 0 -/
def lineUp : DiffEnv := ⟨fun _ => (0, 0), fun _ => 0, fun xt _ _ => ⟨0, 0, if xt = 0 then 1 else 2⟩, fun _ _ => ⟨0, 0, 400000⟩⟩

example : (xingMP lineUp 4 0 8 0 (0, 0, 0, 0)).1 = 0 := by
  have hr : ∀ v : V3, rotX (0 + 0) (rotZ 0 v) = v := by intro v; simp [rotX, rotZ]
  have e1 : llr2xyz (lineUp.planet 4 (0 - 0) 8) = ⟨2, 0, 0⟩ := by simp [llr2xyz, lineUp]
  have e2 : llr2xyz (lineUp.planet 0 (0 - 0) 8) = ⟨1, 0, 0⟩ := by simp [llr2xyz, lineUp]
  have e3 : llr2xyz (lineUp.moon (0 - 0) 8) = ⟨400000, 0, 0⟩ := by simp [llr2xyz, lineUp]
  have e4 : sub3 ⟨2, 0, 0⟩ ⟨1, 0, 0⟩ = (⟨1, 0, 0⟩ : V3) := by simp [sub3]; norm_num
  obtain ⟨sm, sp, d, -, -, h, -, h0⟩ := c108_moon_planet lineUp 4 0 8 0 0 0 0 0 ⟨2, 0, 0⟩ ⟨1, 0, 0⟩ ⟨400000, 0, 0⟩ ⟨400000, 0, 0⟩ ⟨1, 0, 0⟩ e1.symm e2.symm e3.symm
    (by simp [lineUp, pi_pos]) (by simp [lineUp]) (by rw [e4]; exact Or.inl one_ne_zero) (hr _).symm (by rw [e4]; exact (hr _).symm)
    (Or.inl (by norm_num)) (Or.inl one_ne_zero)
  rw [h]
  exact h0.2 ⟨by simp, by norm_num⟩

end Verif.Geom
