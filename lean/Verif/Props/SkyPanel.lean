import Verif.SkyPanel
import Verif.Props.Precession
import Verif.Props.GeomCut
import Mathlib.Analysis.Real.Pi.Bounds
import Mathlib.Analysis.SpecialFunctions.Trigonometric.Bounds
import Mathlib.Tactic.LinearCombination

/-!
# C72: the sun and moon panel; C73: refraction; points of the Earth under a line (exact arithmetic)
-/

namespace Verif.Geom

open Real Verif.Precession

/-! ## Specification: directions at a site -/

/-- scalar product -/
def dot3 (a b : V3) : ℝ := a.x * b.x + a.y * b.y + a.z * b.z

/-- the vertical of a site of latitude `fa` whose meridian is at right ascension `θ` -/
noncomputable def up (θ fa : ℝ) : V3 := ⟨cos fa * cos θ, cos fa * sin θ, sin fa⟩
/-- horizontal, towards the south -/
noncomputable def south (θ fa : ℝ) : V3 := ⟨sin fa * cos θ, sin fa * sin θ, -cos fa⟩
/-- horizontal, towards the west -/
noncomputable def west (θ : ℝ) : V3 := ⟨sin θ, -cos θ, 0⟩

/-- the three directions are perpendicular unit vectors -/
theorem frame_orthonormal (θ fa : ℝ) : dot3 (up θ fa) (up θ fa) = 1 ∧ dot3 (south θ fa) (south θ fa) = 1 ∧ dot3 (west θ) (west θ) = 1
    ∧ dot3 (up θ fa) (south θ fa) = 0 ∧ dot3 (up θ fa) (west θ) = 0 ∧ dot3 (south θ fa) (west θ) = 0 := by
  have h1 := sin_sq_add_cos_sq θ
  have h2 := sin_sq_add_cos_sq fa
  unfold dot3 up south west
  refine ⟨?_, ?_, ?_, ?_, ?_, ?_⟩
  · linear_combination (cos fa) ^ 2 * h1 + h2
  · linear_combination (sin fa) ^ 2 * h1 + h2
  · linear_combination h1
  · linear_combination (sin fa * cos fa) * h1
  · ring
  · ring

theorem site_turn (θ fa high : ℝ) (k : ℤ) : site (θ + 2 * π * k) fa high = site θ fa high := by
  unfold site
  rw [show θ + 2 * π * k = θ + k * (2 * π) by ring, cos_add_int_mul_two_pi, sin_add_int_mul_two_pi]

theorem mrad_half (v : ℝ) : ∃ S, S = (if mrad v > π then mrad v - 2 * π else mrad v) ∧ -π < S ∧ S ≤ π ∧ ∃ k : ℤ, S = v + 2 * π * k := by
  obtain ⟨h1, h2, k, hk⟩ := c36_mrad_real v
  have hp := pi_pos
  by_cases h : mrad v > π
  · refine ⟨_, rfl, ?_, ?_, k - 1, ?_⟩
    · rw [if_pos h]; linarith
    · rw [if_pos h]; linarith
    · rw [if_pos h, hk]; push_cast; ring
  · refine ⟨_, rfl, ?_, ?_, k, ?_⟩
    · rw [if_neg h]; linarith
    · rw [if_neg h]; linarith
    · rw [if_neg h, hk]

/-- **C72 (one body).**  `b` is what the panel shows of a body at the apparent ecliptic place `z` (distance in kilometres, or in
astronomical units below 500): its equatorial place is the ecliptic one turned by the obliquity; the hour angle is `θ - α` in (-π, π]; and
azimuth (from the south through west, in [0, 2π)) and altitude are exactly the direction of the straight line from the site to the body in
the frame vertical–south–west.  Excluded are only directions along the Earth's axis. -/
theorem c72_body (z : V3) (E gst L fa high θ : ℝ) (b : SkyBody) (hb : b = skyBody z E gst L fa high) (hθ : θ = gst + L)
    (hz : -(π / 2) < z.y ∧ z.y < π / 2)
    (k : ℝ) (hk : k = unit z.z) (B o p : V3) (hB : B = llr2xyz ⟨b.CJ, b.CW, b.R * k⟩) (ho : o = site θ fa high)
    (hp : p = ⟨B.x - o.x, B.y - o.y, B.z - o.z⟩) (hax : p.x ≠ 0 ∨ p.y ≠ 0) :
    (b.HJ = z.x ∧ b.HW = z.y ∧ b.R = z.z)
    ∧ dir b.CJ b.CW = rotX E (dir z.x z.y)
    ∧ (-π < b.ShiJ ∧ b.ShiJ ≤ π ∧ ∃ n : ℤ, b.ShiJ = θ - b.CJ + 2 * π * n)
    ∧ llr2xyz ⟨b.CJ2, b.CW2, b.R2 * k⟩ = p
    ∧ b.R2 * k * sin b.DW = dot3 p (up θ fa)
    ∧ b.R2 * k * (cos b.DW * cos b.DJ) = dot3 p (south θ fa)
    ∧ b.R2 * k * (cos b.DW * sin b.DJ) = dot3 p (west θ)
    ∧ (0 ≤ b.DJ ∧ b.DJ < 2 * π ∧ -(π / 2) ≤ b.DW ∧ b.DW ≤ π / 2 ∧ 0 ≤ b.R2)
    ∧ b.PJ = b.DJ ∧ b.PW = (if b.DW > 0 then b.DW + mqc b.DW else b.DW) := by
  obtain ⟨q, hq⟩ : ∃ q, q = llrConv z E := ⟨_, rfl⟩
  obtain ⟨S, hS, s1, s2, n, hn⟩ := mrad_half (gst + L - q.x)
  obtain ⟨t, ht⟩ : ∃ t, t = parallax q S fa high := ⟨_, rfl⟩
  obtain ⟨w, hw⟩ : ∃ w, w = cd2dp t L fa gst := ⟨_, rfl⟩
  have hbe : b = ⟨z.x, z.y, z.z, q.x, q.y, S, t.x, t.y, t.z, w.x, w.y, w.x, if w.y > 0 then w.y + mqc w.y else w.y⟩ := by
    have e : w = ⟨mrad (π / 2 - (llrConv ⟨t.x + (π / 2 - gst - L), t.y, t.z⟩ (π / 2 - fa)).x),
        (llrConv ⟨t.x + (π / 2 - gst - L), t.y, t.z⟩ (π / 2 - fa)).y, (llrConv ⟨t.x + (π / 2 - gst - L), t.y, t.z⟩ (π / 2 - fa)).z⟩ := by
      rw [hw, cd2dp, show t.x + π / 2 - gst - L = t.x + (π / 2 - gst - L) by ring]
    rw [hb]
    unfold skyBody
    simp only [← hq, ← hS, ← ht]
    have e1 : mrad (π / 2 - (llrConv ⟨t.x + (π / 2 - gst - L), t.y, t.z⟩ (π / 2 - fa)).x) = w.x := by rw [e]
    have e2 : (llrConv ⟨t.x + (π / 2 - gst - L), t.y, t.z⟩ (π / 2 - fa)).y = w.y := by rw [e]
    simp only [e1, e2]
    by_cases h : w.y > 0 <;> simp [h, e2]
  have hz' : q.z = z.z := by rw [hq]; rfl
  rw [hbe] at hB ⊢
  simp only at hB ⊢
  obtain ⟨p1, p2, p3, p4, p5, p6⟩ := c57_parallax q S fa high
  rw [← ht] at p1 p2 p3 p4 p5 p6
  have hsite : site (q.x + S) fa high = o := by
    rw [ho, hn, show q.x + (gst + L - q.x + 2 * π * n) = θ + 2 * π * n by rw [hθ]; ring, site_turn]
  rw [hsite, hz', ← hk, ← hB] at p1
  have hBo : B ≠ o := by
    intro h
    rw [h] at hp
    rw [hp] at hax
    simp at hax
  have hp' := p1 hBo
  rw [← hp] at hp'
  have hpx : p.x = t.z * k * cos t.y * cos t.x := by rw [← hp']; rfl
  have hpy : p.y = t.z * k * cos t.y * sin t.x := by rw [← hp']; rfl
  have hpz : p.z = t.z * k * sin t.y := by rw [← hp']; rfl
  have hcy : cos t.y ≠ 0 := by
    intro h
    rw [hpx, hpy, h] at hax
    simp at hax
  have hc2 : -(π / 2) < t.y ∧ t.y < π / 2 := by
    refine ⟨lt_of_le_of_ne p4 fun h => hcy ?_, lt_of_le_of_ne p5 fun h => hcy ?_⟩
    · rw [← h, cos_neg, cos_pi_div_two]
    · rw [h, cos_pi_div_two]
  obtain ⟨h1, h2, h3, h4⟩ := c38_horizontal t L fa gst hc2
  rw [← hw] at h1 h2 h3 h4
  have hcos : cos (gst + L - t.x) = cos θ * cos t.x + sin θ * sin t.x := by rw [← hθ, cos_sub]
  have hsin : sin (gst + L - t.x) = sin θ * cos t.x - cos θ * sin t.x := by rw [← hθ, sin_sub]
  refine ⟨⟨trivial, trivial, trivial⟩, ?_, ⟨s1, s2, n, ?_⟩, hp', ?_, ?_, ?_, ⟨?_, ?_, ?_, ?_, p6⟩, trivial, trivial⟩
  · rw [hq]; exact (c38_rotation z E hz).1
  · rw [hn, hθ]
  · rw [h1, hcos]; unfold dot3 up; simp only []; rw [hpx, hpy, hpz]; ring
  · rw [h2, hcos]; unfold dot3 south; simp only []; rw [hpx, hpy, hpz]; ring
  · rw [h3, hsin]; unfold dot3 west; simp only []; rw [hpx, hpy, hpz]; ring
  · rw [hw]; exact (c36_mrad_real _).1
  · rw [hw]; exact (c36_mrad_real _).2.1
  · rw [hw]; exact neg_pi_div_two_le_arcsin _
  · rw [hw]; exact arcsin_le_pi_div_two _

/-- the moon over the equator, seen from the equator under it: the hypotheses hold, and it is in the zenith -/
example : ∃ b, b = skyBody ⟨0, 0, 384400⟩ 0 0 0 0 0 ∧ sin b.DW * b.R2 = 384400 - rEar := by
  refine ⟨_, rfl, ?_⟩
  have hm : mrad 0 = 0 := c36_mrad_id 0 ⟨le_rfl, by positivity⟩
  have e1 : (skyBody ⟨0, 0, 384400⟩ 0 0 0 0 0).CJ = 0 := by
    show mrad (atan2 (sin 0 * cos 0 - tan 0 * sin 0) (cos 0)) = 0
    have h1 : atan2 0 1 = 0 := by
      show Complex.arg (1 : ℂ) = 0
      exact Complex.arg_one
    simp [h1, hm]
  have e2 : (skyBody ⟨0, 0, 384400⟩ 0 0 0 0 0).CW = 0 := by
    show arcsin (cos 0 * sin 0 + sin 0 * cos 0 * sin 0) = 0
    simp
  have e3 : (skyBody ⟨0, 0, 384400⟩ 0 0 0 0 0).R = 384400 := rfl
  have hr : rEar < 10000 := by unfold rEar; norm_num
  have h := c72_body ⟨0, 0, 384400⟩ 0 0 0 0 0 0 _ rfl (by norm_num) ⟨by simp [pi_pos], by simp [pi_pos]⟩ 1 (by unfold unit; norm_num)
    ⟨384400, 0, 0⟩ ⟨rEar, 0, 0⟩ ⟨384400 - rEar, 0, 0⟩ (by rw [e1, e2, e3]; simp [llr2xyz]) (by simp [site]) (by simp)
    (Or.inl (by simp only; linarith))
  have h5 := h.2.2.2.2.1
  simp [dot3, up] at h5
  linarith

/-- **C72 (points of the Earth under a line).**  `lineEar`: for two different points given in equatorial coordinates (kilometres), the
markers 100, 100 are returned exactly when the line misses the Earth's ellipsoid; otherwise the site with the returned longitude and
latitude is (off the poles) a point of the line, and no point of the line on the ellipsoid is nearer to the first point. -/
theorem c72_line (P Q : V3) (gst : ℝ) (p q : V3) (hp : p = llr2xyz P) (hq : q = llr2xyz Q) (hpq : p.x ≠ q.x ∨ p.y ≠ q.y ∨ p.z ≠ q.z)
    (J W : ℝ) (hJW : (J, W) = (lineEar P Q gst).2) :
    ((∀ t, ¬ OnEll ba rEar (onLine p q t)) → J = 100 ∧ W = 100)
    ∧ ((∃ t, OnEll ba rEar (onLine p q t)) → ∃ c : V3, (∃ t, c = onLine p q t) ∧ OnEll ba rEar c
        ∧ (∀ t, OnEll ba rEar (onLine p q t) → dist3 c p ≤ dist3 (onLine p q t) p)
        ∧ -π < J ∧ J ≤ π ∧ -(π / 2) < W ∧ W < π / 2
        ∧ (c.x ≠ 0 ∨ c.y ≠ 0 → site (J + gst) W 0 = c)) := by
  have hba : ba ≠ 0 := by unfold ba; norm_num
  have hb0 : 0 < ba := by unfold ba; norm_num
  have hr0 : 0 < rEar := by unfold rEar; norm_num
  obtain ⟨h1, h2⟩ := c39_lineEll p q ba rEar hba hpq
  obtain ⟨r, hr⟩ : ∃ r, r = lineEll p q ba rEar := ⟨_, rfl⟩
  rw [← hr] at h1 h2
  have hle : (lineEar P Q gst).2 = if r.D < 0 then (100, 100)
      else (rrad (atan2 r.y r.x - gst), arctan (r.z / (ba * ba) / √(r.x * r.x + r.y * r.y))) := by
    unfold lineEar
    simp only [← hp, ← hq, ← hr]
    split_ifs <;> rfl
  rw [hle] at hJW
  constructor
  · intro h
    rw [if_pos (h1.2 h)] at hJW
    exact ⟨(Prod.mk.inj hJW).1, (Prod.mk.inj hJW).2⟩
  · rintro ⟨t, ht⟩
    have hD : ¬ r.D < 0 := fun h => h1.1 h t ht
    rw [if_neg hD] at hJW
    obtain ⟨hJ, hW⟩ := Prod.mk.inj hJW
    obtain ⟨c, hc, hl, ho, hn, -, -⟩ := h2 hD
    obtain ⟨k1, k2, m, hm⟩ := c36_rrad_real (atan2 r.y r.x - gst)
    refine ⟨c, hl, ho, hn, by rw [hJ]; exact k1, by rw [hJ]; exact k2, by rw [hW]; exact neg_pi_div_two_lt_arctan _,
      by rw [hW]; exact arctan_lt_pi_div_two _, fun hpole => ?_⟩
    obtain ⟨X, Y, Z⟩ := c
    simp only [V3.mk.injEq] at hc
    obtain ⟨hx, hy, hz⟩ := hc
    simp only at hpole
    unfold OnEll at ho
    simp only at ho
    rw [← hx, ← hy] at hm hJ
    rw [← hx, ← hy, ← hz] at hW
    have hpos : 0 < X * X + Y * Y := by
      rcases hpole with h | h
      · nlinarith [mul_self_pos.2 h, mul_self_nonneg Y]
      · nlinarith [mul_self_pos.2 h, mul_self_nonneg X]
    obtain ⟨ρ, hρ⟩ : ∃ ρ, ρ = √(X * X + Y * Y) := ⟨_, rfl⟩
    have hρ0 : 0 < ρ := by rw [hρ]; exact sqrt_pos.2 hpos
    have hρ2 : ρ * ρ = X * X + Y * Y := by rw [hρ]; exact mul_self_sqrt hpos.le
    rw [← hρ] at hW
    have hang : J + gst = atan2 Y X + m * (2 * π) := by rw [hJ, hm]; ring
    have hcJ : ρ * cos (J + gst) = X := by rw [hang, cos_add_int_mul_two_pi, hρ, atan2_cos]
    have hsJ : ρ * sin (J + gst) = Y := by rw [hang, sin_add_int_mul_two_pi, hρ, atan2_sin]
    -- the parametric latitude
    have htan : ba * tan W = Z / (ba * ρ) := by
      rw [hW, tan_arctan]; field_simp
    have hell : ρ * ρ + (Z / ba) * (Z / ba) = rEar * rEar := by rw [hρ2]; linarith [ho]
    have hone : 1 + (Z / (ba * ρ)) ^ 2 = (rEar / ρ) ^ 2 := by
      have : (Z / (ba * ρ)) ^ 2 = (Z / ba) * (Z / ba) / (ρ * ρ) := by field_simp
      rw [this, show (Z / ba) * (Z / ba) = rEar * rEar - ρ * ρ by linarith]
      field_simp
      ring
    have hcu : cos (arctan (ba * tan W)) = ρ / rEar := by
      rw [htan, cos_arctan, hone, sqrt_sq (by positivity)]
      field_simp
    have hsu : sin (arctan (ba * tan W)) = Z / (ba * rEar) := by
      have := tan_arctan (ba * tan W)
      rw [tan_eq_sin_div_cos, hcu] at this
      rw [div_eq_iff (by positivity)] at this
      rw [this, htan]; field_simp
    unfold site
    simp only [hcu, hsu, zero_mul, add_zero]
    rw [mul_div_cancel₀ _ hr0.ne']
    refine v3_ext ?_ ?_ ?_
    · simp only []; rw [hcJ]
    · simp only []; rw [hsJ]
    · simp only []; field_simp

/-! ## The panel -/

/-- **C72 (panel).**  Whatever was computed before, the panel for the instant `T` (days from J2000, dynamical time) at the site `L`, `fa`,
`high` shows the moon and the sun (`c72_body`) at the ephemeris places corrected for aberration and nutation — the sun opposite to the
Earth —, with the obliquity and the sidereal time of that instant. -/
theorem c72_panel (e : SkyEnv) (c : Msc) (T L fa high t : ℝ) (ht : t = T / 36525) (r : Msc) (hr : r = mscCalc e c T L fa high) :
    (r.T = T ∧ r.L = L ∧ r.fa = fa ∧ r.dt = e.dtT T ∧ r.jd = T - e.dtT T)
    ∧ (r.dL = (e.nut t).1 ∧ r.E = e.hcjj t + (e.nut t).2 ∧ r.gst = e.pGST (T - e.dtT T) (e.dtT T) + (e.nut t).1 * cos r.E)
    ∧ (∃ z : V3, r.m = skyBody z r.E r.gst L fa high ∧ 0 ≤ z.x ∧ z.x < 2 * π
        ∧ (∃ k : ℤ, z.x = (e.moon t).x + e.gxcMoonLon t + (e.nut t).1 + 2 * π * k)
        ∧ z.y = (e.moon t).y + e.gxcMoonLat t ∧ z.z = (e.moon t).z)
    ∧ (∃ z : V3, r.s = skyBody z r.E r.gst L fa high ∧ 0 ≤ z.x ∧ z.x < 2 * π
        ∧ (∃ k : ℤ, z.x = (e.earth t).x + π + e.gxcSunLon t + (e.nut t).1 + 2 * π * k)
        ∧ z.y = -(e.earth t).y + e.gxcSunLat t ∧ z.z = (e.earth t).z)
    ∧ (r.mRad = 0.2725076 * 6378.1366 * 1.0000036 / r.m.R2 * (180 * 3600 / π) ∧ r.sRad = 959.63 / r.s.R2
        ∧ r.e_mRad = 0.2725076 * 6378.1366 * 1.0000036 / r.m.R * (180 * 3600 / π) ∧ r.mIll = e.moonIll t) := by
  subst ht
  have hk : ∀ x : ℝ, sMoon / x = 0.2725076 * 6378.1366 * 1.0000036 / x * (180 * 3600 / π) := fun x => by unfold sMoon rEar arcsec; ring
  have hm := c36_mrad_real ((e.moon (T / 36525)).x + e.gxcMoonLon (T / 36525) + (e.nut (T / 36525)).1)
  have hs := c36_mrad_real ((e.earth (T / 36525)).x + π + e.gxcSunLon (T / 36525) + (e.nut (T / 36525)).1)
  rw [hr]
  refine ⟨⟨rfl, rfl, rfl, rfl, rfl⟩, ⟨rfl, rfl, rfl⟩, ⟨_, rfl, hm.1, hm.2.1, hm.2.2, rfl, rfl⟩, ⟨_, rfl, hs.1, hs.2.1, hs.2.2, rfl, rfl⟩,
      ⟨?_, rfl, ?_, rfl⟩⟩
  · exact hk _
  · exact hk _

/-- **C72 (sundial time).**  The equation of time is a half turn at most, in (-1/2, 1/2] days; it is the difference between the mean
longitude of the sun and its right ascension freed of nutation, up to whole turns; mean solar time is the universal time shifted by the
longitude and true solar time is mean solar time plus the equation of time. -/
theorem c72_time (e : SkyEnv) (c : Msc) (T L fa high : ℝ) (r : Msc) (hr : r = mscCalc e c T L fa high) :
    (-(1 / 2) < r.sc ∧ r.sc ≤ 1 / 2)
    ∧ (∃ k : ℤ, 2 * π * r.sc = ((1753470142 + 6283319653318 * (T / 365250) + 529674 * (T / 365250) ^ 2 + 432 * (T / 365250) ^ 3 - 1124 * (T / 365250) ^ 4
        - 9 * (T / 365250) ^ 5) / 1000000000 + π - 20.5 / (180 * 3600 / π)) - (r.s.CJ - r.dL * cos r.E) + 2 * π * k)
    ∧ r.pty = r.jd + L / (2 * π) ∧ r.zty = r.pty + r.sc := by
  have hp := pi_pos
  have hm : (1753470142 + 6283319653318 * (T / 365250) + 529674 * (T / 365250) ^ 2 + 432 * (T / 365250) ^ 3 - 1124 * (T / 365250) ^ 4
        - 9 * (T / 365250) ^ 5) / 1000000000 + π - 20.5 / (180 * 3600 / π) = meanSun (T / 36525) := by
    unfold meanSun arcsec
    simp only []
    ring
  rw [hm]
  obtain ⟨S, hS, s1, s2, n, hn⟩ := mrad_half (meanSun (T / 36525) - (r.s.CJ - r.dL * cos r.E))
  have hsc : r.sc = S / (2 * π) ∧ r.pty = r.jd + L / (2 * π) ∧ r.zty = r.jd + L / (2 * π) + r.sc := by
    rw [hS, hr]
    exact ⟨rfl, rfl, rfl⟩
  obtain ⟨h1, h2, h3⟩ := hsc
  refine ⟨⟨?_, ?_⟩, ⟨n, ?_⟩, h2, ?_⟩
  · rw [h1, lt_div_iff₀ (by linarith)]; linarith
  · rw [h1, div_le_iff₀ (by linarith)]; linarith
  · rw [h1, ← hn]; field_simp
  · rw [h3, h2]

/-- **C72 (eclipse on the Earth).**  When the sun and the moon are within 50° of right ascension, the site `zx_J`, `zx_W` is where the line
from the moon's centre away from the sun's meets the Earth (`c72_line`); otherwise, and when the line misses, 100 and 100 are shown. -/
theorem c72_axis (e : SkyEnv) (c : Msc) (T L fa high : ℝ) (r : Msc) (hr : r = mscCalc e c T L fa high) :
    (|rrad (r.m.CJ - r.s.CJ)| < 50 / 180 * π →
        (r.zx_J, r.zx_W) = (lineEar ⟨r.m.CJ, r.m.CW, r.m.R⟩ ⟨r.s.CJ, r.s.CW, r.s.R * AU⟩ r.gst).2)
    ∧ (50 / 180 * π ≤ |rrad (r.m.CJ - r.s.CJ)| → r.zx_J = 100 ∧ r.zx_W = 100) := by
  have h : (r.zx_J, r.zx_W) = (if |rrad (r.m.CJ - r.s.CJ)| < 50 / 180 * π then
      (lineEar ⟨r.m.CJ, r.m.CW, r.m.R⟩ ⟨r.s.CJ, r.s.CW, r.s.R * AU⟩ r.gst).2 else (100, 100)) := by
    rw [hr]; rfl
  constructor
  · intro h'
    rw [if_pos h'] at h
    exact h
  · intro h'
    rw [if_neg (not_lt.2 h')] at h
    exact ⟨(Prod.mk.inj h).1, (Prod.mk.inj h).2⟩

/-- **C72 (shadow of the Earth).**  Seen from the Earth's centre, the radii of umbra and penumbra (arc seconds) at the moon are those of the
cone touching sun and Earth, `parallax of the moon ± (radius of the sun ∓ its parallax)`, enlarged by one fiftieth; the penumbra is the
wider. -/
theorem c72_shadow (e : SkyEnv) (c : Msc) (T L fa high : ℝ) (r : Msc) (hr : r = mscCalc e c T L fa high) (hR : 0 < r.s.R) :
    r.eShadow = 1.02 * (0.99834 * 6378.1366 / r.m.R * (180 * 3600 / π) + 8.794 / r.s.R - 959.63 / r.s.R)
    ∧ r.eShadow2 = 1.02 * (0.99834 * 6378.1366 / r.m.R * (180 * 3600 / π) + 8.794 / r.s.R + 959.63 / r.s.R)
    ∧ r.eShadow < r.eShadow2 := by
  have hk : ∀ x : ℝ, 0.99834 * 6378.1366 / x * (180 * 3600 / π) = rEarA / x * arcsec := fun x => by unfold rEarA rEar arcsec; ring
  rw [hk]
  have h : r.eShadow = (rEarA / r.m.R * arcsec - (959.63 - 8.794) / r.s.R) * 51 / 50
      ∧ r.eShadow2 = (rEarA / r.m.R * arcsec + (959.63 + 8.794) / r.s.R) * 51 / 50 := by
    rw [hr]
    exact ⟨rfl, rfl⟩
  have e1 : r.eShadow = 1.02 * (rEarA / r.m.R * arcsec + 8.794 / r.s.R - 959.63 / r.s.R) := by rw [h.1]; ring
  have e2 : r.eShadow2 = 1.02 * (rEarA / r.m.R * arcsec + 8.794 / r.s.R + 959.63 / r.s.R) := by rw [h.2]; ring
  refine ⟨e1, e2, ?_⟩
  have : 0 < 959.63 / r.s.R := by positivity
  rw [e1, e2]; linarith

/-- **C72 (history).**  The panel does not depend on what was shown before. -/
theorem c72_history (e : SkyEnv) (c c' : Msc) (T L fa high : ℝ) : mscCalc e c T L fa high = mscCalc e c' T L fa high := rfl

/-! ## C73: refraction -/

/-- the argument of the tangent -/
theorem mqc_arg (a b : ℝ) (ha : 0 ≤ a) (hab : a < b) : 0 < (b + 0.003138 / (b + 0.08919)) - (a + 0.003138 / (a + 0.08919))
    ∧ (b + 0.003138 / (b + 0.08919)) - (a + 0.003138 / (a + 0.08919)) ≤ b - a := by
  have ha' : 0 < a + 0.08919 := by linarith
  have hb' : 0 < b + 0.08919 := by linarith
  have hd : 0.003138 / (a + 0.08919) - 0.003138 / (b + 0.08919) = 0.003138 * (b - a) / ((a + 0.08919) * (b + 0.08919)) := by
    rw [div_sub_div _ _ ha'.ne' hb'.ne']; congr 1; ring
  have hprod : (0.0079 : ℝ) ≤ (a + 0.08919) * (b + 0.08919) := by
    have : (0.08919 : ℝ) * 0.08919 ≤ (a + 0.08919) * (b + 0.08919) := mul_le_mul (by linarith) (by linarith) (by norm_num) ha'.le
    norm_num at this ⊢; linarith
  have h0 : 0 ≤ 0.003138 * (b - a) / ((a + 0.08919) * (b + 0.08919)) := div_nonneg (by nlinarith) (by positivity)
  have h1 : 0.003138 * (b - a) / ((a + 0.08919) * (b + 0.08919)) < b - a := by
    rw [div_lt_iff₀ (by positivity)]
    have : 0.0079 * (b - a) ≤ (b - a) * ((a + 0.08919) * (b + 0.08919)) := by nlinarith
    have h2 : 0.003138 * (b - a) < 0.0079 * (b - a) := by nlinarith
    linarith
  constructor <;> linarith

/-- the argument and its sine -/
theorem mqc_sin (h : ℝ) (h0 : 0 ≤ h) (h1 : h ≤ π / 2) (x : ℝ) (hx : x = h + 0.003138 / (h + 0.08919)) :
    0.0351 < x ∧ x < 1.62 ∧ 0.035 < sin x ∧ mqc h = 0.0002967 * cos x / sin x := by
  have hlow : 0.0351 < x := by
    have h00 : (0.0351 : ℝ) < 0 + 0.003138 / (0 + 0.08919) := by norm_num
    rcases h0.eq_or_lt with h0 | h0
    · rw [hx, ← h0]; exact h00
    · have := (mqc_arg 0 h le_rfl h0).1
      rw [hx]; linarith
  have hu : 0 < h + 0.08919 := by linarith
  have hhi : x < 1.62 := by
    have h2 : 0.003138 / (h + 0.08919) ≤ 0.0353 := by
      rw [div_le_iff₀ hu]; nlinarith
    have h3 := pi_lt_d6
    by_cases hh : h ≤ 1.5
    · rw [hx]; norm_num at *; linarith
    · have h2 : 0.003138 / (h + 0.08919) ≤ 0.002 := by
        rw [div_le_iff₀ hu]; push Not at hh; norm_num at *; linarith
      rw [hx]; norm_num at *; linarith
  have hs : 0.035 < sin x := by
    by_cases hh : x ≤ 1
    · have h5 := sin_gt_sub_cube (x := x) (by norm_num at *; linarith)
      have h6 : x ^ 3 / 6 ≤ x * 0.25 * x := by
        have : x ^ 3 ≤ x ^ 2 * 1 := by rw [pow_succ]; exact mul_le_mul_of_nonneg_left hh (by positivity)
        nlinarith
      by_cases hb : x ≤ 0.05
      · have : x ^ 3 / 6 ≤ 0.00004 := by
          have : x ^ 3 ≤ 0.05 ^ 3 := pow_le_pow_left₀ (by norm_num at *; linarith) hb 3
          norm_num at this ⊢; linarith
        norm_num at *; linarith
      · push Not at hb
        have : x * 0.25 * x ≤ x * 0.25 := by nlinarith
        norm_num at *; linarith
    · push Not at hh
      have h5 := one_sub_sq_div_two_le_cos (x := x - π / 2)
      rw [cos_sub_pi_div_two] at h5
      have h3 := pi_lt_d6
      have h4 := pi_gt_d4
      have : (x - π / 2) ^ 2 ≤ 0.58 ^ 2 := by
        apply sq_le_sq'
        · norm_num at *; linarith
        · norm_num at *; linarith
      norm_num at *; linarith
  refine ⟨hlow, hhi, hs, ?_⟩
  rw [mqc, ← hx, tan_eq_sin_div_cos, div_div_eq_mul_div]

/-- **C73 (refraction).**  `MQC` for true altitudes above the horizon: the correction is less than 0.0085 rad (29.3′); the higher the body,
the smaller it is; and the corrected altitude grows with the true one, so refraction never exchanges two bodies in altitude; it stays
positive and within the zenith. -/
theorem c73_refraction (a b : ℝ) (ha : 0 < a) (hab : a < b) (hb : b ≤ π / 2) :
    (mqc b < mqc a) ∧ (a + mqc a < b + mqc b) ∧ (mqc a < 0.0085) ∧ (0 < a + mqc a) ∧ (b + mqc b < π / 2) := by
  have key : ∀ a b : ℝ, 0 ≤ a → a < b → b ≤ π / 2 → mqc b < mqc a ∧ a + mqc a < b + mqc b := by
    intro a b ha hab hb
    obtain ⟨x, hx⟩ : ∃ x, x = a + 0.003138 / (a + 0.08919) := ⟨_, rfl⟩
    obtain ⟨y, hy⟩ : ∃ y, y = b + 0.003138 / (b + 0.08919) := ⟨_, rfl⟩
    obtain ⟨x1, x2, x3, x4⟩ := mqc_sin a ha (by linarith) x hx
    obtain ⟨y1, y2, y3, y4⟩ := mqc_sin b (by linarith) hb y hy
    obtain ⟨d1, d2⟩ := mqc_arg a b ha hab
    rw [← hx, ← hy] at d1 d2
    have hpi := pi_gt_d4
    have hsx : 0 < sin x := by norm_num at *; linarith
    have hsy : 0 < sin y := by norm_num at *; linarith
    have hd : mqc a - mqc b = 0.0002967 * sin (y - x) / (sin x * sin y) := by
      rw [x4, y4, sin_sub, div_sub_div _ _ hsx.ne' hsy.ne']; congr 1; ring
    have hpos : 0 < sin (y - x) := sin_pos_of_pos_of_lt_pi d1 (by norm_num at *; linarith)
    have hle : sin (y - x) ≤ y - x := sin_le d1.le
    have hprod : 0.0012 < sin x * sin y := by
      have := mul_lt_mul'' x3 y3 (by norm_num) (by norm_num)
      norm_num at this ⊢; linarith
    have hprod0 : 0 < sin x * sin y := mul_pos hsx hsy
    have hup : 0.0002967 * sin (y - x) / (sin x * sin y) < b - a := by
      rw [div_lt_iff₀ hprod0]
      have h1 : (b - a) * 0.0012 < (b - a) * (sin x * sin y) := mul_lt_mul_of_pos_left hprod (by linarith)
      norm_num at *; linarith
    have hlo : 0 < 0.0002967 * sin (y - x) / (sin x * sin y) := by positivity
    constructor <;> linarith
  obtain ⟨k1, k2⟩ := key a b ha.le hab hb
  have hmax : mqc 0 < 0.0085 := by
    obtain ⟨x1, x2, x3, x4⟩ := mqc_sin 0 le_rfl (by positivity) _ rfl
    rw [mqc]
    have hx : (0.0351 : ℝ) < 0 + 0.003138 / (0 + 0.08919) := by norm_num
    have hpi := pi_gt_d4
    have ht := lt_tan (x := 0 + 0.003138 / (0 + 0.08919)) (by norm_num) (by norm_num at *; linarith)
    rw [div_lt_iff₀ (by linarith)]
    norm_num at *; linarith
  obtain ⟨z1, z2⟩ := key 0 a le_rfl ha (by linarith)
  have hm0 : 0 < mqc 0 := by
    rw [mqc]
    have hpi := pi_gt_d4
    have ht := lt_tan (x := 0 + 0.003138 / (0 + 0.08919)) (by norm_num) (by norm_num at *; linarith)
    exact div_pos (by norm_num) (by norm_num at *; linarith)
  have hzen : mqc (π / 2) < 0 := by
    obtain ⟨x1, x2, x3, x4⟩ := mqc_sin (π / 2) (by positivity) le_rfl _ rfl
    have hpi := pi_pos
    have hpi' := pi_gt_d4
    have hc : cos (π / 2 + 0.003138 / (π / 2 + 0.08919)) < 0 := by
      apply cos_neg_of_pi_div_two_lt_of_lt
      · have : 0 < 0.003138 / (π / 2 + 0.08919) := by positivity
        linarith
      · norm_num at *; linarith
    rw [x4]
    exact div_neg_of_neg_of_pos (by nlinarith) (by norm_num at *; linarith)
  refine ⟨k1, k2, by linarith, by linarith, ?_⟩
  rcases hb.eq_or_lt with h | h
  · rw [h]; linarith
  · linarith [(key b (π / 2) (by linarith) h le_rfl).2]

/-- **C73 (sign).**  The correction lifts every body up to 1.5689 rad (6.5′ from the zenith) … -/
theorem c73_lifts (a : ℝ) (ha : 0 < a) (h : a ≤ 1.5689) : 0 < mqc a := by
  have hp := pi_gt_d6
  obtain ⟨x1, x2, x3, x4⟩ := mqc_sin a ha.le (by norm_num at *; linarith) _ rfl
  have hc : 0 < cos (a + 0.003138 / (a + 0.08919)) := by
    apply cos_pos_of_mem_Ioo
    constructor
    · norm_num at *; linarith
    · have h2 : (1.5689 : ℝ) + 0.003138 / (1.5689 + 0.08919) < 1.570793 := by norm_num
      rcases h.eq_or_lt with h | h
      · rw [h]; norm_num at *; linarith
      · have := (mqc_arg a 1.5689 ha.le h).1
        norm_num at *; linarith
  rw [x4]
  exact div_pos (by positivity) (by norm_num at *; linarith)

/-- … but (a defect of the formula used) bodies nearer to the zenith than 0.0017 rad are lowered, … -/
theorem c73_lowers_zenith (a : ℝ) (h : 1.569 ≤ a) (hb : a ≤ π / 2) : mqc a < 0 := by
  have hp := pi_lt_d6
  have hpp := pi_pos
  have ha : 0 < a := by norm_num at *; linarith
  obtain ⟨x1, x2, x3, x4⟩ := mqc_sin a ha.le hb _ rfl
  have hc : cos (a + 0.003138 / (a + 0.08919)) < 0 := by
    have h2 : (1.5708 : ℝ) < 1.569 + 0.003138 / (1.569 + 0.08919) := by norm_num
    apply cos_neg_of_pi_div_two_lt_of_lt
    · rcases h.eq_or_lt with h | h
      · rw [← h]; norm_num at *; linarith
      · have := (mqc_arg 1.569 a (by norm_num) h).1
        norm_num at *; linarith
    · have := pi_gt_d4
      norm_num at *; linarith
  rw [x4]
  exact div_neg_of_neg_of_pos (by nlinarith) (by norm_num at *; linarith)

/-- … and the altitude shown jumps at the horizon: a body below it is shown where it is, a body just above it more than 0.0084 - 0.0001 rad
higher (28.5′). -/
theorem c73_jump (a : ℝ) (h0 : 0 < a) (h : a ≤ 0.0001) : 0.0083 < a + mqc a := by
  have hp := pi_gt_d6
  have hm : mqc 0.0001 ≤ mqc a := by
    rcases h.eq_or_lt with h | h
    · rw [h]
    · exact (c73_refraction a 0.0001 h0 h (by norm_num at *; linarith)).1.le
  have : 0.0083 < mqc 0.0001 := by
    obtain ⟨x1, x2, x3, x4⟩ := mqc_sin 0.0001 (by norm_num) (by norm_num at *; linarith) _ rfl
    obtain ⟨x, hx⟩ : ∃ x : ℝ, x = 0.0001 + 0.003138 / (0.0001 + 0.08919) := ⟨_, rfl⟩
    rw [← hx] at x1 x2 x3 x4
    have hxx : x < 0.03525 := by rw [hx]; norm_num
    have hc := one_sub_sq_div_two_le_cos (x := x)
    have hsn : sin x < x := sin_lt (by norm_num at *; linarith)
    have hx2 : x ^ 2 ≤ 0.03525 ^ 2 := pow_le_pow_left₀ (by norm_num at *; linarith) hxx.le 2
    rw [x4, lt_div_iff₀ (by norm_num at *; linarith)]
    norm_num at *; linarith
  linarith


/-- the hypotheses of `c72_line`: a line through the Earth's centre -/
example : ∃ t, OnEll ba rEar (onLine (llr2xyz ⟨0, 0, 384400⟩) (llr2xyz ⟨0, 0, 149597870⟩) t) := by
  refine ⟨(rEar - 384400) / (149597870 - 384400), ?_⟩
  unfold OnEll onLine llr2xyz
  simp
  rw [mul_div_cancel₀ _ (by norm_num)]
  ring

/-- refraction at 0.5 rad and at 1 rad -/
example : mqc 1 < mqc 0.5 ∧ 0.5 + mqc 0.5 < 1 + mqc 1 := by
  have := pi_gt_d4
  obtain ⟨h1, h2, -⟩ := c73_refraction 0.5 1 (by norm_num) (by norm_num) (by norm_num at *; linarith)
  exact ⟨h1, h2⟩

end Verif.Geom
