import Verif.EclipseLimits
import Verif.Props.SkyPanel
import Mathlib.Tactic.LinearCombination

/-!
# C83 the limit lines and the centre line of a solar eclipse
-/

namespace Verif.Geom

open Real Verif.Precession

/-! ## Specification -/

/-- the point of the Earth's ellipsoid (equatorial radius 1) of geodetic latitude `W` whose meridian stands `θ` east of the x axis -/
noncomputable def surf (θ W : ℝ) : V3 :=
  let u := arctan (cs_ba * tan W)
  ⟨cos u * cos θ, cos u * sin θ, cs_ba * sin u⟩

/-- the Bessel coordinates `c` (Earth radii) are those of the place of longitude `J` and latitude `W`, for the axis `I` (right ascension of the node, inclination,
sidereal time): turned about the x axis into equatorial axes, `c` is the place, whose meridian has the right ascension `J + I.z` -/
def AtPlace (I c : V3) (J W : ℝ) : Prop := rotX I.y c = surf (J + I.z - I.x) W

/-- a point given in Bessel coordinates is on the surface of the Earth -/
def OnEarth (I c : V3) : Prop := OnEll cs_ba 1 (rotX I.y c)

/-- cross product -/
def cross3 (a b : V3) : V3 := ⟨a.y * b.z - a.z * b.y, a.z * b.x - a.x * b.z, a.x * b.y - a.y * b.x⟩

/-- the pole of the Earth in Bessel coordinates -/
noncomputable def pole (s : ℝ) : V3 := ⟨0, sin s, cos s⟩

theorem pole_turn (s : ℝ) : rotX s (pole s) = ⟨0, 0, 1⟩ := by
  unfold rotX pole
  refine v3_ext rfl ?_ ?_
  · simp only []; ring
  · simp only []; linarith [sin_sq_add_cos_sq s]

/-- velocity per day of the ground at the point `p` of the turning Earth, in Bessel coordinates: one turn a day about the pole -/
noncomputable def groundV (s : ℝ) (p : V3) : V3 :=
  let c := cross3 (pole s) p
  ⟨2 * π * c.x, 2 * π * c.y, 2 * π * c.z⟩

/-! ## Lines and places in Bessel coordinates -/

theorem rotX_line (E : ℝ) (p q : V3) (t : ℝ) : rotX E (onLine p q t) = onLine (rotX E p) (rotX E q) t := by
  unfold rotX onLine
  refine v3_ext rfl ?_ ?_ <;> simp only [] <;> ring

theorem rotX_dist (E : ℝ) (p q : V3) : dist3 (rotX E p) (rotX E q) = dist3 p q := by
  unfold rotX dist3
  congr 1
  simp only []
  linear_combination ((p.y - q.y) ^ 2 + (p.z - q.z) ^ 2) * sin_sq_add_cos_sq E

theorem rotX_inj (E : ℝ) (p q : V3) (h : rotX E p = rotX E q) : p = q := by
  have hd : dist3 p q = 0 := by
    rw [← rotX_dist E, h]; unfold dist3; simp
  unfold dist3 at hd
  rw [sqrt_eq_zero (by positivity)] at hd
  have h1 : (p.x - q.x) ^ 2 = 0 := by nlinarith [sq_nonneg (p.x - q.x), sq_nonneg (p.y - q.y), sq_nonneg (p.z - q.z)]
  have h2 : (p.y - q.y) ^ 2 = 0 := by nlinarith [sq_nonneg (p.x - q.x), sq_nonneg (p.y - q.y), sq_nonneg (p.z - q.z)]
  have h3 : (p.z - q.z) ^ 2 = 0 := by nlinarith [sq_nonneg (p.x - q.x), sq_nonneg (p.y - q.y), sq_nonneg (p.z - q.z)]
  rw [sq_eq_zero_iff, sub_eq_zero] at h1 h2 h3
  exact v3_ext h1 h2 h3

/-- a point of the ellipsoid off the axis is the place of its longitude and geodetic latitude -/
theorem surf_of {c : V3} {J W ρ θ0 : ℝ} (ho : OnEll cs_ba 1 c) (hρ : 0 < ρ) (hρ2 : ρ ^ 2 = c.x ^ 2 + c.y ^ 2)
    (hx : ρ * cos (J - θ0) = c.x) (hy : ρ * sin (J - θ0) = c.y) (hW : tan W = c.z / cs_ba ^ 2 / ρ) : c = surf (J - θ0) W := by
  have hb0 : 0 < cs_ba := by unfold cs_ba; norm_num
  unfold OnEll at ho
  have htan : cs_ba * tan W = c.z / (cs_ba * ρ) := by rw [hW]; field_simp
  have hone : 1 + (c.z / (cs_ba * ρ)) ^ 2 = (1 / ρ) ^ 2 := by
    have : (c.z / (cs_ba * ρ)) ^ 2 = (c.z / cs_ba) ^ 2 / ρ ^ 2 := by field_simp
    rw [this, show (c.z / cs_ba) ^ 2 = 1 - ρ ^ 2 by linarith]
    field_simp
    ring
  have hcu : cos (arctan (cs_ba * tan W)) = ρ := by
    rw [htan, cos_arctan, hone, sqrt_sq (by positivity)]
    field_simp
  have hsu : sin (arctan (cs_ba * tan W)) = c.z / cs_ba := by
    have := tan_arctan (cs_ba * tan W)
    rw [tan_eq_sin_div_cos, hcu, div_eq_iff hρ.ne'] at this
    rw [this, htan]; field_simp
  unfold surf
  simp only [hcu, hsu]
  refine v3_ext ?_ ?_ ?_
  · simp only []; rw [hx]
  · simp only []; rw [hy]
  · simp only []; field_simp

/-- the place under a line given in Bessel coordinates -/
theorem bessel_place (p q I : V3) (hpq : p.x ≠ q.x ∨ p.y ≠ q.y ∨ p.z ≠ q.z) (J W : ℝ) (hJW : (J, W) = (lineEar2 p q cs_ba 1 I).2) :
    ((∀ t, ¬ OnEarth I (onLine p q t)) → J = 100 ∧ W = 100)
    ∧ ((∃ t, OnEarth I (onLine p q t)) → ∃ c : V3, (∃ t, c = onLine p q t) ∧ OnEarth I c
        ∧ (∀ t, OnEarth I (onLine p q t) → dist3 c p ≤ dist3 (onLine p q t) p)
        ∧ -(π / 2) ≤ W ∧ W ≤ π / 2
        ∧ ((rotX I.y c).x ≠ 0 ∨ (rotX I.y c).y ≠ 0 → -π < J ∧ J ≤ π ∧ AtPlace I c J W)) := by
  have hba : cs_ba ≠ 0 := by unfold cs_ba; norm_num
  obtain ⟨e1, e2, e3⟩ := c39_lineEar2 p q cs_ba 1 I
  have hne : (rotX I.y p).x ≠ (rotX I.y q).x ∨ (rotX I.y p).y ≠ (rotX I.y q).y ∨ (rotX I.y p).z ≠ (rotX I.y q).z := by
    by_contra hc
    push Not at hc
    have := rotX_inj I.y p q (v3_ext hc.1 hc.2.1 hc.2.2)
    rw [this] at hpq
    simp at hpq
  obtain ⟨h1, h2⟩ := c39_lineEll (rotX I.y p) (rotX I.y q) cs_ba 1 hba hne
  rw [← e1] at h1 h2
  constructor
  · intro h
    have hD := h1.2 (fun t => by rw [← rotX_line]; exact h t)
    rw [e2 hD] at hJW
    exact ⟨(Prod.mk.inj hJW).1, (Prod.mk.inj hJW).2⟩
  · rintro ⟨t, ht⟩
    unfold OnEarth at ht
    rw [rotX_line] at ht
    have hD : ¬ (lineEar2 p q cs_ba 1 I).1.D < 0 := fun h => h1.1 h t ht
    obtain ⟨c, hc, ⟨t0, ht0⟩, ho, hn, -, -⟩ := h2 hD
    have hrot : rotX I.y (onLine p q t0) = c := by rw [rotX_line, ht0]
    refine ⟨onLine p q t0, ⟨t0, rfl⟩, ?_, ?_, ?_, ?_, ?_⟩
    · unfold OnEarth; rw [hrot]; exact ho
    · intro t' ht'
      unfold OnEarth at ht'
      rw [rotX_line] at ht'
      have := hn t' ht'
      rw [← rotX_dist I.y, hrot, ← rotX_dist I.y (onLine p q t'), rotX_line]
      exact this
    · have : W = arctan ((lineEar2 p q cs_ba 1 I).1.z / cs_ba / cs_ba
          / √((lineEar2 p q cs_ba 1 I).1.x * (lineEar2 p q cs_ba 1 I).1.x + (lineEar2 p q cs_ba 1 I).1.y * (lineEar2 p q cs_ba 1 I).1.y)) := by
        have h3 := (Prod.mk.inj hJW).2
        rw [e1] at hD ⊢
        rw [h3]
        unfold lineEar2
        simp only []
        unfold rotX at hD ⊢
        rw [if_neg hD]
      rw [this]; exact (neg_pi_div_two_lt_arctan _).le
    · have : W = arctan ((lineEar2 p q cs_ba 1 I).1.z / cs_ba / cs_ba
          / √((lineEar2 p q cs_ba 1 I).1.x * (lineEar2 p q cs_ba 1 I).1.x + (lineEar2 p q cs_ba 1 I).1.y * (lineEar2 p q cs_ba 1 I).1.y)) := by
        have h3 := (Prod.mk.inj hJW).2
        rw [e1] at hD ⊢
        rw [h3]
        unfold lineEar2
        simp only []
        unfold rotX at hD ⊢
        rw [if_neg hD]
      rw [this]; exact (arctan_lt_pi_div_two _).le
    · intro hp
      rw [hrot] at hp
      have hcx : (lineEar2 p q cs_ba 1 I).1.x = c.x := by rw [hc]
      have hcy : (lineEar2 p q cs_ba 1 I).1.y = c.y := by rw [hc]
      have hcz : (lineEar2 p q cs_ba 1 I).1.z = c.z := by rw [hc]
      obtain ⟨J', W', ρ, hJW', hρ, hρ2, j1, j2, hx, hy, w1, w2, hW⟩ := e3 hD _ rfl (by rw [hcx, hcy]; exact hp)
      rw [← hJW] at hJW'
      obtain ⟨rfl, rfl⟩ := Prod.mk.inj hJW'
      refine ⟨j1, j2, ?_⟩
      unfold AtPlace
      rw [hrot, show J + I.z - I.x = J - (I.x - I.z) by ring]
      rw [hcx, hcy] at hρ2
      rw [hcx] at hx
      rw [hcy] at hy
      rw [hcz] at hW
      exact surf_of ho hρ hρ2 hx hy hW

theorem onEarth_z (I c : V3) (h : OnEarth I c) : c.x ^ 2 + c.y ^ 2 + c.z ^ 2 ≤ 1 := by
  unfold OnEarth OnEll at h
  have hr : (rotX I.y c).x ^ 2 + (rotX I.y c).y ^ 2 + (rotX I.y c).z ^ 2 = c.x ^ 2 + c.y ^ 2 + c.z ^ 2 := by
    unfold rotX
    simp only []
    linear_combination (c.y ^ 2 + c.z ^ 2) * sin_sq_add_cos_sq I.y
  have hle : (rotX I.y c).z ^ 2 ≤ ((rotX I.y c).z / cs_ba) ^ 2 := by
    rw [div_pow, le_div_iff₀ (by unfold cs_ba; norm_num)]
    have : cs_ba ^ 2 ≤ 1 := by unfold cs_ba; norm_num
    nlinarith [sq_nonneg (rotX I.y c).z]
  nlinarith

theorem z_le_one (I c : V3) (h : OnEarth I c) : c.z ≤ 1 := by
  have := onEarth_z _ _ h
  nlinarith [sq_nonneg c.x, sq_nonneg c.y]

/-! ## The direction found by `nanbei` -/

/-- the direction `(sA, cA)` was found from a ground estimate: it is square to the velocity of the shadow over the ground there -/
def Square (M : V3) (vx0 vy0 h r s : ℝ) (q : ℝ × ℝ × ℝ × ℝ) : Prop :=
  q.2.2.1 ^ 2 + q.2.2.2 ^ 2 = 1 ∧ 0 < h * q.2.2.2 ∧ q.1 = M.x - r * q.2.2.1 ∧ q.2.1 = M.y + r * q.2.2.2
    ∧ ∃ p : V3, 0 ≤ p.z ∧ p.z ≤ 1 ∧ (p.x - M.x) ^ 2 + (p.y - M.y) ^ 2 ≤ r ^ 2 * (1 + (vy0 / vx0) ^ 2)
      ∧ (vx0 - (groundV s p).x) * q.2.2.1 = (vy0 - (groundV s p).y) * q.2.2.2 ∧ 0 < vx0 - (groundV s p).x

theorem nbStep_square (M : V3) (vx0 vy0 h r s x y z : ℝ) (hM : 1 ≤ M.z) (hh : h = 1 ∨ h = -1)
    (hv : 2 * π * (1 + |cos s| * (|M.y| + |r|)) < vx0)
    (hz0 : 0 ≤ z) (hz1 : z ≤ 1) (hy : |y - M.y| ≤ |r|) (hxy : (x - M.x) ^ 2 + (y - M.y) ^ 2 ≤ r ^ 2 * (1 + (vy0 / vx0) ^ 2)) :
    Square M vx0 vy0 h r s (nbStep M vx0 vy0 h r s x y z) := by
  obtain ⟨w, hw⟩ : ∃ w, w = 1 - z / M.z := ⟨_, rfl⟩
  have hM0 : 0 < M.z := by linarith
  have hzM : z / M.z ≤ 1 := by rw [div_le_one hM0]; linarith
  have hzM0 : 0 ≤ z / M.z := div_nonneg hz0 hM0.le
  have hw0 : 0 ≤ w := by rw [hw]; linarith
  have hw1 : w ≤ 1 := by rw [hw]; linarith
  obtain ⟨a, ha⟩ : ∃ a, a = x - (x - M.x) * z / M.z := ⟨_, rfl⟩
  obtain ⟨b, hb⟩ : ∃ b, b = y - (y - M.y) * z / M.z := ⟨_, rfl⟩
  have ha' : a - M.x = w * (x - M.x) := by rw [ha, hw]; ring
  have hb' : b - M.y = w * (y - M.y) := by rw [hb, hw]; ring
  obtain ⟨V, hV⟩ : ∃ V, V = vx0 - 2 * π * (sin s * z - cos s * b) := ⟨_, rfl⟩
  obtain ⟨U, hU⟩ : ∃ U, U = vy0 - 2 * π * cos s * a := ⟨_, rfl⟩
  have hVpos : 0 < V := by
    have h1 : |b - M.y| ≤ |r| := by
      rw [hb', abs_mul, abs_of_nonneg hw0]
      calc w * |y - M.y| ≤ 1 * |y - M.y| := mul_le_mul_of_nonneg_right hw1 (abs_nonneg _)
        _ ≤ |r| := by rw [one_mul]; exact hy
    have h2 : |b| ≤ |M.y| + |r| := by
      calc |b| = |M.y + (b - M.y)| := by rw [add_sub_cancel]
        _ ≤ |M.y| + |b - M.y| := abs_add_le _ _
        _ ≤ _ := by linarith
    have h3 : sin s * z ≤ 1 := by
      calc sin s * z ≤ 1 * z := mul_le_mul_of_nonneg_right (sin_le_one s) hz0
        _ ≤ 1 := by linarith
    have h4 : -(cos s * b) ≤ |cos s| * (|M.y| + |r|) := by
      calc -(cos s * b) ≤ |cos s * b| := neg_le_abs _
        _ = |cos s| * |b| := abs_mul _ _
        _ ≤ _ := mul_le_mul_of_nonneg_left h2 (abs_nonneg _)
    have h5 : 2 * π * (sin s * z - cos s * b) ≤ 2 * π * (1 + |cos s| * (|M.y| + |r|)) :=
      mul_le_mul_of_nonneg_left (by linarith) (by positivity)
    rw [hV]; linarith
  have hS : 0 < √(V * V + U * U) := sqrt_pos.2 (by nlinarith [mul_pos hVpos hVpos, mul_self_nonneg U])
  obtain ⟨v, hvd⟩ : ∃ v, v = √(V * V + U * U) := ⟨_, rfl⟩
  have hv2 : v * v = V * V + U * U := by rw [hvd]; exact mul_self_sqrt (by nlinarith [mul_self_nonneg U, mul_self_nonneg V])
  rw [← hvd] at hS
  have hres : nbStep M vx0 vy0 h r s x y z = (M.x - r * (h * U / v), M.y + r * (h * V / v), h * U / v, h * V / v) := by
    unfold nbStep
    simp only [← ha, ← hb]
    rw [← hV, ← hU, ← hvd]
  have hh2 : h * h = 1 := by rcases hh with rfl | rfl <;> norm_num
  rw [hres]
  refine ⟨?_, ?_, rfl, rfl, ⟨a, b, z⟩, hz0, hz1, ?_, ?_, ?_⟩
  · simp only []
    rw [div_pow, div_pow, ← add_div, div_eq_one_iff_eq (by positivity)]
    linear_combination (V * V + U * U) * hh2 - hv2
  · simp only []
    rw [← mul_div_assoc, ← mul_assoc, hh2, one_mul]
    exact div_pos hVpos hS
  · simp only []
    rw [ha', hb']
    have : (w * (x - M.x)) ^ 2 + (w * (y - M.y)) ^ 2 = w ^ 2 * ((x - M.x) ^ 2 + (y - M.y) ^ 2) := by ring
    rw [this]
    have hw2 : w ^ 2 ≤ 1 := by nlinarith
    calc w ^ 2 * ((x - M.x) ^ 2 + (y - M.y) ^ 2) ≤ 1 * ((x - M.x) ^ 2 + (y - M.y) ^ 2) := mul_le_mul_of_nonneg_right hw2 (by positivity)
      _ ≤ _ := by rw [one_mul]; exact hxy
  · unfold groundV cross3 pole
    simp only []
    have e1 : vx0 - 2 * π * (sin s * z - cos s * b) = V := hV.symm
    have e2 : vy0 - 2 * π * (cos s * a - 0 * z) = U := by rw [hU]; ring
    rw [e1, e2]; ring
  · unfold groundV cross3 pole
    simp only []
    rw [← hV]; exact hVpos

theorem square_next (M : V3) (vx0 vy0 h r s : ℝ) (q : ℝ × ℝ × ℝ × ℝ) (hq : Square M vx0 vy0 h r s q) :
    |q.2.1 - M.y| ≤ |r| ∧ (q.1 - M.x) ^ 2 + (q.2.1 - M.y) ^ 2 = r ^ 2 := by
  obtain ⟨h1, -, h3, h4, -⟩ := hq
  have e : (q.1 - M.x) ^ 2 + (q.2.1 - M.y) ^ 2 = r ^ 2 := by
    rw [h3, h4]; linear_combination r ^ 2 * h1
  refine ⟨sq_le_sq.1 ?_, e⟩
  nlinarith [sq_nonneg (q.1 - M.x)]

theorem nbLoop_square (M : V3) (vx0 vy0 h r s : ℝ) (hM : 1 ≤ M.z) (hh : h = 1 ∨ h = -1)
    (hv : 2 * π * (1 + |cos s| * (|M.y| + |r|)) < vx0) :
    ∀ (n : ℕ) (js : Bool) (q : ℝ × ℝ × ℝ × ℝ), |q.2.1 - M.y| ≤ |r| → (q.1 - M.x) ^ 2 + (q.2.1 - M.y) ^ 2 ≤ r ^ 2 * (1 + (vy0 / vx0) ^ 2) →
      (n ≠ 0 ∧ js = false ∨ Square M vx0 vy0 h r s q) → Square M vx0 vy0 h r s (nbLoop M vx0 vy0 h r s n js q) := by
  intro n
  induction n with
  | zero =>
    intro js q _ _ h3
    rcases h3 with h3 | h3
    · exact absurd rfl h3.1
    · exact h3
  | succ n ih =>
    intro js q h1 h2 h3
    have hstep : ∀ z, 0 ≤ z → z ≤ 1 → ∀ js', Square M vx0 vy0 h r s (nbLoop M vx0 vy0 h r s n js' (nbStep M vx0 vy0 h r s q.1 q.2.1 z)) := by
      intro z hz0 hz1 js'
      have hs := nbStep_square M vx0 vy0 h r s q.1 q.2.1 z hM hh hv hz0 hz1 h1 h2
      obtain ⟨k1, k2⟩ := square_next M vx0 vy0 h r s _ hs
      refine ih js' _ k1 ?_ (Or.inr hs)
      rw [k2]
      nlinarith [sq_nonneg r, sq_nonneg (vy0 / vx0), mul_nonneg (sq_nonneg r) (sq_nonneg (vy0 / vx0))]
    unfold nbLoop
    simp only []
    by_cases hz : 1 - q.1 * q.1 - q.2.1 * q.2.1 < 0
    · rw [if_pos hz]
      by_cases hj : js = true
      · rw [if_pos hj]
        rcases h3 with h3 | h3
        · exact absurd hj (by rw [h3.2]; decide)
        · exact h3
      · rw [if_neg hj]
        exact hstep _ (sqrt_nonneg _) (by simp) _
    · rw [if_neg hz]
      refine hstep _ (sqrt_nonneg _) ?_ _
      rw [sqrt_le_one]
      nlinarith [mul_self_nonneg q.1, mul_self_nonneg q.2.1]

/-- the direction used by `nanbei` and the line it follows -/
theorem nanbei_dir (M I : V3) (vx0 vy0 h r : ℝ) (hM : 1 ≤ M.z) (hh : h = 1 ∨ h = -1)
    (hv : 2 * π * (1 + |cos I.y| * (|M.y| + |r|)) < vx0) (R : Limit) (hR : R = nanbei M vx0 vy0 h r I) :
    ∃ q, Square M vx0 vy0 h r I.y q ∧ R.x = q.1 ∧ R.y = q.2.1
      ∧ (R.J, R.W) = (lineEar2 ⟨M.x - cs_k * q.2.2.1, M.y + cs_k * q.2.2.2, M.z⟩ ⟨R.x, R.y, 0⟩ cs_ba 1 I).2 := by
  have hh2 : h * h = 1 := by rcases hh with rfl | rfl <;> norm_num
  have hs := nbLoop_square M vx0 vy0 h r I.y hM hh hv 3 false (M.x - vy0 / vx0 * r * h, M.y + h * r, 0, 0)
    (by
      simp only [add_sub_cancel_left, abs_mul]
      have : |h| = 1 := by rcases hh with rfl | rfl <;> simp
      rw [this, one_mul])
    (by
      simp only []
      refine le_of_eq ?_
      linear_combination (r ^ 2 + (vy0 / vx0) ^ 2 * r ^ 2) * hh2)
    (Or.inl ⟨by norm_num, rfl⟩)
  refine ⟨_, hs, ?_, ?_, ?_⟩
  · rw [hR]; rfl
  · rw [hR]; rfl
  · rw [hR]; rfl

/-! ## The limits -/

/-- the radius, at the height `z` over the fundamental plane, of the cone of shadow that has the radius `k` at the height `mz` of the moon and opens by `g` per unit of height towards the Earth -/
def coneAt (k g mz z : ℝ) : ℝ := k + g * (mz - z)

/-- `tangent M I vx vy r x y`: seen from the axis at `M`, the point `(x, y)` of the fundamental plane is at the distance `|r|`, in a direction square to the velocity of the
shadow over the ground at some point `p` of the neighbourhood (no further from the axis than `|r|·√(1 + (vy/vx)²)`) -/
def Tangent (M I : V3) (vx0 vy0 r x y : ℝ) : Prop :=
  (x - M.x) ^ 2 + (y - M.y) ^ 2 = r ^ 2
  ∧ ∃ p : V3, 0 ≤ p.z ∧ p.z ≤ 1 ∧ (p.x - M.x) ^ 2 + (p.y - M.y) ^ 2 ≤ r ^ 2 * (1 + (vy0 / vx0) ^ 2)
    ∧ (vx0 - (groundV I.y p).x) * (x - M.x) + (vy0 - (groundV I.y p).y) * (y - M.y) = 0

/-- the general form: `w z` is the distance from the axis, at the height `z`, of the line that is followed down to the ground -/
theorem nanbei_core (M I : V3) (vx0 vy0 h r : ℝ) (hM : 1 ≤ M.z) (hh : h = 1 ∨ h = -1)
    (hv : 2 * π * (1 + |cos I.y| * (|M.y| + |r|)) < vx0) (R : Limit) (hR : R = nanbei M vx0 vy0 h r I) (w : ℝ → ℝ)
    (hw : ∀ z, w z = cs_k + (r - cs_k) * ((M.z - z) / M.z)) :
    Tangent M I vx0 vy0 r R.x R.y ∧ 0 ≤ h * r * (R.y - M.y)
    ∧ ∃ sA cA : ℝ, sA ^ 2 + cA ^ 2 = 1 ∧ 0 < h * cA ∧
      ((∀ z, ¬ OnEarth I ⟨M.x - w z * sA, M.y + w z * cA, z⟩) → R.J = 100 ∧ R.W = 100)
      ∧ ((∃ z, OnEarth I ⟨M.x - w z * sA, M.y + w z * cA, z⟩) → ∃ c : V3, OnEarth I c ∧ c.x = M.x - w c.z * sA ∧ c.y = M.y + w c.z * cA
          ∧ (∀ z, OnEarth I ⟨M.x - w z * sA, M.y + w z * cA, z⟩ → z ≤ c.z) ∧ -(π / 2) ≤ R.W ∧ R.W ≤ π / 2
          ∧ ((rotX I.y c).x ≠ 0 ∨ (rotX I.y c).y ≠ 0 → -π < R.J ∧ R.J ≤ π ∧ AtPlace I c R.J R.W)) := by
  obtain ⟨⟨q1, q2, sA, cA⟩, ⟨h1, h2, h3, h4, p, p1, p2, p3, p4, p5⟩, hx, hy, hJW⟩ := nanbei_dir M I vx0 vy0 h r hM hh hv R hR
  simp only at h1 h2 h3 h4 p4 hx hy hJW
  have hh2 : h * h = 1 := by rcases hh with rfl | rfl <;> norm_num
  have hM0 : 0 < M.z := by linarith
  refine ⟨⟨?_, p, p1, p2, p3, ?_⟩, ?_, sA, cA, h1, h2, ?_⟩
  · rw [hx, hy, h3, h4]; linear_combination r ^ 2 * h1
  · rw [hx, hy, h3, h4]; linear_combination -r * p4
  · rw [hy, h4]
    have : h * r * (M.y + r * cA - M.y) = r ^ 2 * (h * cA) := by ring
    rw [this]
    exact mul_nonneg (sq_nonneg _) h2.le
  · -- points of the line by height
    have hline : ∀ t, onLine ⟨M.x - cs_k * sA, M.y + cs_k * cA, M.z⟩ ⟨R.x, R.y, 0⟩ t
        = ⟨M.x - w (M.z * (1 - t)) * sA, M.y + w (M.z * (1 - t)) * cA, M.z * (1 - t)⟩ := by
      intro t
      have e : (M.z - M.z * (1 - t)) / M.z = t := by field_simp; ring
      unfold onLine
      rw [hw, e, hx, hy, h3, h4]
      refine v3_ext ?_ ?_ ?_ <;> simp only [] <;> ring
    have hline' : ∀ z, (⟨M.x - w z * sA, M.y + w z * cA, z⟩ : V3) = onLine ⟨M.x - cs_k * sA, M.y + cs_k * cA, M.z⟩ ⟨R.x, R.y, 0⟩ ((M.z - z) / M.z) := by
      intro z
      have e : M.z * (1 - (M.z - z) / M.z) = z := by field_simp; ring
      rw [hline, e]
    obtain ⟨b1, b2⟩ := bessel_place ⟨M.x - cs_k * sA, M.y + cs_k * cA, M.z⟩ ⟨R.x, R.y, 0⟩ I (Or.inr (Or.inr hM0.ne')) R.J R.W hJW
    constructor
    · intro hmiss
      exact b1 (fun t => by rw [hline]; exact hmiss _)
    · rintro ⟨z, hz⟩
      obtain ⟨c, ⟨t, hc⟩, ho, hn, w1, w2, hp⟩ := b2 ⟨(M.z - z) / M.z, by rw [← hline']; exact hz⟩
      have hcz : c.z = M.z * (1 - t) := by rw [hc, hline]
      refine ⟨c, ho, ?_, ?_, ?_, w1, w2, hp⟩
      · rw [hcz, hc, hline]
      · rw [hcz, hc, hline]
      · intro z' hz'
        have hz1 : z' ≤ M.z := by
          exact le_trans (z_le_one _ _ hz') hM
        have hc1 : c.z ≤ M.z := le_trans (z_le_one _ _ ho) hM
        rw [hline'] at hz'
        have hd := hn _ hz'
        have d1 := dist_onLine ⟨M.x - cs_k * sA, M.y + cs_k * cA, M.z⟩ ⟨R.x, R.y, 0⟩ t 0
        have d2 := dist_onLine ⟨M.x - cs_k * sA, M.y + cs_k * cA, M.z⟩ ⟨R.x, R.y, 0⟩ ((M.z - z') / M.z) 0
        rw [onLine_zero, sub_zero] at d1 d2
        rw [hc, d1, d2] at hd
        have hpos : 0 < √((R.x - (M.x - cs_k * sA)) * (R.x - (M.x - cs_k * sA)) + (R.y - (M.y + cs_k * cA)) * (R.y - (M.y + cs_k * cA)) + (0 - M.z) * (0 - M.z)) := by
          apply sqrt_pos.2
          have : 0 < (0 - M.z) * (0 - M.z) := by nlinarith
          nlinarith [mul_self_nonneg (R.x - (M.x - cs_k * sA)), mul_self_nonneg (R.y - (M.y + cs_k * cA))]
        have ht := le_of_mul_le_mul_left hd hpos
        have ht0 : 0 ≤ t := by
          by_contra hc0
          push Not at hc0
          have h1 := mul_pos hM0 (neg_pos.2 hc0)
          have h2 : M.z * (1 - t) = M.z + M.z * -t := by ring
          linarith
        rw [abs_of_nonneg ht0, abs_of_nonneg (div_nonneg (by linarith) hM0.le), le_div_iff₀ hM0] at ht
        have h2 : M.z * (1 - t) = M.z - t * M.z := by ring
        linarith

/-- **C83 (limits of the penumbra).**  For every position of the moon and every velocity of the shadow eastward faster than the ground, the limit north (`h = 1`) or south (`h = -1`)
computed with the radius of the penumbra: the point given in the fundamental plane is on the edge of the penumbra, to the north, respectively south, of the axis,
in a direction square to the motion of the shadow over the ground (`Tangent`).  The place given is the highest point of the Earth on a line that lies on the cone of the penumbra: its
distance from the axis is the radius of the cone at its height, and it is north, respectively south, of the axis.  Without such a point the markers 100, 100 are returned. -/
theorem c83_penumbra (s : RsState) (M I : V3) (vx0 vy0 h : ℝ) (hM : 1 ≤ M.z) (hh : h = 1 ∨ h = -1) (hd : 0 < s.dyj)
    (hv : 2 * π * (1 + |cos I.y| * (|M.y| + |(s.rSM M.z).r1|)) < vx0) (R : Limit) (hR : R = nanbei M vx0 vy0 h (s.rSM M.z).r1 I)
    (w : ℝ → ℝ) (hw : ∀ z, w z = coneAt cs_k s.tanf1 M.z z) :
    Tangent M I vx0 vy0 (w 0) R.x R.y ∧ 0 < h * (R.y - M.y)
    ∧ ∃ sA cA : ℝ, sA ^ 2 + cA ^ 2 = 1 ∧ 0 < h * cA ∧
      ((∀ z, ¬ OnEarth I ⟨M.x - w z * sA, M.y + w z * cA, z⟩) → R.J = 100 ∧ R.W = 100)
      ∧ ((∃ z, OnEarth I ⟨M.x - w z * sA, M.y + w z * cA, z⟩) → ∃ c : V3, OnEarth I c
          ∧ √((c.x - M.x) ^ 2 + (c.y - M.y) ^ 2) = w c.z ∧ 0 < h * (c.y - M.y) ∧ c.x = M.x - w c.z * sA ∧ c.y = M.y + w c.z * cA
          ∧ (∀ z, OnEarth I ⟨M.x - w z * sA, M.y + w z * cA, z⟩ → z ≤ c.z) ∧ -(π / 2) ≤ R.W ∧ R.W ≤ π / 2
          ∧ ((rotX I.y c).x ≠ 0 ∨ (rotX I.y c).y ≠ 0 → -π < R.J ∧ R.J ≤ π ∧ AtPlace I c R.J R.W)) := by
  have hM0 : 0 < M.z := by linarith
  have hr : (s.rSM M.z).r1 = cs_k + s.tanf1 * M.z := rfl
  have ht : 0 < s.tanf1 := by
    unfold RsState.tanf1
    refine div_pos ?_ hd
    unfold cs_k0 cs_k; norm_num
  have hk : 0 < cs_k := by unfold cs_k; norm_num
  have hr0 : 0 < (s.rSM M.z).r1 := by rw [hr]; positivity
  have hw0 : w 0 = (s.rSM M.z).r1 := by rw [hw, hr]; unfold coneAt; ring
  have hw' : ∀ z, w z = cs_k + ((s.rSM M.z).r1 - cs_k) * ((M.z - z) / M.z) := by
    intro z
    rw [hw, hr]; unfold coneAt; field_simp; ring
  obtain ⟨t1, t2, sA, cA, a1, a2, a3, a4⟩ := nanbei_core M I vx0 vy0 h _ hM hh hv R hR w hw'
  refine ⟨by rw [hw0]; exact t1, ?_, sA, cA, a1, a2, a3, ?_⟩
  · -- strictly
    obtain ⟨⟨q1, q2, sA', cA'⟩, ⟨-, h2, -, h4, -⟩, -, hy, -⟩ := nanbei_dir M I vx0 vy0 h _ hM hh hv R hR
    simp only at h2 h4 hy
    rw [hy, h4, show h * (M.y + (s.rSM M.z).r1 * cA' - M.y) = (s.rSM M.z).r1 * (h * cA') by ring]
    exact mul_pos hr0 h2
  · intro hz
    obtain ⟨c, ho, hx, hy, hn, w1, w2, hp⟩ := a4 hz
    have hcz : c.z ≤ M.z := by
      have := onEarth_z _ _ ho
      nlinarith [sq_nonneg c.x, sq_nonneg c.y]
    have hwc : 0 < w c.z := by
      rw [hw]; unfold coneAt
      have := mul_nonneg ht.le (sub_nonneg.2 hcz)
      linarith
    refine ⟨c, ho, ?_, ?_, hx, hy, hn, w1, w2, hp⟩
    · rw [hx, hy, show (M.x - w c.z * sA - M.x) ^ 2 + (M.y + w c.z * cA - M.y) ^ 2 = w c.z ^ 2 * (sA ^ 2 + cA ^ 2) by ring, a1, mul_one, sqrt_sq hwc.le]
    · rw [hy, show h * (M.y + w c.z * cA - M.y) = w c.z * (h * cA) by ring]
      exact mul_pos hwc a2

/-- **C83 (limits of the umbra).**  With the radius of the umbra (positive before its vertex, negative behind it) the same holds up to the difference of the two lunar radii used by
the code: the place is on the Earth, at a distance from the axis within `0.000227/M.z` Earth radii (about 25 metres) of the radius `|cs_k2 - tanf2·(M.z - z)|` of the umbral cone at its height. -/
theorem c83_umbra (s : RsState) (M I : V3) (vx0 vy0 h : ℝ) (hM : 1 ≤ M.z) (hh : h = 1 ∨ h = -1)
    (hv : 2 * π * (1 + |cos I.y| * (|M.y| + |(s.rSM M.z).r2|)) < vx0) (R : Limit) (hR : R = nanbei M vx0 vy0 h (s.rSM M.z).r2 I) :
    Tangent M I vx0 vy0 (coneAt cs_k2 (-s.tanf2) M.z 0) R.x R.y
    ∧ 0 ≤ h * (s.rSM M.z).r2 * (R.y - M.y)
    ∧ ((R.J = 100 ∧ R.W = 100) ∨ ∃ c : V3, OnEarth I c
        ∧ |√((c.x - M.x) ^ 2 + (c.y - M.y) ^ 2) - (|coneAt cs_k2 (-s.tanf2) M.z c.z|)| ≤ 0.000227 / M.z
        ∧ -(π / 2) ≤ R.W ∧ R.W ≤ π / 2
        ∧ ((rotX I.y c).x ≠ 0 ∨ (rotX I.y c).y ≠ 0 → -π < R.J ∧ R.J ≤ π ∧ AtPlace I c R.J R.W)) := by
  have hM0 : 0 < M.z := by linarith
  have hr : (s.rSM M.z).r2 = cs_k2 - s.tanf2 * M.z := rfl
  obtain ⟨t1, t2, sA, cA, a1, a2, a3, a4⟩ := nanbei_core M I vx0 vy0 h _ hM hh hv R hR
    (fun z => cs_k + ((s.rSM M.z).r2 - cs_k) * ((M.z - z) / M.z)) (fun z => rfl)
  refine ⟨by rw [show coneAt cs_k2 (-s.tanf2) M.z 0 = (s.rSM M.z).r2 by rw [hr]; unfold coneAt; ring]; exact t1, t2, ?_⟩
  by_cases hz : ∃ z, OnEarth I ⟨M.x - (cs_k + ((s.rSM M.z).r2 - cs_k) * ((M.z - z) / M.z)) * sA, M.y + (cs_k + ((s.rSM M.z).r2 - cs_k) * ((M.z - z) / M.z)) * cA, z⟩
  · right
    obtain ⟨c, ho, hx, hy, -, w1, w2, hp⟩ := a4 hz
    refine ⟨c, ho, ?_, w1, w2, hp⟩
    obtain ⟨ω, hω⟩ : ∃ ω, ω = cs_k + ((s.rSM M.z).r2 - cs_k) * ((M.z - c.z) / M.z) := ⟨_, rfl⟩
    simp only [← hω] at hx hy
    have e1 : √((c.x - M.x) ^ 2 + (c.y - M.y) ^ 2) = |ω| := by
      rw [hx, hy, show (M.x - ω * sA - M.x) ^ 2 + (M.y + ω * cA - M.y) ^ 2 = ω ^ 2 * (sA ^ 2 + cA ^ 2) by ring, a1, mul_one, sqrt_sq_eq_abs]
    rw [e1]
    have e2 : ω - coneAt cs_k2 (-s.tanf2) M.z c.z = (cs_k - cs_k2) * c.z / M.z := by
      rw [hω, hr]; unfold coneAt; field_simp; ring
    have hcz : |c.z| ≤ 1 := by
      have := onEarth_z _ _ ho
      rw [abs_le]
      constructor <;> nlinarith [sq_nonneg c.x, sq_nonneg c.y]
    calc |(|ω|) - (|coneAt cs_k2 (-s.tanf2) M.z c.z|)| ≤ |ω - coneAt cs_k2 (-s.tanf2) M.z c.z| := abs_abs_sub_abs_le_abs_sub _ _
      _ = (cs_k - cs_k2) * |c.z| / M.z := by
        rw [e2, abs_div, abs_mul, abs_of_pos hM0, abs_of_pos (show 0 < cs_k - cs_k2 by unfold cs_k cs_k2; norm_num)]
      _ ≤ 0.000227 / M.z := by
        refine div_le_div_of_nonneg_right ?_ hM0.le
        have : cs_k - cs_k2 ≤ 0.000227 := by unfold cs_k cs_k2; norm_num
        have h0 : 0 ≤ cs_k - cs_k2 := by unfold cs_k cs_k2; norm_num
        calc (cs_k - cs_k2) * |c.z| ≤ (cs_k - cs_k2) * 1 := mul_le_mul_of_nonneg_left hcz h0
          _ ≤ _ := by linarith
  · left
    push Not at hz
    exact a3 hz

/-- **C83 (centre line).**  The place given for the axis through `(x, y)`: the highest point of the Earth on the axis, or the markers 100, 100 when the axis misses the Earth. -/
theorem c83_centre (x y : ℝ) (I : V3) (J W : ℝ) (hJW : (J, W) = bseXY2db x y I true) :
    ((∀ z, ¬ OnEarth I ⟨x, y, z⟩) → J = 100 ∧ W = 100)
    ∧ ((∃ z, OnEarth I ⟨x, y, z⟩) → ∃ z, OnEarth I ⟨x, y, z⟩ ∧ (∀ z', OnEarth I ⟨x, y, z'⟩ → z' ≤ z) ∧ -(π / 2) ≤ W ∧ W ≤ π / 2
        ∧ ((rotX I.y ⟨x, y, z⟩).x ≠ 0 ∨ (rotX I.y ⟨x, y, z⟩).y ≠ 0 → -π < J ∧ J ≤ π ∧ AtPlace I ⟨x, y, z⟩ J W)) := by
  have hline : ∀ t, onLine ⟨x, y, 2⟩ ⟨x, y, 0⟩ t = ⟨x, y, 2 - 2 * t⟩ := by
    intro t
    unfold onLine
    refine v3_ext ?_ ?_ ?_ <;> simp only [] <;> ring
  have hline' : ∀ z, (⟨x, y, z⟩ : V3) = onLine ⟨x, y, 2⟩ ⟨x, y, 0⟩ (1 - z / 2) := by
    intro z; rw [hline]; congr 1; ring
  obtain ⟨b1, b2⟩ := bessel_place ⟨x, y, 2⟩ ⟨x, y, 0⟩ I (Or.inr (Or.inr (by norm_num))) J W (by rw [hJW]; rfl)
  refine ⟨fun h => b1 (fun t => by rw [hline]; exact h _), ?_⟩
  rintro ⟨z, hz⟩
  obtain ⟨c, ⟨t, hc⟩, ho, hn, w1, w2, hp⟩ := b2 ⟨1 - z / 2, by rw [← hline']; exact hz⟩
  rw [hline] at hc
  subst hc
  refine ⟨2 - 2 * t, ho, ?_, w1, w2, hp⟩
  intro z' hz'
  have hb : ∀ z, OnEarth I ⟨x, y, z⟩ → z ≤ 1 := by
    intro z hz
    have := onEarth_z _ _ hz
    simp only at this
    nlinarith [sq_nonneg x, sq_nonneg y]
  have k1 := hb _ hz'
  have k2 := hb _ ho
  rw [hline'] at hz'
  have hd := hn _ hz'
  have d1 : dist3 ⟨x, y, 2 - 2 * t⟩ ⟨x, y, 2⟩ = |2 * t| := by
    unfold dist3
    rw [← sqrt_sq_eq_abs]; congr 1; simp only []; ring
  have d2 : dist3 (onLine ⟨x, y, 2⟩ ⟨x, y, 0⟩ (1 - z' / 2)) ⟨x, y, 2⟩ = |2 - z'| := by
    rw [hline]
    unfold dist3
    rw [← sqrt_sq_eq_abs]; congr 1; simp only []; ring
  rw [d1, d2, abs_of_nonneg (by linarith), abs_of_nonneg (by linarith)] at hd
  linarith

end Verif.Geom
