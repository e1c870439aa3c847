import Verif.Props.Geom

/-!
# C39, C40, C41, C52 (exact arithmetic): lines, ellipsoids, circles, ellipses, and the contact times
-/

namespace Verif.Geom

open Real

/-! ## quadratic equation, as the programs solve it -/

theorem quad_none {A B C : ℝ} (hA : 0 < A) (hD : B * B - A * C < 0) (t : ℝ) : A * t * t + 2 * B * t + C ≠ 0 := by
  intro h
  have : (A * t + B) ^ 2 = B * B - A * C := by linear_combination A * h
  nlinarith [sq_nonneg (A * t + B)]

theorem quad_root {A B C s : ℝ} (hA : 0 < A) (hs : s * s = B * B - A * C) :
    A * ((-B + s) / A) * ((-B + s) / A) + 2 * B * ((-B + s) / A) + C = 0 := by
  field_simp
  linear_combination hs

theorem quad_only {A B C s t : ℝ} (hA : 0 < A) (hs : s * s = B * B - A * C) (h : A * t * t + 2 * B * t + C = 0) :
    t = (-B + s) / A ∨ t = (-B - s) / A := by
  have h2 : (A * t + B - s) * (A * t + B + s) = 0 := by linear_combination A * h - hs
  rcases mul_eq_zero.1 h2 with h3 | h3
  · left; rw [eq_div_iff hA.ne']; linarith
  · right; rw [eq_div_iff hA.ne']; linarith

/-! ## C39 -/

/-- the ellipsoid of equatorial radius `r` and axis ratio `e` -/
def OnEll (e r : ℝ) (v : V3) : Prop := v.x ^ 2 + v.y ^ 2 + (v.z / e) ^ 2 = r ^ 2

/-- the point of parameter `t` on the line from `p` to `q` -/
def onLine (p q : V3) (t : ℝ) : V3 := ⟨p.x + (q.x - p.x) * t, p.y + (q.y - p.y) * t, p.z + (q.z - p.z) * t⟩

/-- distance -/
noncomputable def dist3 (a b : V3) : ℝ := √((a.x - b.x) ^ 2 + (a.y - b.y) ^ 2 + (a.z - b.z) ^ 2)

theorem dist_onLine (p q : V3) (s t : ℝ) :
    dist3 (onLine p q s) (onLine p q t) = √((q.x - p.x) * (q.x - p.x) + (q.y - p.y) * (q.y - p.y) + (q.z - p.z) * (q.z - p.z)) * |s - t| := by
  unfold dist3 onLine
  rw [← sqrt_sq_eq_abs, ← sqrt_mul (by nlinarith [mul_self_nonneg (q.x - p.x), mul_self_nonneg (q.y - p.y), mul_self_nonneg (q.z - p.z)])]
  congr 1
  simp only []
  ring

theorem onLine_zero (p q : V3) : onLine p q 0 = p := by cases p; simp [onLine]
theorem onLine_one (p q : V3) : onLine p q 1 = q := by cases p; cases q; simp [onLine]

/-- `lineEll`: for every pair of different points and every ellipsoid, a negative discriminant is reported exactly when the line
misses the ellipsoid; otherwise the point returned is on the line and on the ellipsoid, no common point is nearer to the first
point, and `R1`, `R2` are its distances from the two points. -/
theorem c39_lineEll (p q : V3) (e r : ℝ) (he : e ≠ 0) (hpq : p.x ≠ q.x ∨ p.y ≠ q.y ∨ p.z ≠ q.z) :
    ((lineEll p q e r).D < 0 ↔ ∀ t, ¬ OnEll e r (onLine p q t))
    ∧ (¬ (lineEll p q e r).D < 0 →
        ∃ c : V3, c = ⟨(lineEll p q e r).x, (lineEll p q e r).y, (lineEll p q e r).z⟩
          ∧ (∃ t, c = onLine p q t) ∧ OnEll e r c
          ∧ (∀ t, OnEll e r (onLine p q t) → dist3 c p ≤ dist3 (onLine p q t) p)
          ∧ (lineEll p q e r).R1 = dist3 c p ∧ (lineEll p q e r).R2 = dist3 c q) := by
  obtain ⟨dx, hdx⟩ : ∃ dx, dx = q.x - p.x := ⟨_, rfl⟩
  obtain ⟨dy, hdy⟩ : ∃ dy, dy = q.y - p.y := ⟨_, rfl⟩
  obtain ⟨dz, hdz⟩ : ∃ dz, dz = q.z - p.z := ⟨_, rfl⟩
  obtain ⟨A, hAd⟩ : ∃ A, A = dx * dx + dy * dy + dz * dz / (e * e) := ⟨_, rfl⟩
  obtain ⟨B, hBd⟩ : ∃ B, B = p.x * dx + p.y * dy + p.z * dz / (e * e) := ⟨_, rfl⟩
  obtain ⟨C, hCd⟩ : ∃ C, C = p.x * p.x + p.y * p.y + p.z * p.z / (e * e) - r * r := ⟨_, rfl⟩
  have he2 : 0 < e * e := mul_self_pos.2 he
  have hA : 0 < A := by
    have h3 : 0 ≤ dz * dz / (e * e) := div_nonneg (mul_self_nonneg _) he2.le
    rcases hpq with h | h | h
    · have : 0 < dx * dx := mul_self_pos.2 (by rw [hdx]; exact sub_ne_zero.2 h.symm)
      nlinarith [mul_self_nonneg dy]
    · have : 0 < dy * dy := mul_self_pos.2 (by rw [hdy]; exact sub_ne_zero.2 h.symm)
      nlinarith [mul_self_nonneg dx]
    · have : 0 < dz * dz / (e * e) := div_pos (mul_self_pos.2 (by rw [hdz]; exact sub_ne_zero.2 h.symm)) he2
      nlinarith [mul_self_nonneg dx, mul_self_nonneg dy]
  have hon : ∀ t, OnEll e r (onLine p q t) ↔ A * t * t + 2 * B * t + C = 0 := by
    intro t
    unfold OnEll onLine
    simp only []
    rw [← hdx, ← hdy, ← hdz, hAd, hBd, hCd]
    have : (p.x + dx * t) ^ 2 + (p.y + dy * t) ^ 2 + ((p.z + dz * t) / e) ^ 2 - r ^ 2
      = (dx * dx + dy * dy + dz * dz / (e * e)) * t * t + 2 * (p.x * dx + p.y * dy + p.z * dz / (e * e)) * t
        + (p.x * p.x + p.y * p.y + p.z * p.z / (e * e) - r * r) := by
      field_simp; ring
    rw [← this, sub_eq_zero]
  by_cases hD : B * B - A * C < 0
  · have hres : lineEll p q e r = ⟨0, 0, 0, 0, 0, B * B - A * C⟩ := by
      unfold lineEll
      simp only [← hdx, ← hdy, ← hdz, ← hAd, ← hBd, ← hCd]
      rw [if_pos hD]
    rw [hres]
    refine ⟨⟨fun _ t ht => quad_none hA hD t ((hon t).1 ht), fun _ => hD⟩, fun h => absurd hD h⟩
  · obtain ⟨s, hsd⟩ : ∃ s, s = if B < 0 then -√(B * B - A * C) else √(B * B - A * C) := ⟨_, rfl⟩
    have hss : s * s = B * B - A * C := by
      have := mul_self_sqrt (not_lt.1 hD)
      rw [hsd]; split_ifs
      · linarith
      · exact this
    obtain ⟨t0, ht0⟩ : ∃ t0, t0 = (-B + s) / A := ⟨_, rfl⟩
    have hres : lineEll p q e r = ⟨p.x + dx * t0, p.y + dy * t0, p.z + dz * t0, √(dx * dx + dy * dy + dz * dz) * |t0|,
        √(dx * dx + dy * dy + dz * dz) * |t0 - 1|, B * B - A * C⟩ := by
      unfold lineEll
      simp only [← hdx, ← hdy, ← hdz, ← hAd, ← hBd, ← hCd]
      rw [if_neg hD, ← hsd, ← ht0]
    have hroot : OnEll e r (onLine p q t0) := by rw [hon, ht0]; exact quad_root hA hss
    rw [hres]
    refine ⟨⟨fun h => absurd h hD, fun h => absurd hroot (h t0)⟩, fun _ => ⟨onLine p q t0, ?_, ⟨t0, rfl⟩, hroot, ?_, ?_, ?_⟩⟩
    · simp only [onLine, hdx, hdy, hdz]
    · intro t ht
      have key : |t0| ≤ |t| := by
        rcases quad_only hA hss ((hon t).1 ht) with h | h
        · rw [h, ht0]
        · rw [h, ht0, abs_div, abs_div]
          refine div_le_div_of_nonneg_right ?_ (abs_nonneg _)
          have hsq := sqrt_nonneg (B * B - A * C)
          by_cases hB : B < 0
          · rw [if_pos hB] at hsd
            rw [abs_le]
            have : |-B - s| = -B - s := abs_of_nonneg (by linarith)
            rw [this]; constructor <;> linarith
          · rw [if_neg hB] at hsd
            rw [abs_le]
            have : |-B - s| = B + s := by rw [show -B - s = -(B + s) by ring, abs_neg, abs_of_nonneg (by linarith)]
            rw [this]; constructor <;> linarith
      have := dist_onLine p q
      have e1 := this t0 0
      have e2 := this t 0
      rw [onLine_zero] at e1 e2
      rw [e1, e2, sub_zero, sub_zero]
      exact mul_le_mul_of_nonneg_left key (sqrt_nonneg _)
    · have e1 := dist_onLine p q t0 0
      rw [onLine_zero] at e1
      rw [e1, sub_zero, hdx, hdy, hdz]
    · have e1 := dist_onLine p q t0 1
      rw [onLine_one] at e1
      rw [e1, hdx, hdy, hdz]

example : (lineEll ⟨5, 0, 0⟩ ⟨0, 0, 0⟩ 1 1).x = 1 := by
  have h : √(25 : ℝ) = 5 := by rw [show (25 : ℝ) = 5 ^ 2 by norm_num]; exact sqrt_sq (by norm_num)
  norm_num [lineEll, h]

/-- `lineEar2`: the line is first turned about the x axis into equatorial axes; without an intersection longitude and latitude
are both the marker 100; with one (off the axis) the longitude is that of the intersection, shifted by `I[0] - I[2]` and brought
into (-π, π], and the latitude is the geodetic one: the inclination of the surface normal `(x, y, z/e²)`. -/
theorem c39_lineEar2 (p q : V3) (e r : ℝ) (I : V3) :
    (lineEar2 p q e r I).1 = lineEll (rotX I.y p) (rotX I.y q) e r
    ∧ ((lineEar2 p q e r I).1.D < 0 → (lineEar2 p q e r I).2 = (100, 100))
    ∧ (¬ (lineEar2 p q e r I).1.D < 0 → ∀ c, c = (lineEar2 p q e r I).1 → (c.x ≠ 0 ∨ c.y ≠ 0) →
        ∃ J W ρ : ℝ, (lineEar2 p q e r I).2 = (J, W) ∧ 0 < ρ ∧ ρ ^ 2 = c.x ^ 2 + c.y ^ 2
          ∧ -π < J ∧ J ≤ π ∧ ρ * cos (J - (I.x - I.z)) = c.x ∧ ρ * sin (J - (I.x - I.z)) = c.y
          ∧ -(π / 2) < W ∧ W < π / 2 ∧ tan W = (c.z / e ^ 2) / ρ) := by
  obtain ⟨c0, hc0⟩ : ∃ c0, c0 = lineEll (rotX I.y p) (rotX I.y q) e r := ⟨_, rfl⟩
  have hres : lineEar2 p q e r I = if c0.D < 0 then (c0, 100, 100)
      else (c0, rrad (atan2 c0.y c0.x + I.x - I.z), arctan (c0.z / e / e / √(c0.x * c0.x + c0.y * c0.y))) := by
    rw [hc0]; rfl
  by_cases hD : c0.D < 0
  · rw [hres, if_pos hD, ← hc0]
    exact ⟨rfl, fun _ => rfl, fun h => absurd hD h⟩
  · rw [hres, if_neg hD, ← hc0]
    refine ⟨rfl, fun h => absurd h hD, ?_⟩
    rintro - c rfl hc
    have hpos : 0 < c.x * c.x + c.y * c.y := by
      rcases hc with h | h
      · nlinarith [mul_self_pos.2 h, mul_self_nonneg c.y]
      · nlinarith [mul_self_pos.2 h, mul_self_nonneg c.x]
    obtain ⟨k1, k2, k, hk⟩ := c36_rrad_real (atan2 c.y c.x + I.x - I.z)
    refine ⟨_, _, √(c.x * c.x + c.y * c.y), rfl, sqrt_pos.2 hpos, ?_, k1, k2, ?_, ?_, neg_pi_div_two_lt_arctan _, arctan_lt_pi_div_two _, ?_⟩
    · rw [sq_sqrt hpos.le]; ring
    · rw [hk, show atan2 c.y c.x + I.x - I.z + 2 * π * k - (I.x - I.z) = atan2 c.y c.x + k * (2 * π) by ring, cos_add_int_mul_two_pi,
        atan2_cos]
    · rw [hk, show atan2 c.y c.x + I.x - I.z + 2 * π * k - (I.x - I.z) = atan2 c.y c.x + k * (2 * π) by ring, sin_add_int_mul_two_pi,
        atan2_sin]
    · rw [tan_arctan]; congr 1; rw [div_div, sq]

/-! ## C40 -/

/-- the ellipse of half axes `r` and `r·ba` -/
def OnOvl (r ba x y : ℝ) : Prop := x ^ 2 + (y / ba) ^ 2 = r ^ 2

/-- `lineOvl`: the number of points is 0 exactly when the line misses the ellipse, 1 exactly when it touches; otherwise the common
points are exactly A and B, and `R1`, `R2` are their distances from the base point. -/
theorem c40_lineOvl (x1 y1 dx dy r ba : ℝ) (hb : ba ≠ 0) (hd : dx ≠ 0 ∨ dy ≠ 0) :
    ((lineOvl x1 y1 dx dy r ba).n = 0 ↔ ∀ t, ¬ OnOvl r ba (x1 + dx * t) (y1 + dy * t))
    ∧ ((lineOvl x1 y1 dx dy r ba).n = 1 ↔ ∃! t, OnOvl r ba (x1 + dx * t) (y1 + dy * t))
    ∧ ∀ N, N = lineOvl x1 y1 dx dy r ba → N.n ≠ 0 → ∃ t1 t2,
        (∀ t, OnOvl r ba (x1 + dx * t) (y1 + dy * t) ↔ t = t1 ∨ t = t2)
        ∧ N.ax = x1 + dx * t1 ∧ N.ay = y1 + dy * t1 ∧ N.bx = x1 + dx * t2 ∧ N.byy = y1 + dy * t2
        ∧ N.R1 = √((N.ax - x1) ^ 2 + (N.ay - y1) ^ 2) ∧ N.R2 = √((N.bx - x1) ^ 2 + (N.byy - y1) ^ 2) := by
  obtain ⟨A, hAd⟩ : ∃ A, A = dx * dx + dy * dy / (ba * ba) := ⟨_, rfl⟩
  obtain ⟨B, hBd⟩ : ∃ B, B = x1 * dx + y1 * dy / (ba * ba) := ⟨_, rfl⟩
  obtain ⟨C, hCd⟩ : ∃ C, C = x1 * x1 + y1 * y1 / (ba * ba) - r * r := ⟨_, rfl⟩
  have hb2 : 0 < ba * ba := mul_self_pos.2 hb
  have hA : 0 < A := by
    have h3 : 0 ≤ dy * dy / (ba * ba) := div_nonneg (mul_self_nonneg _) hb2.le
    rcases hd with h | h
    · have := mul_self_pos.2 h
      linarith
    · have : 0 < dy * dy / (ba * ba) := div_pos (mul_self_pos.2 h) hb2
      nlinarith [mul_self_nonneg dx]
  have hon : ∀ t, OnOvl r ba (x1 + dx * t) (y1 + dy * t) ↔ A * t * t + 2 * B * t + C = 0 := by
    intro t
    unfold OnOvl
    rw [hAd, hBd, hCd]
    have : (x1 + dx * t) ^ 2 + ((y1 + dy * t) / ba) ^ 2 - r ^ 2
      = (dx * dx + dy * dy / (ba * ba)) * t * t + 2 * (x1 * dx + y1 * dy / (ba * ba)) * t + (x1 * x1 + y1 * y1 / (ba * ba) - r * r) := by
      field_simp; ring
    rw [← this, sub_eq_zero]
  have hL : ∀ t, √(dx * dx + dy * dy) * |t| = √((x1 + dx * t - x1) ^ 2 + (y1 + dy * t - y1) ^ 2) := by
    intro t
    rw [← sqrt_sq_eq_abs, ← sqrt_mul (by nlinarith [mul_self_nonneg dx, mul_self_nonneg dy])]
    congr 1; ring
  by_cases hD : B * B - A * C < 0
  · have hres : lineOvl x1 y1 dx dy r ba = ⟨0, 0, 0, 0, 0, 0, 0⟩ := by
      unfold lineOvl
      simp only [← hAd, ← hBd, ← hCd]
      rw [if_pos hD]
    rw [hres]
    have hno : ∀ t, ¬ OnOvl r ba (x1 + dx * t) (y1 + dy * t) := fun t ht => quad_none hA hD t ((hon t).1 ht)
    refine ⟨⟨fun _ => hno, fun _ => rfl⟩, ⟨fun h => by simp at h, ?_⟩, ?_⟩
    · rintro ⟨t, ht, -⟩
      exact absurd ht (hno t)
    · rintro N rfl h
      exact absurd rfl h
  · obtain ⟨s, hsd⟩ : ∃ s, s = √(B * B - A * C) := ⟨_, rfl⟩
    have hss : s * s = B * B - A * C := by rw [hsd]; exact mul_self_sqrt (not_lt.1 hD)
    obtain ⟨t1, ht1⟩ : ∃ t1, t1 = (-B + s) / A := ⟨_, rfl⟩
    obtain ⟨t2, ht2⟩ : ∃ t2, t2 = (-B - s) / A := ⟨_, rfl⟩
    have hres : lineOvl x1 y1 dx dy r ba = ⟨if B * B - A * C = 0 then 1 else 2, x1 + dx * t1, y1 + dy * t1, x1 + dx * t2, y1 + dy * t2,
        √(dx * dx + dy * dy) * |t1|, √(dx * dx + dy * dy) * |t2|⟩ := by
      unfold lineOvl
      simp only [← hAd, ← hBd, ← hCd]
      rw [if_neg hD, ← hsd, ← ht1, ← ht2]
    have hroots : ∀ t, OnOvl r ba (x1 + dx * t) (y1 + dy * t) ↔ t = t1 ∨ t = t2 := by
      intro t
      rw [hon]
      constructor
      · intro h; rw [ht1, ht2]; exact quad_only hA hss h
      · rintro (h | h)
        · rw [h, ht1]; exact quad_root hA hss
        · rw [h, ht2, sub_eq_add_neg]; exact quad_root (s := -s) hA (by linarith)
    rw [hres]
    simp only []
    refine ⟨⟨fun h => ?_, fun h => absurd ((hroots t1).2 (Or.inl rfl)) (h t1)⟩, ⟨fun h => ?_, ?_⟩, ?_⟩
    · split_ifs at h
    · have h0 : B * B - A * C = 0 := by
        by_contra hc
        rw [if_neg hc] at h
        exact absurd h (by norm_num)
      have hs0 : s = 0 := by
        rw [h0] at hss
        exact mul_self_eq_zero.1 hss
      refine ⟨t1, (hroots t1).2 (Or.inl rfl), fun y hy => ?_⟩
      rcases (hroots y).1 hy with h | h
      · exact h
      · rw [h, ht1, ht2, hs0, sub_zero, add_zero]
    · rintro ⟨t, -, hu⟩
      have e1 := hu t1 ((hroots t1).2 (Or.inl rfl))
      have e2 := hu t2 ((hroots t2).2 (Or.inr rfl))
      have e3 : t1 = t2 := e1.trans e2.symm
      rw [ht1, ht2, div_left_inj' hA.ne'] at e3
      have hs0 : s = 0 := by linarith
      rw [if_pos (by rw [← hss, hs0, mul_zero])]
    · rintro N rfl -
      exact ⟨t1, t2, hroots, rfl, rfl, rfl, rfl, hL t1, hL t2⟩

example : (lineOvl 0 0 1 0 1 1).n = 2 := by norm_num [lineOvl]

theorem cirRound_spec {R ba R2 d sinB cosB cosA sinA k c s X Y : ℝ} (hB : sinB ^ 2 + cosB ^ 2 = 1) (hk : k ^ 2 = 1) (hd : d ≠ 0)
    (hg : ∀ S : ℝ, S = cosA * sinB + sinA * cosB * k → R - S * S * (1 / (ba * ba) - 1) / 2 ≠ 0)
    (h : cirRound R ba R2 d sinB cosB cosA sinA k = some (c, s, X, Y)) :
    c ^ 2 + s ^ 2 = 1 ∧ (X - d * cosB) ^ 2 + (Y - d * sinB) ^ 2 = R2 ^ 2
      ∧ X ^ 2 + Y ^ 2 = (R - (cosA * sinB + sinA * cosB * k) ^ 2 * (1 / (ba * ba) - 1) / 2) ^ 2 := by
  unfold cirRound at h
  simp only [] at h
  have hg := hg _ rfl
  obtain ⟨g, hgd⟩ : ∃ g, g = R - (cosA * sinB + sinA * cosB * k) * (cosA * sinB + sinA * cosB * k) * (1 / (ba * ba) - 1) / 2 := ⟨_, rfl⟩
  rw [← hgd] at h hg
  obtain ⟨c', hcd⟩ : ∃ c', c' = (g * g + d * d - R2 * R2) / (2 * d * g) := ⟨_, rfl⟩
  rw [← hcd] at h
  split_ifs at h with h1
  simp only [Option.some.injEq, Prod.mk.injEq] at h
  obtain ⟨rfl, rfl, rfl, rfl⟩ := h
  have hc2 : c' * c' ≤ 1 := by
    have := abs_le.1 (not_lt.1 h1)
    nlinarith
  have hs2 : √(1 - c' * c') ^ 2 = 1 - c' * c' := sq_sqrt (by linarith)
  have hu : c' ^ 2 + √(1 - c' * c') ^ 2 = 1 := by rw [hs2]; ring
  obtain ⟨s', hsd⟩ : ∃ s', s' = √(1 - c' * c') := ⟨_, rfl⟩
  rw [← hsd] at hu ⊢
  have hl : c' * (2 * d * g) = g * g + d * d - R2 * R2 := by rw [hcd]; field_simp
  have hn : (c' * cosB - s' * sinB * k) ^ 2 + (c' * sinB + s' * cosB * k) ^ 2 = 1 := by
    linear_combination (sinB ^ 2 + cosB ^ 2) * (s' ^ 2 * hk + hu) + hB
  have hp : (c' * cosB - s' * sinB * k) * cosB + (c' * sinB + s' * cosB * k) * sinB = c' := by
    linear_combination c' * hB
  refine ⟨hu, ?_, ?_⟩
  · linear_combination g ^ 2 * hn - 2 * d * g * hp + d ^ 2 * hB - hl
  · rw [show (cosA * sinB + sinA * cosB * k) ^ 2 = (cosA * sinB + sinA * cosB * k) * (cosA * sinB + sinA * cosB * k) by ring, ← hgd]
    linear_combination g ^ 2 * hn

theorem center {x0 y0 : ℝ} (hc : x0 ≠ 0 ∨ y0 ≠ 0) : ∃ d, d = √(x0 * x0 + y0 * y0) ∧ 0 < d ∧ d ^ 2 = x0 ^ 2 + y0 ^ 2 ∧ d * (x0 / d) = x0 ∧ d * (y0 / d) = y0
    ∧ (y0 / d) ^ 2 + (x0 / d) ^ 2 = 1 := by
  have hpos : 0 < x0 * x0 + y0 * y0 := by
    rcases hc with h | h
    · nlinarith [mul_self_pos.2 h, mul_self_nonneg y0]
    · nlinarith [mul_self_pos.2 h, mul_self_nonneg x0]
  have hd := sqrt_pos.2 hpos
  have h2 : √(x0 * x0 + y0 * y0) ^ 2 = x0 ^ 2 + y0 ^ 2 := by rw [sq_sqrt hpos.le]; ring
  refine ⟨_, rfl, hd, h2, mul_div_cancel₀ _ hd.ne', mul_div_cancel₀ _ hd.ne', ?_⟩
  rw [div_pow, div_pow, h2, ← add_div, add_comm, ← h2, div_self (by positivity)]

/-- `cirOvl` of a circle (`ba = 1`): 0 points are reported exactly when the two circles do not meet; otherwise both points lie
exactly on both circles and every common point is one of them. -/
theorem c40_circles (R R2 x0 y0 : ℝ) (hR : 0 < R) (hc : x0 ≠ 0 ∨ y0 ≠ 0) :
    ((cirOvl R 1 R2 x0 y0).n = 0 ↔ ∀ x y : ℝ, x ^ 2 + y ^ 2 = R ^ 2 → (x - x0) ^ 2 + (y - y0) ^ 2 ≠ R2 ^ 2)
    ∧ ∀ N, N = cirOvl R 1 R2 x0 y0 → N.n ≠ 0 → N.n = 2
        ∧ (N.ax ^ 2 + N.ay ^ 2 = R ^ 2 ∧ (N.ax - x0) ^ 2 + (N.ay - y0) ^ 2 = R2 ^ 2)
        ∧ (N.bx ^ 2 + N.byy ^ 2 = R ^ 2 ∧ (N.bx - x0) ^ 2 + (N.byy - y0) ^ 2 = R2 ^ 2)
        ∧ ∀ x y : ℝ, x ^ 2 + y ^ 2 = R ^ 2 → (x - x0) ^ 2 + (y - y0) ^ 2 = R2 ^ 2 → (x = N.ax ∧ y = N.ay) ∨ (x = N.bx ∧ y = N.byy) := by
  obtain ⟨d, hdd, hd, hd2, hx, hy, hB⟩ := center hc
  obtain ⟨sB, hsB⟩ : ∃ sB, sB = y0 / d := ⟨_, rfl⟩
  obtain ⟨cB, hcB⟩ : ∃ cB, cB = x0 / d := ⟨_, rfl⟩
  rw [← hsB, ← hcB] at hB
  rw [← hcB] at hx
  rw [← hsB] at hy
  obtain ⟨c, hcd⟩ : ∃ c, c = (R * R + d * d - R2 * R2) / (2 * d * R) := ⟨_, rfl⟩
  have hl : c * (2 * d * R) = R * R + d * d - R2 * R2 := by rw [hcd]; field_simp
  have hround : ∀ cosA sinA k : ℝ, cirRound R 1 R2 d sB cB cosA sinA k =
      if 1 < |c| then none else some (c, √(1 - c * c), R * (c * cB - √(1 - c * c) * sB * k), R * (c * sB + √(1 - c * c) * cB * k)) := by
    intro cosA sinA k
    unfold cirRound
    norm_num
    rw [← hcd]
  -- the component of any common point along the centre direction
  have hcom : ∀ x y : ℝ, x ^ 2 + y ^ 2 = R ^ 2 → (x - x0) ^ 2 + (y - y0) ^ 2 = R2 ^ 2 → x * cB + y * sB = R * c := by
    intro x y h1 h2
    have : 2 * d * (x * cB + y * sB) = 2 * d * (R * c) := by
      linear_combination h1 - h2 + 2 * x * hx + 2 * y * hy - hd2 - hl
    exact mul_left_cancel₀ (by positivity) this
  by_cases h1 : 1 < |c|
  · have hres : cirOvl R 1 R2 x0 y0 = ⟨0, 0, 0, 0, 0, 0, 0⟩ := by
      unfold cirOvl
      simp only [← hdd, ← hsB, ← hcB, ← hcd]
      rw [if_pos h1]
    rw [hres]
    refine ⟨⟨fun _ x y hxy h => ?_, fun _ => rfl⟩, ?_⟩
    · have e := hcom x y hxy h
      have e2 : (x * cB + y * sB) ^ 2 + (x * sB - y * cB) ^ 2 = R ^ 2 := by
        linear_combination (x ^ 2 + y ^ 2) * hB + hxy
      have e3 : c ^ 2 ≤ 1 := by
        have : R ^ 2 * c ^ 2 ≤ R ^ 2 * 1 := by
          rw [e] at e2
          nlinarith [sq_nonneg (x * sB - y * cB)]
        exact le_of_mul_le_mul_left this (by positivity)
      have e4 := (abs_le_one_iff_mul_self_le_one).2 (by nlinarith : c * c ≤ 1)
      linarith
    · rintro N rfl h
      exact absurd rfl h
  · obtain ⟨s, hsd⟩ : ∃ s, s = √(1 - c * c) := ⟨_, rfl⟩
    have hc1 : c * c ≤ 1 := abs_le_one_iff_mul_self_le_one.1 (not_lt.1 h1)
    have hs2 : s ^ 2 = 1 - c ^ 2 := by rw [hsd, sq_sqrt (by linarith)]; ring
    have hres : cirOvl R 1 R2 x0 y0 = ⟨2, R * (c * cB - s * sB * 1), R * (c * sB + s * cB * 1), R * (c * cB - s * sB * (-1)), R * (c * sB + s * cB * (-1)), 0, 0⟩ := by
      unfold cirOvl
      simp only [← hdd, ← hsB, ← hcB, ← hcd]
      rw [if_neg h1]
      simp only [hround, if_neg h1, ← hsd]
    have hA : (R * (c * cB - s * sB * 1)) ^ 2 + (R * (c * sB + s * cB * 1)) ^ 2 = R ^ 2 := by
      linear_combination (R ^ 2) * (c ^ 2 + s ^ 2) * hB + R ^ 2 * hs2
    have hA2 : (R * (c * cB - s * sB * 1) - x0) ^ 2 + (R * (c * sB + s * cB * 1) - y0) ^ 2 = R2 ^ 2 := by
      rw [← hx, ← hy]
      linear_combination hA - hl + (d ^ 2 - 2 * R * c * d) * hB
    have hB1 : (R * (c * cB - s * sB * (-1))) ^ 2 + (R * (c * sB + s * cB * (-1))) ^ 2 = R ^ 2 := by
      linear_combination (R ^ 2) * (c ^ 2 + s ^ 2) * hB + R ^ 2 * hs2
    have hB2 : (R * (c * cB - s * sB * (-1)) - x0) ^ 2 + (R * (c * sB + s * cB * (-1)) - y0) ^ 2 = R2 ^ 2 := by
      rw [← hx, ← hy]
      linear_combination hB1 - hl + (d ^ 2 - 2 * R * c * d) * hB
    rw [hres]
    refine ⟨⟨fun h => absurd h (by norm_num), fun h => absurd hA2 (h _ _ hA)⟩, ?_⟩
    rintro N rfl -
    refine ⟨rfl, ⟨hA, hA2⟩, ⟨hB1, hB2⟩, ?_⟩
    intro x y h1 h2
    have e := hcom x y h1 h2
    have e2 : (y * cB - x * sB - R * s) * (y * cB - x * sB + R * s) = 0 := by
      have : (x * cB + y * sB) ^ 2 + (y * cB - x * sB) ^ 2 = R ^ 2 := by linear_combination (x ^ 2 + y ^ 2) * hB + h1
      rw [e] at this
      linear_combination this - R ^ 2 * hs2
    rcases mul_eq_zero.1 e2 with h3 | h3
    · left
      constructor
      · linear_combination (-x) * hB + cB * e - sB * h3
      · linear_combination (-y) * hB + sB * e + cB * h3
    · right
      constructor
      · linear_combination (-x) * hB + cB * e - sB * h3
      · linear_combination (-y) * hB + sB * e + cB * h3

example : (cirOvl 1 1 1 1 0).n = 2 := by
  by_contra hne
  obtain ⟨h1, h2⟩ := c40_circles 1 1 1 0 one_pos (Or.inl one_ne_zero)
  by_cases h0 : (cirOvl 1 1 1 1 0).n = 0
  · have h3 : √(3 : ℝ) ^ 2 = 3 := sq_sqrt (by norm_num)
    refine h1.1 h0 (1 / 2) (√3 / 2) ?_ ?_ <;> linear_combination (1 / 4 : ℝ) * h3
  · exact hne (h2 _ rfl h0).1

/-- `cirOvl` of an ellipse: whenever points are reported they lie exactly on the circle, and for the unit ellipse (half axes 1 and
`ba ≤ 1`) they satisfy the equation of the ellipse up to `1/ba² - 1` (0.0067 for the Earth).  What is missing for the full
property: that the points are exactly on the ellipse (they are not: the program stops after one correction) and that 0 is
reported only when there is none. -/
theorem c40_ellipse_partial (R ba R2 x0 y0 : ℝ) (hR : R = 1) (hba : 3 / 4 ≤ ba ∧ ba ≤ 1) (hc : x0 ≠ 0 ∨ y0 ≠ 0) :
    ∀ N, N = cirOvl R ba R2 x0 y0 → N.n ≠ 0 →
      ((N.ax - x0) ^ 2 + (N.ay - y0) ^ 2 = R2 ^ 2 ∧ |N.ax ^ 2 + (N.ay / ba) ^ 2 - 1| ≤ 1 / ba ^ 2 - 1)
      ∧ ((N.bx - x0) ^ 2 + (N.byy - y0) ^ 2 = R2 ^ 2 ∧ |N.bx ^ 2 + (N.byy / ba) ^ 2 - 1| ≤ 1 / ba ^ 2 - 1) := by
  subst hR
  obtain ⟨d, hdd, hd, hd2, hx, hy, hB⟩ := center hc
  obtain ⟨sB, hsB⟩ : ∃ sB, sB = y0 / d := ⟨_, rfl⟩
  obtain ⟨cB, hcB⟩ : ∃ cB, cB = x0 / d := ⟨_, rfl⟩
  rw [← hsB, ← hcB] at hB
  rw [← hcB] at hx
  rw [← hsB] at hy
  obtain ⟨κ, hκ⟩ : ∃ κ, κ = 1 / (ba * ba) - 1 := ⟨_, rfl⟩
  have hb0 : 0 < ba := by linarith
  have hκ0 : 0 ≤ κ := by
    rw [hκ, sub_nonneg, le_div_iff₀ (by positivity)]
    nlinarith
  have hκ1 : κ ≤ 7 / 9 := by
    rw [hκ, sub_le_iff_le_add, div_le_iff₀ (by positivity)]
    nlinarith
  have hS : ∀ c s k : ℝ, c ^ 2 + s ^ 2 = 1 → k ^ 2 = 1 → (c * sB + s * cB * k) ^ 2 ≤ 1 := by
    intro c s k h1 h2
    have : (c * sB + s * cB * k) ^ 2 + (c * cB - s * sB * k) ^ 2 = 1 := by
      linear_combination (sB ^ 2 + cB ^ 2) * (s ^ 2 * h2 + h1) + hB
    nlinarith [sq_nonneg (c * cB - s * sB * k)]
  -- one round
  have round : ∀ c s k c' s' X Y : ℝ, c ^ 2 + s ^ 2 = 1 → k ^ 2 = 1 → cirRound 1 ba R2 d sB cB c s k = some (c', s', X, Y) →
      c' ^ 2 + s' ^ 2 = 1 ∧ (X - x0) ^ 2 + (Y - y0) ^ 2 = R2 ^ 2 ∧ |X ^ 2 + (Y / ba) ^ 2 - 1| ≤ 1 / ba ^ 2 - 1 := by
    intro c s k c' s' X Y h1 h2 h3
    have hS1 := hS c s k h1 h2
    have hS0 := sq_nonneg (c * sB + s * cB * k)
    obtain ⟨Q, hQ⟩ : ∃ Q, Q = (c * sB + s * cB * k) ^ 2 := ⟨_, rfl⟩
    rw [← hQ] at hS1 hS0
    have hq : Q * κ ≤ κ := by nlinarith
    have hq0 : 0 ≤ Q * κ := mul_nonneg hS0 hκ0
    obtain ⟨a, b, e⟩ := cirRound_spec hB h2 hd.ne' (by
      rintro S rfl
      rw [← hκ, show (c * sB + s * cB * k) * (c * sB + s * cB * k) = Q by rw [hQ]; ring]
      have : 0 < 1 - Q * κ / 2 := by linarith
      exact this.ne') h3
    rw [← hκ, ← hQ] at e
    rw [hx, hy] at b
    refine ⟨a, b, ?_⟩
    have hκ' : 1 / ba ^ 2 - 1 = κ := by rw [hκ, sq]
    rw [hκ']
    have hYb : (Y / ba) ^ 2 = Y ^ 2 * (1 + κ) := by
      rw [hκ, div_pow, sq ba]; field_simp; ring
    rw [hYb]
    obtain ⟨w, hw⟩ : ∃ w, w = Q * κ := ⟨_, rfl⟩
    rw [← hw] at e hq hq0
    have hg1 : (1 - w / 2) ^ 2 ≤ 1 := by nlinarith
    have hg2 : 1 - w ≤ (1 - w / 2) ^ 2 := by nlinarith [sq_nonneg w]
    have hY : Y ^ 2 ≤ 1 := by linarith [sq_nonneg X]
    have hY1 : Y ^ 2 * κ ≤ 1 * κ := mul_le_mul_of_nonneg_right hY hκ0
    have hY0 : 0 ≤ Y ^ 2 * κ := mul_nonneg (sq_nonneg Y) hκ0
    rw [mul_add, mul_one, abs_le]
    constructor <;> linarith
  rintro N rfl
  obtain ⟨c, hcd⟩ : ∃ c, c = ((1 : ℝ) * 1 + d * d - R2 * R2) / (2 * d * 1) := ⟨_, rfl⟩
  unfold cirOvl
  simp only [← hdd, ← hsB, ← hcB, ← hcd]
  by_cases h1 : 1 < |c|
  · rw [if_pos h1]; intro h; exact absurd rfl h
  · rw [if_neg h1]
    have hc1 : c * c ≤ 1 := abs_le_one_iff_mul_self_le_one.1 (not_lt.1 h1)
    have hcs : c ^ 2 + √(1 - c * c) ^ 2 = 1 := by rw [sq_sqrt (by linarith)]; ring
    cases hr1 : cirRound 1 ba R2 d sB cB c (√(1 - c * c)) (-1) with
    | none => intro h; exact absurd rfl h
    | some v =>
      obtain ⟨c', s', bx, byy⟩ := v
      obtain ⟨a1, a2, a3⟩ := round _ _ _ _ _ _ _ hcs (by norm_num) hr1
      simp only []
      cases hr2 : cirRound 1 ba R2 d sB cB c' s' 1 with
      | none => intro h; exact absurd rfl h
      | some w =>
        obtain ⟨c'', s'', ax, ay⟩ := w
        obtain ⟨b1, b2, b3⟩ := round _ _ _ _ _ _ _ a1 (by norm_num) hr2
        intro _
        exact ⟨⟨b2, b3⟩, a2, a3⟩

/-! ## C41 -/

/-- `lineT`: a shadow centre moves uniformly, at `(x, y)` at the time `t`, with the velocity `(v, u)`, `v > 0`.  If it ever is at the
distance `r` from the origin, the two results are exactly the first and the last such times; if it never is, both are the marker 0. -/
theorem c41_lineT (x y t v u r : ℝ) (hv : 0 < v) (far : ℝ → Prop)
    (hfar : ∀ τ, far τ ↔ (x + v * (τ - t)) ^ 2 + (y + u * (τ - t)) ^ 2 = r ^ 2) :
    ((∃ τ, far τ) → far (lineT x y t v u r false) ∧ far (lineT x y t v u r true) ∧ lineT x y t v u r false ≤ lineT x y t v u r true
        ∧ ∀ τ, far τ → τ = lineT x y t v u r false ∨ τ = lineT x y t v u r true)
    ∧ ((¬ ∃ τ, far τ) → lineT x y t v u r false = 0 ∧ lineT x y t v u r true = 0) := by
  obtain ⟨b, hb⟩ : ∃ b, b = y * v - x * u := ⟨_, rfl⟩
  obtain ⟨A, hAd⟩ : ∃ A, A = u * u + v * v := ⟨_, rfl⟩
  obtain ⟨B, hBd⟩ : ∃ B, B = u * b := ⟨_, rfl⟩
  obtain ⟨C, hCd⟩ : ∃ C, C = b * b - r * r * v * v := ⟨_, rfl⟩
  have hA : 0 < A := by rw [hAd]; nlinarith [mul_self_nonneg u, mul_pos hv hv]
  have hX : ∀ τ, far τ ↔ A * (x + v * (τ - t)) * (x + v * (τ - t)) + 2 * B * (x + v * (τ - t)) + C = 0 := by
    intro τ
    rw [hfar]
    obtain ⟨w, hw⟩ : ∃ w, w = τ - t := ⟨_, rfl⟩
    rw [← hw]
    have : A * (x + v * w) * (x + v * w) + 2 * B * (x + v * w) + C = v ^ 2 * ((x + v * w) ^ 2 + (y + u * w) ^ 2 - r ^ 2) := by
      rw [hAd, hBd, hCd, hb]; ring
    rw [this]
    constructor
    · intro h; rw [h]; ring
    · intro h
      rcases mul_eq_zero.1 h with h | h
      · exact absurd h (by positivity)
      · linarith
  by_cases hD : B * B - A * C < 0
  · have hno : ¬ ∃ τ, far τ := fun ⟨τ, h⟩ => quad_none hA hD _ ((hX τ).1 h)
    refine ⟨fun h => absurd h hno, fun _ => ?_⟩
    unfold lineT
    simp only [← hb, ← hAd, ← hBd, ← hCd, if_pos hD, and_self]
  · obtain ⟨s, hsd⟩ : ∃ s, s = √(B * B - A * C) := ⟨_, rfl⟩
    have hs0 : 0 ≤ s := by rw [hsd]; exact sqrt_nonneg _
    have hss : s * s = B * B - A * C := by rw [hsd]; exact mul_self_sqrt (not_lt.1 hD)
    have ht : lineT x y t v u r true = t + ((-B + s) / A - x) / v := by
      unfold lineT
      simp only [← hb, ← hAd, ← hBd, ← hCd, if_neg hD, ← hsd, if_true]
    have hf : lineT x y t v u r false = t + ((-B - s) / A - x) / v := by
      unfold lineT
      simp only [← hb, ← hAd, ← hBd, ← hCd, if_neg hD, ← hsd, Bool.false_eq_true, if_false]
      rw [sub_eq_add_neg (-B) s]
    have back : ∀ X : ℝ, x + v * (t + (X - x) / v - t) = X := by
      intro X; field_simp; ring
    have h1 : far (lineT x y t v u r true) := by
      rw [hX, ht, back]; exact quad_root hA hss
    have h2 : far (lineT x y t v u r false) := by
      rw [hX, hf, back, sub_eq_add_neg]; exact quad_root (s := -s) hA (by linarith)
    refine ⟨fun _ => ⟨h2, h1, ?_, ?_⟩, fun h => absurd ⟨_, h1⟩ h⟩
    · rw [ht, hf]
      have : (-B - s) / A ≤ (-B + s) / A := div_le_div_of_nonneg_right (by linarith) hA.le
      have := div_le_div_of_nonneg_right (sub_le_sub_right this x) hv.le
      linarith
    · intro τ hτ
      have inv : ∀ X, x + v * (τ - t) = X → τ = t + (X - x) / v := by
        rintro X rfl; field_simp; ring
      rcases quad_only hA hss ((hX τ).1 hτ) with h | h
      · right; rw [ht]; exact inv _ h
      · left; rw [hf]; exact inv _ h

/-- The marker 0 is also a possible contact time (the beginning of 2000 January 1, noon): a caller that tests for 0 cannot tell the two. -/
theorem c41_marker_ambiguous : lineT 1 0 0 1 0 1 true = 0 ∧ lineT 1 2 0 1 0 1 true = 0
    ∧ ((1 : ℝ) + 1 * (0 - 0)) ^ 2 + (0 + 0 * (0 - 0)) ^ 2 = 1 ^ 2 ∧ ∀ τ : ℝ, ((1 : ℝ) + 1 * (τ - 0)) ^ 2 + (2 + 0 * (τ - 0)) ^ 2 ≠ 1 ^ 2 := by
  refine ⟨by norm_num [lineT], by norm_num [lineT], by norm_num, fun τ h => ?_⟩
  nlinarith [sq_nonneg (1 + τ)]

/-! ## C52 -/

/-- Besselian axes and back: for every axis direction `(I[0], I[1])` and every point (not at the origin, off the polar axis of either
system) the equatorial coordinates come back. -/
theorem c52_bessel_round_trip (z I : V3) (hJ : 0 ≤ z.x ∧ z.x < 2 * π) (hW : -(π / 2) < z.y ∧ z.y < π / 2) (hR : 0 < z.z)
    (hW' : |(rotX (-I.y) (dir (z.x - I.x) z.y)).z| < 1) : bse2cd (cd2bse z I) I = z := by
  obtain ⟨J, W, R⟩ := z
  simp only at hJ hW hR hW'
  unfold bse2cd cd2bse
  simp only []
  have hrot := c38_rotation ⟨J - I.x, W, R⟩ (-I.y) hW
  obtain ⟨q, hq⟩ : ∃ q, q = llrConv ⟨J - I.x, W, R⟩ (-I.y) := ⟨_, rfl⟩
  rw [← hq] at hrot ⊢
  have hz : sin q.y = (rotX (-I.y) (dir (J - I.x) W)).z := by rw [← hrot.1]; rfl
  have qx : 0 ≤ q.x ∧ q.x < 2 * π := by
    rw [hq]; obtain ⟨h1, h2, -⟩ := c36_mrad_real (atan2 (sin (J - I.x) * cos (-I.y) - tan W * sin (-I.y)) (cos (J - I.x)))
    exact ⟨h1, h2⟩
  have qy : -(π / 2) < q.y ∧ q.y < π / 2 := by
    have hb := abs_lt.1 hW'
    have e1 : -(π / 2) ≤ q.y := by rw [hq]; exact neg_pi_div_two_le_arcsin _
    have e2 : q.y ≤ π / 2 := by rw [hq]; exact arcsin_le_pi_div_two _
    constructor
    · refine lt_of_le_of_ne e1 fun h => ?_
      rw [← h, sin_neg, sin_pi_div_two] at hz
      linarith
    · refine lt_of_le_of_ne e2 fun h => ?_
      rw [h, sin_pi_div_two] at hz
      linarith
  have hqz : q.z = R := hrot.2
  rw [c37_llr_xyz_llr q qx qy (by rw [hqz]; exact hR)]
  have hrot2 := c38_rotation q I.y qy
  rw [hrot.1] at hrot2
  have hback : rotX I.y (rotX (-I.y) (dir (J - I.x) W)) = dir (J - I.x) W := by
    have h3 := sin_sq_add_cos_sq I.y
    simp only [rotX, dir, cos_neg, sin_neg, V3.mk.injEq, true_and]
    constructor
    · linear_combination (cos W * sin (J - I.x)) * h3
    · linear_combination (sin W) * h3
  rw [hback] at hrot2
  obtain ⟨w, hw⟩ : ∃ w, w = llrConv q I.y := ⟨_, rfl⟩
  have wx : 0 ≤ w.x ∧ w.x < 2 * π := by
    rw [hw]; obtain ⟨h1, h2, -⟩ := c36_mrad_real (atan2 (sin q.x * cos I.y - tan q.y * sin I.y) (cos q.x))
    exact ⟨h1, h2⟩
  have wy : -(π / 2) ≤ w.y ∧ w.y ≤ π / 2 := by
    rw [hw]; exact ⟨neg_pi_div_two_le_arcsin _, arcsin_le_pi_div_two _⟩
  rw [← hw] at hrot2 ⊢
  have hm : dir (mrad (J - I.x)) W = dir w.x w.y := by
    rw [hrot2.1]; simp only [dir, cos_mrad, sin_mrad]
  obtain ⟨m1, m2, k, hk⟩ := c36_mrad_real (J - I.x)
  obtain ⟨a, b⟩ := dir_inj ⟨m1, m2⟩ wx hW wy hm
  refine v3_ext ?_ b.symm (hrot2.2.trans hqz)
  simp only []
  rw [← a]
  exact c36_mrad_unique _ _ hJ (-k) (by rw [hk]; push_cast; ring)

example : bse2cd (cd2bse ⟨1, 0, 2⟩ ⟨0, -1, 0⟩) ⟨0, -1, 0⟩ = ⟨1, 0, 2⟩ := by
  refine c52_bessel_round_trip _ _ ⟨by norm_num, by simp; linarith [pi_gt_three]⟩ ⟨by simp; exact pi_pos, by simp; exact pi_pos⟩ (by norm_num) ?_
  simp only [rotX, dir, cos_zero, sin_zero, one_mul, mul_zero, add_zero, neg_neg, sub_zero]
  have h1 : sin (1 : ℝ) < 1 := by
    have := sin_lt_sin_of_lt_of_le_pi_div_two (x := 1) (y := π / 2) (by linarith [pi_pos]) le_rfl (by linarith [pi_gt_three])
    rwa [sin_pi_div_two] at this
  have h0 : 0 < sin (1 : ℝ) := sin_pos_of_pos_of_lt_pi one_pos (by linarith [pi_gt_three])
  rw [abs_of_pos (mul_pos h0 h0)]
  nlinarith

end Verif.Geom
