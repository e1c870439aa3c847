import Verif.Precession
import Verif.Props.Geom
import Verif.Props.Series
import Mathlib.Analysis.Real.Pi.Bounds

/-!
# C56 precession, C57 parallax, C58 nutation
-/

namespace Verif.Precession

open Real Verif.Geom

/-! ## Specification -/

/-- rotation about the z axis by the angle `a` -/
noncomputable def rotZ (a : ℝ) (v : V3) : V3 := ⟨cos a * v.x - sin a * v.y, sin a * v.x + cos a * v.y, v.z⟩

/-- rotation about the y axis by the angle `a` -/
noncomputable def rotY (a : ℝ) (v : V3) : V3 := ⟨cos a * v.x - sin a * v.z, v.y, sin a * v.x + cos a * v.z⟩

/-- the direction of a spherical position -/
noncomputable def dirOf (p : V3) : V3 := dir p.x p.y

/-- scalar product -/
def dot (a b : V3) : ℝ := a.x * b.x + a.y * b.y + a.z * b.z

/-- the built-in tables have twelve polynomials of four, six and six coefficients -/
def Shape (T : Tables) : Prop := T.p76.length = 48 ∧ T.p00.length = 72 ∧ T.p03.length = 72

/-! ## Lemmas -/

theorem dir_add (J a W : ℝ) : dir (J + a) W = rotZ a (dir J W) := by
  simp only [dir, rotZ, cos_add, sin_add, V3.mk.injEq, and_true]
  constructor <;> ring

theorem rotZ_inv (a : ℝ) (v : V3) : rotZ (-a) (rotZ a v) = v := by
  have h := sin_sq_add_cos_sq a
  refine v3_ext ?_ ?_ rfl <;> simp only [rotZ, cos_neg, sin_neg]
  · linear_combination v.x * h
  · linear_combination v.y * h

theorem rotX_inv (a : ℝ) (v : V3) : rotX (-a) (rotX a v) = v := by
  have h := sin_sq_add_cos_sq a
  refine v3_ext rfl ?_ ?_ <;> simp only [rotX, cos_neg, sin_neg]
  · linear_combination v.y * h
  · linear_combination v.z * h

theorem rotY_inv (a : ℝ) (v : V3) : rotY (-a) (rotY a v) = v := by
  have h := sin_sq_add_cos_sq a
  refine v3_ext ?_ rfl ?_ <;> simp only [rotY, cos_neg, sin_neg]
  · linear_combination v.x * h
  · linear_combination v.z * h

theorem dot_rotZ (a : ℝ) (u v : V3) : dot (rotZ a u) (rotZ a v) = dot u v := by
  have h := sin_sq_add_cos_sq a
  simp only [dot, rotZ]; linear_combination (u.x * v.x + u.y * v.y) * h

theorem dot_rotX (a : ℝ) (u v : V3) : dot (rotX a u) (rotX a v) = dot u v := by
  have h := sin_sq_add_cos_sq a
  simp only [dot, rotX]; linear_combination (u.y * v.y + u.z * v.z) * h

theorem dot_rotY (a : ℝ) (u v : V3) : dot (rotY a u) (rotY a v) = dot u v := by
  have h := sin_sq_add_cos_sq a
  simp only [dot, rotY]; linear_combination (u.x * v.x + u.z * v.z) * h

theorem pr_some (T : Tables) (hT : Shape T) (t : ℝ) (mx : String) : ∀ k < 12, ∃ v, pr T t (Series.quantities.getD k []) mx = some v := by
  intro k hk
  obtain ⟨h1, h2, h3⟩ := hT
  obtain ⟨a, b, -⟩ := Series.c51_prece T.p76 T.p00 T.p03 h1 h2 h3 t
  obtain ⟨a1, a2, a3⟩ := a k hk
  have hl := (Series.name_pos k hk).2
  unfold pr
  by_cases e1 : mx = "IAU1976"
  · subst e1; exact ⟨_, a1⟩
  by_cases e2 : mx = "IAU2000"
  · subst e2; exact ⟨_, a2⟩
  by_cases e3 : mx = "P03"
  · subst e3; exact ⟨_, a3⟩
  exact ⟨_, b _ mx e1 e2 e3 hl⟩

/-- the body of the equatorial conversion is a rotation about z, then y, then z, at every position -/
theorem cdBody_dir (Z z th W R : ℝ) : dirOf (cdBody Z z th W R) = rotZ z (rotY th (dir Z W)) ∧ (cdBody Z z th W R).z = R := by
  refine ⟨?_, rfl⟩
  have h1 := sin_sq_add_cos_sq W
  have h2 := sin_sq_add_cos_sq Z
  have h3 := sin_sq_add_cos_sq th
  obtain ⟨A, hA⟩ : ∃ A, A = cos W * sin Z := ⟨_, rfl⟩
  obtain ⟨B, hB⟩ : ∃ B, B = cos th * cos W * cos Z - sin th * sin W := ⟨_, rfl⟩
  obtain ⟨C, hC⟩ : ∃ C, C = sin th * cos W * cos Z + cos th * sin W := ⟨_, rfl⟩
  have hsum : B ^ 2 + A ^ 2 + C ^ 2 = 1 := by
    rw [hA, hB, hC]
    linear_combination (cos W ^ 2 * cos Z ^ 2 + sin W ^ 2) * h3 + cos W ^ 2 * h2 + h1
  have hz1 : -1 ≤ C := by nlinarith [sq_nonneg A, sq_nonneg B]
  have hz2 : C ≤ 1 := by nlinarith [sq_nonneg A, sq_nonneg B]
  have hq : √(1 - C ^ 2) = √(B * B + A * A) := by congr 1; linarith
  have hd : dirOf (cdBody Z z th W R) = dir (atan2 A B + z) (arcsin C) := by
    simp only [dirOf, cdBody, dir, cos_mrad, sin_mrad, hA, hB, hC]
  rw [hd, dir_add]
  congr 1
  simp only [dir, rotY, cos_arcsin, hq, atan2_cos, atan2_sin, sin_arcsin hz1 hz2, V3.mk.injEq]
  refine ⟨?_, ?_, ?_⟩
  · rw [hB]; ring
  · rw [hA]
  · rw [hC]; ring

theorem cdBody_range (Z z th W R : ℝ) : (0 ≤ (cdBody Z z th W R).x ∧ (cdBody Z z th W R).x < 2 * π) ∧ -(π / 2) ≤ (cdBody Z z th W R).y ∧ (cdBody Z z th W R).y ≤ π / 2 := by
  obtain ⟨a, b, -⟩ := c36_mrad_real (atan2 (cos W * sin Z) (cos th * cos W * cos Z - sin th * sin W) + z)
  exact ⟨⟨a, b⟩, neg_pi_div_two_le_arcsin _, arcsin_le_pi_div_two _⟩

theorem rotZ_rotZ_neg (a : ℝ) (v : V3) : rotZ a (rotZ (-a) v) = v := by
  have := rotZ_inv (-a) v; rwa [neg_neg] at this

/-! ## C56 -/

/-- **C56 (equatorial).**  For every time, model, distance and every direction other than the two poles, `CDllr_J2D` and `CDllr_D2J` are total, keep the distance, and undo each other. -/
theorem c56_equatorial (T : Tables) (hT : Shape T) (t : ℝ) (mx : String) (p : V3) (hJ : 0 ≤ p.x ∧ p.x < 2 * π) (hW : -(π / 2) < p.y ∧ p.y < π / 2) :
    (∃ q, cdJ2D T t p mx = some q ∧ q.z = p.z ∧ cdD2J T t q mx = some p) ∧ (∃ q, cdD2J T t p mx = some q ∧ q.z = p.z ∧ cdJ2D T t q mx = some p) := by
  obtain ⟨Z, hZ⟩ := pr_some T hT t mx 10 (by omega)
  obtain ⟨z, hz⟩ := pr_some T hT t mx 11 (by omega)
  obtain ⟨th, hth⟩ := pr_some T hT t mx 9 (by omega)
  change pr T t ['Z'] mx = _ at hZ
  change pr T t ['z'] mx = _ at hz
  change pr T t ['t', 'h'] mx = _ at hth
  have back : ∀ (a b c : ℝ), cdBody (-b + (cdBody (a + p.x) b c p.y p.z).x) (-a) (-c) (cdBody (a + p.x) b c p.y p.z).y (cdBody (a + p.x) b c p.y p.z).z = p := by
    intro a b c
    obtain ⟨q, hq⟩ : ∃ q, q = cdBody (a + p.x) b c p.y p.z := ⟨_, rfl⟩
    obtain ⟨d1, r1⟩ := cdBody_dir (a + p.x) b c p.y p.z
    rw [← hq] at d1 r1 ⊢
    obtain ⟨d2, r2⟩ := cdBody_dir (-b + q.x) (-a) (-c) q.y q.z
    have e : dir (-b + q.x) q.y = rotY c (dir (a + p.x) p.y) := by
      rw [add_comm, dir_add, show dir q.x q.y = dirOf q from rfl, d1, rotZ_inv]
    rw [e, rotY_inv, add_comm a, dir_add, rotZ_inv] at d2
    obtain ⟨g1, g2⟩ := cdBody_range (-b + q.x) (-a) (-c) q.y q.z
    obtain ⟨i, j⟩ := dir_inj hJ g1 hW g2 d2.symm
    exact v3_ext i.symm j.symm (r2.trans r1)
  constructor
  · refine ⟨cdBody (Z + p.x) z th p.y p.z, ?_, rfl, ?_⟩
    · unfold cdJ2D; simp only [hZ, hz, hth, Option.bind_eq_bind, Option.bind_some]; rfl
    · unfold cdD2J; simp only [hZ, hz, hth, Option.bind_eq_bind, Option.bind_some]
      exact congrArg some (back Z z th)
  · refine ⟨cdBody (-z + p.x) (-Z) (-th) p.y p.z, ?_, rfl, ?_⟩
    · unfold cdD2J; simp only [hZ, hz, hth, Option.bind_eq_bind, Option.bind_some]; rfl
    · unfold cdJ2D; simp only [hZ, hz, hth, Option.bind_eq_bind, Option.bind_some]
      have := back (-z) (-Z) (-th)
      simp only [neg_neg] at this
      exact congrArg some this

/-- **C56 (equatorial, rigidity).**  Both conversions are rigid: the angle between any two directions, poles included, is unchanged. -/
theorem c56_equatorial_rigid (T : Tables) (hT : Shape T) (t : ℝ) (mx : String) (p p' : V3) :
    ∃ q q' r r', cdJ2D T t p mx = some q ∧ cdJ2D T t p' mx = some q' ∧ dot (dirOf q) (dirOf q') = dot (dirOf p) (dirOf p') ∧
      cdD2J T t p mx = some r ∧ cdD2J T t p' mx = some r' ∧ dot (dirOf r) (dirOf r') = dot (dirOf p) (dirOf p') := by
  obtain ⟨Z, hZ⟩ := pr_some T hT t mx 10 (by omega)
  obtain ⟨z, hz⟩ := pr_some T hT t mx 11 (by omega)
  obtain ⟨th, hth⟩ := pr_some T hT t mx 9 (by omega)
  change pr T t ['Z'] mx = _ at hZ
  change pr T t ['z'] mx = _ at hz
  change pr T t ['t', 'h'] mx = _ at hth
  refine ⟨cdBody (Z + p.x) z th p.y p.z, cdBody (Z + p'.x) z th p'.y p'.z, cdBody (-z + p.x) (-Z) (-th) p.y p.z, cdBody (-z + p'.x) (-Z) (-th) p'.y p'.z, ?_, ?_, ?_, ?_, ?_, ?_⟩
  · unfold cdJ2D; simp only [hZ, hz, hth, Option.bind_eq_bind, Option.bind_some]; rfl
  · unfold cdJ2D; simp only [hZ, hz, hth, Option.bind_eq_bind, Option.bind_some]; rfl
  · rw [(cdBody_dir _ _ _ _ _).1, (cdBody_dir _ _ _ _ _).1, dot_rotZ, dot_rotY, add_comm Z, add_comm Z, dir_add, dir_add, dot_rotZ]; rfl
  · unfold cdD2J; simp only [hZ, hz, hth, Option.bind_eq_bind, Option.bind_some]; rfl
  · unfold cdD2J; simp only [hZ, hz, hth, Option.bind_eq_bind, Option.bind_some]; rfl
  · rw [(cdBody_dir _ _ _ _ _).1, (cdBody_dir _ _ _ _ _).1, dot_rotZ, dot_rotY, add_comm (-z), add_comm (-z), dir_add, dir_add, dot_rotZ]; rfl

/-- a rotated direction short of the poles has a latitude short of the poles -/
theorem conv_range (p : V3) (E : ℝ) (hW : -(π / 2) < p.y ∧ p.y < π / 2) (h : |(rotX E (dir p.x p.y)).z| < 1) :
    -(π / 2) < (llrConv p E).y ∧ (llrConv p E).y < π / 2 := by
  obtain ⟨hd, -⟩ := c38_rotation p E hW
  have hz : sin (llrConv p E).y = (rotX E (dir p.x p.y)).z := by rw [← hd]; rfl
  have hb := abs_lt.1 h
  have e1 : -(π / 2) ≤ (llrConv p E).y := neg_pi_div_two_le_arcsin _
  have e2 : (llrConv p E).y ≤ π / 2 := arcsin_le_pi_div_two _
  constructor
  · refine lt_of_le_of_ne e1 fun h => ?_
    rw [← h, sin_neg, sin_pi_div_two] at hz
    linarith
  · refine lt_of_le_of_ne e2 fun h => ?_
    rw [h, sin_pi_div_two] at hz
    linarith

theorem conv_lon (p : V3) (E : ℝ) : 0 ≤ (llrConv p E).x ∧ (llrConv p E).x < 2 * π := by
  obtain ⟨a, b, -⟩ := c36_mrad_real (atan2 (sin p.x * cos E - tan p.y * sin E) (cos p.x))
  exact ⟨a, b⟩

theorem conv_lat (p : V3) (E : ℝ) : -(π / 2) ≤ (llrConv p E).y ∧ (llrConv p E).y ≤ π / 2 := ⟨neg_pi_div_two_le_arcsin _, arcsin_le_pi_div_two _⟩

/-- the four steps `rotate the longitude by a, rotX by b, rotate the longitude by c, rotX by d`, short of the poles -/
theorem four_steps (p : V3) (a b c d : ℝ) (hW : -(π / 2) < p.y ∧ p.y < π / 2) (h1 : |(rotX b (rotZ a (dirOf p))).z| < 1) :
    let r := llrConv ⟨p.x + a, p.y, p.z⟩ b
    let q := llrConv ⟨r.x + c, r.y, r.z⟩ d
    dirOf q = rotX d (rotZ c (rotX b (rotZ a (dirOf p)))) ∧ q.z = p.z := by
  intro r q
  have h1' : |(rotX b (dir (p.x + a) p.y)).z| < 1 := by rw [dir_add]; exact h1
  have hr := conv_range ⟨p.x + a, p.y, p.z⟩ b hW h1'
  obtain ⟨d1, z1⟩ := c38_rotation ⟨p.x + a, p.y, p.z⟩ b hW
  obtain ⟨d2, z2⟩ := c38_rotation ⟨r.x + c, r.y, r.z⟩ d hr
  refine ⟨?_, z2.trans z1⟩
  show dir q.x q.y = _
  rw [show dir q.x q.y = _ from d2]
  simp only
  rw [dir_add, show dir r.x r.y = _ from d1, dir_add]
  rfl

/-- **C56 (ecliptic).**  For every time, model and direction such that neither it, nor the intermediate direction on the equator, nor the result is a pole, `HDllr_J2D` followed by `HDllr_D2J`
gives the position back, and so does `HDllr_D2J` followed by `HDllr_J2D`; each is the rigid rotation through the four precession angles. -/
theorem c56_ecliptic (T : Tables) (hT : Shape T) (t : ℝ) (mx : String) :
    ∃ fi w x E, pr T t ['f', 'i'] mx = some fi ∧ pr T t ['w'] mx = some w ∧ pr T t ['x'] mx = some x ∧ pr T t ['E'] mx = some E ∧
    (∀ p : V3, (0 ≤ p.x ∧ p.x < 2 * π) → (-(π / 2) < p.y ∧ p.y < π / 2) → |(rotX w (rotZ fi (dirOf p))).z| < 1 → |(rotX (-E) (rotZ (-x) (rotX w (rotZ fi (dirOf p))))).z| < 1 →
      ∃ q, hdJ2D T t p mx = some q ∧ q.z = p.z ∧ dirOf q = rotX (-E) (rotZ (-x) (rotX w (rotZ fi (dirOf p)))) ∧ hdD2J T t q mx = some p) ∧
    (∀ p : V3, (0 ≤ p.x ∧ p.x < 2 * π) → (-(π / 2) < p.y ∧ p.y < π / 2) → |(rotX E (dirOf p)).z| < 1 → |(rotX (-w) (rotZ x (rotX E (dirOf p)))).z| < 1 →
      ∃ q, hdD2J T t p mx = some q ∧ q.z = p.z ∧ dirOf q = rotZ (-fi) (rotX (-w) (rotZ x (rotX E (dirOf p)))) ∧ hdJ2D T t q mx = some p) := by
  obtain ⟨fi, h1⟩ := pr_some T hT t mx 0 (by omega)
  obtain ⟨w, h2⟩ := pr_some T hT t mx 1 (by omega)
  obtain ⟨x, h3⟩ := pr_some T hT t mx 5 (by omega)
  obtain ⟨E, h4⟩ := pr_some T hT t mx 4 (by omega)
  change pr T t ['f', 'i'] mx = _ at h1
  change pr T t ['w'] mx = _ at h2
  change pr T t ['x'] mx = _ at h3
  change pr T t ['E'] mx = _ at h4
  have J2D : ∀ p, hdJ2D T t p mx = some (llrConv ⟨(llrConv ⟨p.x + fi, p.y, p.z⟩ w).x - x, (llrConv ⟨p.x + fi, p.y, p.z⟩ w).y, (llrConv ⟨p.x + fi, p.y, p.z⟩ w).z⟩ (-E)) := by
    intro p; unfold hdJ2D; simp only [h1, h2, h3, h4, Option.bind_eq_bind, Option.bind_some]; rfl
  have D2J : ∀ p, hdD2J T t p mx = some ⟨mrad ((llrConv ⟨(llrConv p E).x + x, (llrConv p E).y, (llrConv p E).z⟩ (-w)).x - fi), (llrConv ⟨(llrConv p E).x + x, (llrConv p E).y, (llrConv p E).z⟩ (-w)).y,
      (llrConv ⟨(llrConv p E).x + x, (llrConv p E).y, (llrConv p E).z⟩ (-w)).z⟩ := by
    intro p; unfold hdD2J; simp only [h1, h2, h3, h4, Option.bind_eq_bind, Option.bind_some]; rfl
  have z0 : ∀ p : V3, (⟨p.x + 0, p.y, p.z⟩ : V3) = p := fun p => by simp
  have rz0 : ∀ v, rotZ 0 v = v := fun v => by simp [rotZ]
  have mdir : ∀ a W, dir (mrad a) W = dir a W := fun a W => by simp [dir, cos_mrad, sin_mrad]
  refine ⟨fi, w, x, E, h1, h2, h3, h4, fun p hJ hW a1 a2 => ?_, fun p hJ hW a1 a2 => ?_⟩
  · obtain ⟨s1, s2⟩ := four_steps p fi w (-x) (-E) hW a1
    simp only [← sub_eq_add_neg] at s1 s2
    obtain ⟨q, hq⟩ : ∃ q, q = llrConv ⟨(llrConv ⟨p.x + fi, p.y, p.z⟩ w).x - x, (llrConv ⟨p.x + fi, p.y, p.z⟩ w).y, (llrConv ⟨p.x + fi, p.y, p.z⟩ w).z⟩ (-E) := ⟨_, rfl⟩
    rw [← hq] at s1 s2
    refine ⟨q, by rw [J2D, hq], s2, s1, ?_⟩
    have hqW : -(π / 2) < q.y ∧ q.y < π / 2 := by
      have hz : sin q.y = (rotX (-E) (rotZ (-x) (rotX w (rotZ fi (dirOf p))))).z := by rw [← s1]; rfl
      have hl : -(π / 2) ≤ q.y ∧ q.y ≤ π / 2 := by rw [hq]; exact conv_lat _ _
      have hb := abs_lt.1 a2
      constructor
      · refine lt_of_le_of_ne hl.1 fun h => ?_
        rw [← h, sin_neg, sin_pi_div_two] at hz; linarith
      · refine lt_of_le_of_ne hl.2 fun h => ?_
        rw [h, sin_pi_div_two] at hz; linarith
    have back1 : rotX E (dirOf q) = rotZ (-x) (rotX w (rotZ fi (dirOf p))) := by
      rw [s1]; have := rotX_inv (-E) (rotZ (-x) (rotX w (rotZ fi (dirOf p)))); rwa [neg_neg] at this
    obtain ⟨u1, u2⟩ := four_steps q 0 E x (-w) hqW (by rw [rz0, back1]; exact a1)
    rw [z0] at u1 u2
    rw [rz0, back1, rotZ_rotZ_neg, rotX_inv] at u1
    rw [D2J]
    congr 1
    obtain ⟨r, hr⟩ : ∃ r, r = llrConv ⟨(llrConv q E).x + x, (llrConv q E).y, (llrConv q E).z⟩ (-w) := ⟨_, rfl⟩
    rw [← hr] at u1 u2 ⊢
    have hd : dir (mrad (r.x - fi)) r.y = dir p.x p.y := by
      rw [mdir, sub_eq_add_neg, dir_add, show dir r.x r.y = _ from u1, rotZ_inv]; rfl
    have hl : -(π / 2) ≤ r.y ∧ r.y ≤ π / 2 := by rw [hr]; exact conv_lat _ _
    obtain ⟨m1, m2, -⟩ := c36_mrad_real (r.x - fi)
    obtain ⟨i, j⟩ := dir_inj hJ ⟨m1, m2⟩ hW hl hd.symm
    exact v3_ext i.symm j.symm (u2.trans s2)
  · obtain ⟨u1, u2⟩ := four_steps p 0 E x (-w) hW (by rw [rz0]; exact a1)
    rw [z0] at u1 u2
    rw [rz0] at u1
    obtain ⟨r, hr⟩ : ∃ r, r = llrConv ⟨(llrConv p E).x + x, (llrConv p E).y, (llrConv p E).z⟩ (-w) := ⟨_, rfl⟩
    rw [← hr] at u1 u2
    have hrW : -(π / 2) < r.y ∧ r.y < π / 2 := by
      have hz : sin r.y = (rotX (-w) (rotZ x (rotX E (dirOf p)))).z := by rw [← u1]; rfl
      have hl : -(π / 2) ≤ r.y ∧ r.y ≤ π / 2 := by rw [hr]; exact conv_lat _ _
      have hb := abs_lt.1 a2
      constructor
      · refine lt_of_le_of_ne hl.1 fun h => ?_
        rw [← h, sin_neg, sin_pi_div_two] at hz; linarith
      · refine lt_of_le_of_ne hl.2 fun h => ?_
        rw [h, sin_pi_div_two] at hz; linarith
    have hqd : dirOf ⟨mrad (r.x - fi), r.y, r.z⟩ = rotZ (-fi) (rotX (-w) (rotZ x (rotX E (dirOf p)))) := by
      show dir (mrad (r.x - fi)) r.y = _
      rw [mdir, sub_eq_add_neg, dir_add, show dir r.x r.y = _ from u1]
    refine ⟨⟨mrad (r.x - fi), r.y, r.z⟩, by rw [D2J, hr], u2, hqd, ?_⟩
    have back1 : rotX w (rotZ fi (dirOf ⟨mrad (r.x - fi), r.y, r.z⟩)) = rotZ x (rotX E (dirOf p)) := by
      rw [hqd, rotZ_rotZ_neg]; have := rotX_inv (-w) (rotZ x (rotX E (dirOf p))); rwa [neg_neg] at this
    obtain ⟨s1, s2⟩ := four_steps ⟨mrad (r.x - fi), r.y, r.z⟩ fi w (-x) (-E) hrW (by rw [back1]; exact a1)
    simp only [← sub_eq_add_neg] at s1 s2
    rw [back1, rotZ_inv, rotX_inv] at s1
    rw [J2D]
    congr 1
    obtain ⟨i, j⟩ := dir_inj hJ (conv_lon _ _) hW (conv_lat _ _) s1.symm
    exact v3_ext i.symm j.symm (s2.trans u2)

/-! ## C57 -/

/-- the geocentric position of a site of geodetic latitude `fa` and height `high` over the ellipsoid, at right ascension `g` of its meridian -/
noncomputable def site (g fa high : ℝ) : V3 :=
  let u := arctan (ba * tan fa)
  ⟨(rEar * cos u + high * cos fa) * cos g, (rEar * cos u + high * cos fa) * sin g, rEar * ba * sin u + high * sin fa⟩

/-- the unit of the distance: the library takes distances under 500 as astronomical units -/
noncomputable def unit (d : ℝ) : ℝ := if d < 500 then AU else 1

/-- **C57 (parallax).**  The corrected position is the position seen from the site: in cartesian kilometres it is the geocentric position minus the site, whenever the body is not at the site; the
longitude is normalised and the distance comes back in the unit it was given. -/
theorem c57_parallax (z : V3) (H fa high : ℝ) :
    let k := unit z.z
    let s := site (z.x + H) fa high
    let b := llr2xyz ⟨z.x, z.y, z.z * k⟩
    let q := parallax z H fa high
    (b ≠ s → llr2xyz ⟨q.x, q.y, q.z * k⟩ = ⟨b.x - s.x, b.y - s.y, b.z - s.z⟩) ∧ 0 ≤ q.x ∧ q.x < 2 * π ∧ -(π / 2) ≤ q.y ∧ q.y ≤ π / 2 ∧ 0 ≤ q.z := by
  intro k s b q
  have hk : 0 < k := by show 0 < unit z.z; unfold unit AU; split_ifs <;> norm_num
  have hq : q = ⟨(xyz2llr ⟨b.x - s.x, b.y - s.y, b.z - s.z⟩).x, (xyz2llr ⟨b.x - s.x, b.y - s.y, b.z - s.z⟩).y, (xyz2llr ⟨b.x - s.x, b.y - s.y, b.z - s.z⟩).z / k⟩ := by
    show parallax z H fa high = _
    unfold parallax
    have e : rEar * sin (arctan (ba * tan fa)) * ba + high * sin fa = s.z := by show _ = rEar * ba * sin (arctan (ba * tan fa)) + high * sin fa; ring
    simp only [e]
    rfl
  obtain ⟨r1, r2, r3, r4, r5⟩ := c37_range ⟨b.x - s.x, b.y - s.y, b.z - s.z⟩
  refine ⟨fun hne => ?_, ?_, ?_, ?_, ?_, ?_⟩
  · rw [hq]
    simp only
    rw [div_mul_cancel₀ _ hk.ne']
    refine c37_xyz_llr_xyz _ ?_
    simp only
    by_contra hc
    push Not at hc
    exact hne (v3_ext (sub_eq_zero.1 hc.1) (sub_eq_zero.1 hc.2.1) (sub_eq_zero.1 hc.2.2))
  all_goals rw [hq]
  · exact r1
  · exact r2
  · exact r3
  · exact r4
  · exact div_nonneg r5 hk.le

/-- **C57 (site).**  The site lies on the Earth's ellipsoid (equatorial radius `rEar`, axis ratio `ba`) when its height is 0; the vertical there is inclined by the geodetic latitude to the equator;
and height is measured along that vertical. -/
theorem c57_site (g fa high : ℝ) (hfa : -(π / 2) < fa ∧ fa < π / 2) :
    let s := site g fa 0
    (s.x ^ 2 + s.y ^ 2) / rEar ^ 2 + s.z ^ 2 / (rEar * ba) ^ 2 = 1 ∧
    (∃ m : ℝ, 0 < m ∧ s.x / rEar ^ 2 = m * (cos fa * cos g) ∧ s.y / rEar ^ 2 = m * (cos fa * sin g) ∧ s.z / (rEar * ba) ^ 2 = m * sin fa) ∧
    site g fa high = ⟨s.x + high * (cos fa * cos g), s.y + high * (cos fa * sin g), s.z + high * sin fa⟩ := by
  intro s
  have hr : 0 < rEar := by unfold rEar; norm_num
  have hb : 0 < ba := by unfold ba; norm_num
  have hc : 0 < cos fa := cos_pos_of_mem_Ioo ⟨hfa.1, hfa.2⟩
  obtain ⟨u, hu⟩ : ∃ u, u = arctan (ba * tan fa) := ⟨_, rfl⟩
  have hcu : 0 < cos u := by rw [hu]; exact cos_arctan_pos _
  have htan : sin u = ba * tan fa * cos u := by
    have : tan u = ba * tan fa := by rw [hu, tan_arctan]
    rw [← this, tan_mul_cos hcu.ne']
  have hsx : s.x = rEar * cos u * cos g := by show (rEar * cos (arctan (ba * tan fa)) + 0 * cos fa) * cos g = _; rw [← hu]; ring
  have hsy : s.y = rEar * cos u * sin g := by show (rEar * cos (arctan (ba * tan fa)) + 0 * cos fa) * sin g = _; rw [← hu]; ring
  have hsz : s.z = rEar * ba * sin u := by show rEar * ba * sin (arctan (ba * tan fa)) + 0 * sin fa = _; rw [← hu]; ring
  refine ⟨?_, ⟨cos u / (rEar * cos fa), by positivity, ?_, ?_, ?_⟩, ?_⟩
  · rw [hsx, hsy, hsz]
    have h1 := sin_sq_add_cos_sq g
    have h2 := sin_sq_add_cos_sq u
    field_simp
    linear_combination cos u ^ 2 * h1 + h2
  · rw [hsx]; field_simp
  · rw [hsy]; field_simp
  · rw [hsz, htan, tan_eq_sin_div_cos]; field_simp
  · refine v3_ext ?_ ?_ ?_
    · show (rEar * cos (arctan (ba * tan fa)) + high * cos fa) * cos g = s.x + high * (cos fa * cos g)
      rw [hsx, ← hu]; ring
    · show (rEar * cos (arctan (ba * tan fa)) + high * cos fa) * sin g = s.y + high * (cos fa * sin g)
      rw [hsy, ← hu]; ring
    · show rEar * ba * sin (arctan (ba * tan fa)) + high * sin fa = s.z + high * sin fa
      rw [hsz, ← hu]

/-! ## C58 -/

/-- the phase of row `r` (rows of eleven numbers) of the nutation table in radians: the integer combination of the five arguments -/
noncomputable def phase (N : List ℝ) (t : ℝ) (r : ℕ) : ℝ :=
  (N.getD (11 * r) 0 * (delaunay t).1 + N.getD (11 * r + 1) 0 * (delaunay t).2.1 + N.getD (11 * r + 2) 0 * (delaunay t).2.2.1 + N.getD (11 * r + 3) 0 * (delaunay t).2.2.2.1
    + N.getD (11 * r + 4) 0 * (delaunay t).2.2.2.2) / Series.radSec

/-- the term of row `r` in longitude and in obliquity, in units of 10⁻⁷ arc seconds -/
noncomputable def termL (N : List ℝ) (t : ℝ) (r : ℕ) : ℝ := (N.getD (11 * r + 5) 0 + N.getD (11 * r + 6) 0 * t) * sin (phase N t r) + N.getD (11 * r + 7) 0 * cos (phase N t r)
noncomputable def termE (N : List ℝ) (t : ℝ) (r : ℕ) : ℝ := (N.getD (11 * r + 8) 0 + N.getD (11 * r + 9) 0 * t) * cos (phase N t r) + N.getD (11 * r + 10) 0 * sin (phase N t r)

/-- row `r` is left out -/
def dropped (N : List ℝ) (zq : ℤ) (r : ℕ) : Prop := skipped (N.getD (11 * r) 0) (N.getD (11 * r + 1) 0) (N.getD (11 * r + 2) 0) (N.getD (11 * r + 3) 0) (N.getD (11 * r + 4) 0) zq

theorem get_some (N : List ℝ) {i : ℕ} (h : i < N.length) : N[i]? = some (N.getD i 0) := by
  rw [List.getD_eq_getElem?_getD, List.getElem?_eq_getElem h]; rfl

open Classical in
theorem nutLoop_spec (N : List ℝ) (t : ℝ) (zq : ℤ) : ∀ (k r : ℕ) (dL dE : ℝ), 11 * (r + k) ≤ N.length →
    nutLoop N t zq k (11 * r) dL dE = some (dL + ∑ i ∈ Finset.range k, (if dropped N zq (r + i) then 0 else termL N t (r + i)), dE + ∑ i ∈ Finset.range k, (if dropped N zq (r + i) then 0 else termE N t (r + i))) := by
  intro k
  induction k with
  | zero => intro r dL dE _; simp [nutLoop]
  | succ k ih =>
    intro r dL dE h
    have g : ∀ j < 11, N[11 * r + j]? = some (N.getD (11 * r + j) 0) := fun j hj => get_some N (by omega)
    have g0 : N[11 * r]? = some (N.getD (11 * r) 0) := get_some N (by omega)
    unfold nutLoop
    simp only [g0, g 1 (by omega), g 2 (by omega), g 3 (by omega), g 4 (by omega), g 5 (by omega), g 6 (by omega), g 7 (by omega), g 8 (by omega), g 9 (by omega), g 10 (by omega),
      Option.bind_eq_bind, Option.bind_some]
    rw [show 11 * r + 11 = 11 * (r + 1) by ring, ih (r + 1) _ _ (by omega), ih (r + 1) _ _ (by omega), Finset.sum_range_succ', Finset.sum_range_succ']
    simp only [add_zero, show ∀ i, r + 1 + i = r + (i + 1) from fun i => by ring]
    by_cases hd : dropped N zq r
    · rw [if_pos (show skipped _ _ _ _ _ _ from hd), if_pos hd, if_pos hd, add_zero, add_zero]
    · rw [if_neg (show ¬ skipped _ _ _ _ _ _ from hd), if_neg hd, if_neg hd]
      congr 2
      · show dL + termL N t r + _ = _; ring
      · show dE + termE N t r + _ = _; ring

open Classical in
/-- **C58 (nutation).**  With a table of 77 rows of eleven numbers `nutation(t, zq)` reads inside the table and returns the sum of the terms that are not left out; `zq = 0` leaves out none. -/
theorem c58_nutation (N : List ℝ) (hN : N.length = 847) (t : ℝ) (zq : ℤ) :
    nutation N t zq = some ((∑ r ∈ Finset.range 77, if dropped N zq r then 0 else termL N t r) / (10 ^ 7 * Series.radSec),
      (∑ r ∈ Finset.range 77, if dropped N zq r then 0 else termE N t r) / (10 ^ 7 * Series.radSec)) ∧ ∀ r, ¬ dropped N 0 r := by
  refine ⟨?_, fun r h => h.1 rfl⟩
  have := nutLoop_spec N t zq 77 0 0 0 (by omega)
  rw [mul_zero] at this
  unfold nutation
  simp only [this, zero_add, Option.bind_eq_bind, Option.bind_some]
  rw [show (10000000 : ℝ) = 10 ^ 7 by norm_num]
  rfl

/-- the period in days of a combination of the five arguments: 36525 days times a full turn over the absolute rate per century (the rates are the linear coefficients of `delaunay`) -/
noncomputable def period (a b c d e : ℝ) : ℝ := 36525 * 1296000 / |1717915923.2178 * a + 129596581.0481 * b + 1739527262.8478 * c + 1602961601.2090 * d - 6962890.5431 * e|

/-- the rates are those of the arguments: over a century from the epoch a combination moves by its rate, up to 15 arc seconds per unit of coefficient -/
theorem rates (t : ℝ) (ht : 0 ≤ t ∧ t ≤ 1) : |(delaunay t).1 - (delaunay 0).1 - 1717915923.2178 * t| ≤ 32 ∧ |(delaunay t).2.2.1 - (delaunay 0).2.2.1 - 1739527262.8478 * t| ≤ 32
    ∧ |(delaunay t).2.2.2.1 - (delaunay 0).2.2.2.1 - 1602961601.2090 * t| ≤ 32 ∧ |(delaunay t).2.2.2.2 - (delaunay 0).2.2.2.2 + 6962890.5431 * t| ≤ 32
    ∧ |(delaunay t).2.1 - (delaunay 0).2.1 - 129596581.0481 * t| ≤ 32 := by
  obtain ⟨h0, h1⟩ := ht
  have h2 : t * t ≤ 1 := by nlinarith
  have h2' : 0 ≤ t * t := by positivity
  have h3 : t * t * t ≤ 1 := by nlinarith
  have h3' : 0 ≤ t * t * t := by positivity
  have h4 : t * t * t * t ≤ 1 := by nlinarith
  have h4' : 0 ≤ t * t * t * t := by positivity
  simp only [delaunay]
  refine ⟨?_, ?_, ?_, ?_, ?_⟩ <;> rw [abs_le] <;> constructor <;> nlinarith

/-- **C58 (the period filter is wrong).**  `nutation(t, zq)` is documented to keep the terms with periods above `zq` days.  With `zq = 170` it leaves out the second largest term (2F−2D+2Ω), whose
period is over 182 days, because the test adds the motion of the node instead of subtracting it; and it leaves out every term whose combination runs backwards, however slow, for example −2l+2D
with its period of over 205 days. -/
theorem c58_filter_defect : (skipped 0 0 2 (-2) 2 170 ∧ 182 < period 0 0 2 (-2) 2) ∧ (skipped (-2) 0 0 2 0 1 ∧ 205 < period (-2) 0 0 2 0) ∧
    (∀ a b c d e : ℝ, ∀ zq : ℤ, 0 < zq → 1717915923.2178 * a + 129596581.0481 * b + 1739527262.8478 * c + 1602961601.2090 * d + 6962890.5431 * e < 0 → skipped a b c d e zq) := by
  have hpi := pi_pos
  have hrad : 36526 * 2 * π * Series.radSec = 36526 * 1296000 := by unfold Series.radSec; field_simp; norm_num
  refine ⟨⟨⟨by norm_num, ?_⟩, ?_⟩, ⟨⟨by norm_num, ?_⟩, ?_⟩, fun a b c d e zq hz h => ⟨by omega, ?_⟩⟩
  · rw [hrad]; norm_num
  · unfold period; norm_num [abs_of_pos]
  · rw [hrad]; norm_num
  · unfold period; norm_num [abs_of_neg]
  · rw [hrad]
    have h1 : (36526 : ℝ) * 1296000 / (1717915923.2178 * a + 129596581.0481 * b + 1739527262.8478 * c + 1602961601.2090 * d + 6962890.5431 * e) < 0 := div_neg_of_pos_of_neg (by norm_num) h
    have h2 : (0 : ℝ) < zq := by exact_mod_cast hz
    linarith

/-- the term of row `r` (rows of five numbers) of the short table -/
noncomputable def shortPhase (B : List ℝ) (t : ℝ) (r : ℕ) : ℝ := B.getD (5 * r) 0 + B.getD (5 * r + 1) 0 * t + B.getD (5 * r + 2) 0 * t ^ 2

theorem nut2Loop_spec (B : List ℝ) (t : ℝ) : ∀ (k r fuel : ℕ) (dL dE : ℝ), 5 * (r + k) = B.length → k < fuel →
    nut2Loop B t fuel (5 * r) dL dE = some (dL + ∑ i ∈ Finset.range k, (B.getD (5 * (r + i) + 3) 0 + if r + i = 0 then -1.742 * t else 0) * sin (shortPhase B t (r + i)),
      dE + ∑ i ∈ Finset.range k, B.getD (5 * (r + i) + 4) 0 * cos (shortPhase B t (r + i))) := by
  intro k
  induction k with
  | zero =>
    intro r fuel dL dE h hf
    obtain ⟨f, rfl⟩ : ∃ f, fuel = f + 1 := ⟨fuel - 1, by omega⟩
    unfold nut2Loop
    rw [if_neg (by omega)]; simp
  | succ k ih =>
    intro r fuel dL dE h hf
    obtain ⟨f, rfl⟩ : ∃ f, fuel = f + 1 := ⟨fuel - 1, by omega⟩
    have g : ∀ j < 5, B[5 * r + j]? = some (B.getD (5 * r + j) 0) := fun j hj => get_some B (by omega)
    have g0 : B[5 * r]? = some (B.getD (5 * r) 0) := get_some B (by omega)
    unfold nut2Loop
    rw [if_pos (by omega)]
    simp only [g0, g 1 (by omega), g 2 (by omega), g 3 (by omega), g 4 (by omega), Option.bind_eq_bind, Option.bind_some]
    rw [show 5 * r + 5 = 5 * (r + 1) by ring, ih (r + 1) f _ _ (by omega) (by omega), Finset.sum_range_succ', Finset.sum_range_succ']
    simp only [add_zero, show ∀ i, r + 1 + i = r + (i + 1) from fun i => by ring]
    have hc : (5 * r = 0) = (r = 0) := by simp
    simp only [hc, shortPhase, ← sq]
    congr 2 <;> ring

/-- **C58 (short nutation).**  With a table of ten rows of five numbers `nutation2` reads inside the table and returns the sum of the ten terms; the first amplitude changes with time. -/
theorem c58_nutation2 (B : List ℝ) (hB : B.length = 50) (t : ℝ) :
    nutation2 B t = some ((∑ r ∈ Finset.range 10, (B.getD (5 * r + 3) 0 + if r = 0 then -1.742 * t else 0) * sin (shortPhase B t r)) / 100 / Series.radSec,
      (∑ r ∈ Finset.range 10, B.getD (5 * r + 4) 0 * cos (shortPhase B t r)) / 100 / Series.radSec) := by
  have := nut2Loop_spec B t 10 0 (B.length + 1) 0 0 (by omega) (by omega)
  rw [mul_zero] at this
  unfold nutation2
  simp only [this, zero_add, Option.bind_eq_bind, Option.bind_some]
  rfl

/-! ## The built-in tables -/

theorem builtin_shape : Shape builtin := ⟨by simp [builtin, p76], by simp [builtin, p00], by simp [builtin, p03]⟩

/-- the names of the models -/
def models : List String := ["IAU1976", "IAU2000", "P03"]

/-- the precession angles of the built-in models at the epoch: those of the ecliptic vanish up to the common obliquity, the two equatorial ones cancel -/
theorem epoch_angles (mx : String) (hm : mx ∈ models) : pr builtin 0 ['f', 'i'] mx = some 0 ∧ pr builtin 0 ['x'] mx = some 0 ∧ pr builtin 0 ['t', 'h'] mx = some 0 ∧
    (∃ e, pr builtin 0 ['w'] mx = some e ∧ pr builtin 0 ['E'] mx = some e ∧ 0 < e ∧ e < 1) ∧ (∃ z, pr builtin 0 ['Z'] mx = some z ∧ pr builtin 0 ['z'] mx = some (-z)) := by
  obtain ⟨h1, h2, h3⟩ := builtin_shape
  obtain ⟨a, -, -⟩ := Series.c51_prece builtin.p76 builtin.p00 builtin.p03 h1 h2 h3 0
  have hp := pi_pos
  have hp4 := pi_lt_d2
  have e1 : 0 < 84381.448 / Series.radSec ∧ 84381.448 / Series.radSec < 1 := by
    unfold Series.radSec
    constructor
    · positivity
    · rw [div_lt_one (by positivity), lt_div_iff₀ hp]; nlinarith
  have e2 : 0 < 84381.406 / Series.radSec ∧ 84381.406 / Series.radSec < 1 := by
    unfold Series.radSec
    constructor
    · positivity
    · rw [div_lt_one (by positivity), lt_div_iff₀ hp]; nlinarith
  have s0 : ∀ (p : List ℝ) (n k : ℕ), ∑ i ∈ Finset.range (n + 1), p.getD ((n + 1) * k + i) 0 * (0 : ℝ) ^ i = p.getD ((n + 1) * k) 0 := by
    intro p n k
    rw [Finset.sum_range_succ']
    simp
  have key : ∀ k < 12, pr builtin 0 (Series.quantities.getD k []) "IAU1976" = some (p76.getD (4 * k) 0 / Series.radSec) ∧
      pr builtin 0 (Series.quantities.getD k []) "IAU2000" = some (p00.getD (6 * k) 0 / Series.radSec) ∧ pr builtin 0 (Series.quantities.getD k []) "P03" = some (p03.getD (6 * k) 0 / Series.radSec) := by
    intro k hk
    obtain ⟨b1, b2, b3⟩ := a k hk
    rw [s0 _ 3 k] at b1
    rw [s0 _ 5 k] at b2 b3
    exact ⟨b1, b2, b3⟩
  have z0 : (0 : ℝ) / Series.radSec = 0 := zero_div _
  have n0 : ∀ c : ℝ, (-c) / Series.radSec = -(c / Series.radSec) := fun c => neg_div _ _
  simp only [models, List.mem_cons, List.not_mem_nil, or_false] at hm
  rcases hm with rfl | rfl | rfl
  · refine ⟨(key 0 (by omega)).1.trans ?_, (key 5 (by omega)).1.trans ?_, (key 9 (by omega)).1.trans ?_, ⟨84381.448 / Series.radSec, (key 1 (by omega)).1.trans ?_, (key 4 (by omega)).1.trans ?_, e1⟩,
      ⟨0, (key 10 (by omega)).1.trans ?_, (key 11 (by omega)).1.trans ?_⟩⟩
    · exact congrArg some z0
    · exact congrArg some z0
    · exact congrArg some z0
    · rfl
    · rfl
    · exact congrArg some z0
    · rw [neg_zero]; exact congrArg some z0
  · refine ⟨(key 0 (by omega)).2.1.trans ?_, (key 5 (by omega)).2.1.trans ?_, (key 9 (by omega)).2.1.trans ?_, ⟨84381.448 / Series.radSec, (key 1 (by omega)).2.1.trans ?_, (key 4 (by omega)).2.1.trans ?_, e1⟩,
      ⟨2.5976176 / Series.radSec, (key 10 (by omega)).2.1.trans ?_, (key 11 (by omega)).2.1.trans ?_⟩⟩
    · exact congrArg some z0
    · exact congrArg some z0
    · exact congrArg some z0
    · rfl
    · rfl
    · rfl
    · exact congrArg some (n0 _)
  · refine ⟨(key 0 (by omega)).2.2.trans ?_, (key 5 (by omega)).2.2.trans ?_, (key 9 (by omega)).2.2.trans ?_, ⟨84381.406 / Series.radSec, (key 1 (by omega)).2.2.trans ?_, (key 4 (by omega)).2.2.trans ?_, e2⟩,
      ⟨2.650545 / Series.radSec, (key 10 (by omega)).2.2.trans ?_, (key 11 (by omega)).2.2.trans ?_⟩⟩
    · exact congrArg some z0
    · exact congrArg some z0
    · exact congrArg some z0
    · show some (84381.406000 / Series.radSec) = _; norm_num
    · show some (84381.406000 / Series.radSec) = _; norm_num
    · rfl
    · exact congrArg some (n0 _)

/-- **C56 (epoch).**  At the epoch J2000 every built-in model leaves every direction other than a pole as it is: equatorial and ecliptic, in both directions. -/
theorem c56_epoch (mx : String) (hm : mx ∈ models) (p : V3) (hJ : 0 ≤ p.x ∧ p.x < 2 * π) (hW : -(π / 2) < p.y ∧ p.y < π / 2) :
    cdJ2D builtin 0 p mx = some p ∧ cdD2J builtin 0 p mx = some p ∧
    (∀ e, pr builtin 0 ['E'] mx = some e → |(rotX e (dirOf p)).z| < 1 → hdJ2D builtin 0 p mx = some p ∧ hdD2J builtin 0 p mx = some p) := by
  obtain ⟨h1, h2, h3, ⟨e, h4, h5, -⟩, z, h6, h7⟩ := epoch_angles mx hm
  have ry0 : ∀ v, rotY 0 v = v := fun v => by simp [rotY]
  have m0 : mrad (p.x - 0) = p.x := by rw [sub_zero]; exact c36_mrad_id _ hJ
  have body : ∀ z, cdBody (z + p.x) (-z) 0 p.y p.z = p := by
    intro z
    obtain ⟨d, r⟩ := cdBody_dir (z + p.x) (-z) 0 p.y p.z
    obtain ⟨g1, g2⟩ := cdBody_range (z + p.x) (-z) 0 p.y p.z
    rw [ry0, add_comm z p.x, dir_add, rotZ_inv, add_comm p.x z] at d
    obtain ⟨i, j⟩ := dir_inj hJ g1 hW g2 d.symm
    exact v3_ext i.symm j.symm r
  refine ⟨?_, ?_, fun e' he' hp => ?_⟩
  · unfold cdJ2D; simp only [h3, h6, h7, Option.bind_eq_bind, Option.bind_some]
    exact congrArg some (body z)
  · unfold cdD2J; simp only [h3, h6, h7, Option.bind_eq_bind, Option.bind_some, neg_zero, neg_neg]
    exact congrArg some (body z)
  · obtain rfl : e' = e := by rw [h5] at he'; exact (Option.some.inj he').symm
    have z0 : ∀ r : V3, (⟨r.x + 0, r.y, r.z⟩ : V3) = r := fun r => by simp
    have z1 : ∀ r : V3, (⟨r.x - 0, r.y, r.z⟩ : V3) = r := fun r => by simp
    have inv := c38_inverse p e' hJ hW hp
    constructor
    · unfold hdJ2D; simp only [h1, h2, h4, h5, Option.bind_eq_bind, Option.bind_some, z0, z1]
      exact congrArg some inv
    · unfold hdD2J; simp only [h1, h2, h4, h5, Option.bind_eq_bind, Option.bind_some, z0]
      rw [inv, m0]; rfl

/-! ## The hypotheses can be met -/

/-- the equatorial conversion there and back, for a body on the equator -/
example (t : ℝ) : ∃ q, cdJ2D builtin t ⟨1, 0, 5⟩ "P03" = some q ∧ q.z = 5 ∧
    cdD2J builtin t q "P03" = some ⟨1, 0, 5⟩ :=
  (c56_equatorial _ builtin_shape t "P03" ⟨1, 0, 5⟩ ⟨by norm_num, by simp; linarith [pi_gt_three]⟩ ⟨by simp; exact pi_pos, by simp; exact pi_pos⟩).1

/-- the ecliptic conversion of a body on the ecliptic at the epoch: none of the directions is a pole -/
example : ∃ q, hdJ2D builtin 0 ⟨1, 0, 5⟩ "P03" = some q ∧ q.z = 5 ∧ hdD2J builtin 0 q "P03" = some ⟨1, 0, 5⟩ := by
  obtain ⟨fi, w, x, E, e1, e2, e3, e4, h, -⟩ := c56_ecliptic builtin builtin_shape 0 "P03"
  obtain ⟨h1, h2, -, ⟨e, h4, h5, p0, p1⟩, -⟩ := epoch_angles "P03" (by simp [models])
  obtain rfl : fi = 0 := by rw [h1] at e1; exact (Option.some.inj e1).symm
  obtain rfl : x = 0 := by rw [h2] at e3; exact (Option.some.inj e3).symm
  obtain rfl : w = e := by rw [h4] at e2; exact (Option.some.inj e2).symm
  obtain rfl : E = w := by rw [h5] at e4; exact (Option.some.inj e4).symm
  have rz0 : ∀ v, rotZ 0 v = v := fun v => by simp [rotZ]
  have s1 : sin (1 : ℝ) < 1 := by
    have := sin_lt_sin_of_lt_of_le_pi_div_two (x := 1) (y := π / 2) (by linarith [pi_pos]) le_rfl (by linarith [pi_gt_three])
    rwa [sin_pi_div_two] at this
  have s0 : 0 < sin (1 : ℝ) := sin_pos_of_pos_of_lt_pi one_pos (by linarith [pi_gt_three])
  have a1 := sin_le_one E
  have a2 : 0 < sin E := sin_pos_of_pos_of_lt_pi p0 (by linarith [pi_gt_three])
  have b1 : |(rotX E (rotZ 0 (dirOf ⟨1, 0, 5⟩))).z| < 1 := by
    rw [rz0]
    simp only [rotX, dirOf, dir, cos_zero, sin_zero, one_mul, mul_zero, add_zero]
    rw [abs_of_pos (mul_pos a2 s0)]
    nlinarith
  obtain ⟨q, k1, k2, -, k3⟩ := h ⟨1, 0, 5⟩ ⟨by norm_num, by simp; linarith [pi_gt_three]⟩ ⟨by simp; exact pi_pos, by simp; exact pi_pos⟩ b1 (by
    rw [neg_zero, rz0, rz0, rotX_inv]; simp [dirOf, dir])
  exact ⟨q, k1, k2, k3⟩

/-- the moon in the equator plane, 384400 km away, seen from the equator: the body is not at the site -/
example : llr2xyz ⟨0, 0, 384400 * unit 384400⟩ ≠ site (0 + 0) 0 0 := by
  intro h
  have := congrArg V3.x h
  unfold unit llr2xyz site rEar at this
  norm_num at this

end Verif.Precession
