import Verif.Apsides
import Mathlib.Analysis.Calculus.Deriv.MeanValue
import Mathlib.Analysis.Calculus.Deriv.Pow
import Mathlib.Analysis.Calculus.Deriv.Mul
import Mathlib.Analysis.Calculus.Deriv.Add
import Mathlib.Analysis.SpecialFunctions.Trigonometric.Deriv
import Mathlib.Tactic.LinearCombination

/-!
# C92: apsides, elongations, stationary points; C93: nodes and conjunctions
-/

namespace Verif.Apsides

open Real

/-! ## Taylor bounds -/

/-- a function that starts at 0 and grows no faster than `B` -/
theorem grow {φ φ' B B' : ℝ → ℝ} {h : ℝ} (hh : 0 ≤ h) (hφ : ∀ s, 0 ≤ s → s ≤ h → HasDerivAt φ (φ' s) s) (hB : ∀ s, HasDerivAt B (B' s) s)
    (h0 : φ 0 = 0) (hB0 : B 0 = 0) (hle : ∀ s, 0 ≤ s → s ≤ h → |φ' s| ≤ B' s) : |φ h| ≤ B h := by
  have up : ∀ ψ ψ' : ℝ → ℝ, (∀ s, 0 ≤ s → s ≤ h → HasDerivAt ψ (ψ' s) s) → (∀ s, 0 ≤ s → s ≤ h → 0 ≤ ψ' s) → ψ 0 ≤ ψ h := by
    intro ψ ψ' d n
    have m : MonotoneOn ψ (Set.Icc 0 h) := by
      refine monotoneOn_of_deriv_nonneg (convex_Icc 0 h) (fun s hs => (d s hs.1 hs.2).continuousAt.continuousWithinAt) ?_ ?_
      · intro s hs
        rw [interior_Icc] at hs
        exact (d s hs.1.le hs.2.le).differentiableAt.differentiableWithinAt
      · intro s hs
        rw [interior_Icc] at hs
        rw [(d s hs.1.le hs.2.le).deriv]
        exact n s hs.1.le hs.2.le
    exact m ⟨le_rfl, hh⟩ ⟨hh, le_rfl⟩ hh
  have u1 := up (fun s => B s - φ s) (fun s => B' s - φ' s) (fun s a b => (hB s).sub (hφ s a b)) (fun s a b => by linarith [(abs_le.1 (hle s a b)).2])
  have u2 := up (fun s => B s + φ s) (fun s => B' s + φ' s) (fun s a b => (hB s).add (hφ s a b)) (fun s a b => by linarith [(abs_le.1 (hle s a b)).1])
  simp only [h0, hB0] at u1 u2
  rw [abs_le]
  constructor <;> linarith

/-- the curve near `z`: its slope and curvature, the curvature changing by at most `C` per unit of time within `ρ` of `z` -/
structure Smooth (f f1 f2 : ℝ → ℝ) (z ρ C : ℝ) : Prop where
  d1 : ∀ x, |x - z| ≤ ρ → HasDerivAt f (f1 x) x
  d2 : ∀ x, |x - z| ≤ ρ → HasDerivAt f1 (f2 x) x
  lip : ∀ x y, |x - z| ≤ ρ → |y - z| ≤ ρ → |f2 x - f2 y| ≤ C * |x - y|

variable {f f1 f2 : ℝ → ℝ} {z ρ C : ℝ}

theorem between {x s h : ℝ} (hx : |x - z| ≤ ρ) (hxh : |x + h - z| ≤ ρ) (h0 : 0 ≤ s) (h1 : s ≤ 1) : |x + s * h - z| ≤ ρ := by
  obtain ⟨a1, a2⟩ := abs_le.1 hx
  obtain ⟨b1, b2⟩ := abs_le.1 hxh
  rw [abs_le]
  constructor <;> nlinarith

theorem Smooth.taylor1 (S : Smooth f f1 f2 z ρ C) {x h : ℝ} (hx : |x - z| ≤ ρ) (hxh : |x + h - z| ≤ ρ) : |f1 (x + h) - f1 x - f2 x * h| ≤ C * h ^ 2 / 2 := by
  have := grow (φ := fun s => f1 (x + s * h) - f1 x - f2 x * (s * h)) (φ' := fun s => (f2 (x + s * h) - f2 x) * h) (B := fun s => C * h ^ 2 * s ^ 2 / 2) (B' := fun s => C * h ^ 2 * s)
    (h := 1) (by norm_num) ?_ ?_ (by simp) (by simp) ?_
  · simpa using this
  · intro s a b
    have e1 : HasDerivAt (fun s : ℝ => x + s * h) h s := by simpa using ((hasDerivAt_id s).mul_const h).const_add x
    have e2 := (S.d2 (x + s * h) (between hx hxh a b)).comp s e1
    have e3 : HasDerivAt (fun s : ℝ => f2 x * (s * h)) (f2 x * h) s := by simpa using ((hasDerivAt_id s).mul_const h).const_mul (f2 x)
    exact ((e2.sub_const (f1 x)).sub e3).congr_deriv (by ring)
  · intro s
    exact (((hasDerivAt_pow 2 s).const_mul (C * h ^ 2)).div_const 2).congr_deriv (by norm_num; ring)
  · intro s a b
    rw [abs_mul]
    have l := S.lip (x + s * h) x (between hx hxh a b) hx
    rw [add_sub_cancel_left, abs_mul, abs_of_nonneg a] at l
    calc |f2 (x + s * h) - f2 x| * |h| ≤ C * (s * |h|) * |h| := mul_le_mul_of_nonneg_right l (abs_nonneg _)
      _ = C * h ^ 2 * s := by rw [← sq_abs h]; ring

theorem Smooth.taylor2 (S : Smooth f f1 f2 z ρ C) {x h : ℝ} (hx : |x - z| ≤ ρ) (hxh : |x + h - z| ≤ ρ) :
    |f (x + h) - f x - f1 x * h - f2 x * h ^ 2 / 2| ≤ C * |h| ^ 3 / 6 := by
  have := grow (φ := fun s => f (x + s * h) - f x - f1 x * (s * h) - f2 x * (s * h) ^ 2 / 2) (φ' := fun s => (f1 (x + s * h) - f1 x - f2 x * (s * h)) * h)
    (B := fun s => C * |h| ^ 3 * s ^ 3 / 6) (B' := fun s => C * |h| ^ 3 * s ^ 2 / 2) (h := 1) (by norm_num) ?_ ?_ (by simp) (by simp) ?_
  · simpa using this
  · intro s a b
    have e1 : HasDerivAt (fun s : ℝ => x + s * h) h s := by simpa using ((hasDerivAt_id s).mul_const h).const_add x
    have e2 := (S.d1 (x + s * h) (between hx hxh a b)).comp s e1
    have e3 : HasDerivAt (fun s : ℝ => f1 x * (s * h)) (f1 x * h) s := by simpa using ((hasDerivAt_id s).mul_const h).const_mul (f1 x)
    have e4 : HasDerivAt (fun s : ℝ => f2 x * (s * h) ^ 2 / 2) (f2 x * (s * h) * h) s := by
      have e0 : HasDerivAt (fun s : ℝ => s * h) h s := by simpa using (hasDerivAt_id s).mul_const h
      exact (((e0.pow 2).const_mul (f2 x)).div_const 2).congr_deriv (by norm_num; ring)
    exact (((e2.sub_const (f x)).sub e3).sub e4).congr_deriv (by ring)
  · intro s
    exact (((hasDerivAt_pow 3 s).const_mul (C * |h| ^ 3)).div_const 6).congr_deriv (by norm_num; ring)
  · intro s a b
    rw [abs_mul]
    have l := S.taylor1 hx (between hx hxh a b)
    calc |f1 (x + s * h) - f1 x - f2 x * (s * h)| * |h| ≤ C * (s * h) ^ 2 / 2 * |h| := mul_le_mul_of_nonneg_right l (abs_nonneg _)
      _ = C * |h| ^ 3 * s ^ 2 / 2 := by rw [mul_pow, ← sq_abs h]; ring

/-! ## One round through three points -/

/-- how far from the extremum one round may end: `u` away at the start, step `dt`, curvature at least `m` near by and changing by at most `C`, values wrong by at most `η·dt²` -/
noncomputable def left (C m dt η u : ℝ) : ℝ := (C * u ^ 2 / 2 + u * (C * dt / 3 + 4 * η) + (C * dt ^ 2 / 6 + η * dt)) / (m - C * dt / 3 - 4 * η)

/-- the same as `Smooth`, for an extremum at `z`; a maximum is the minimum of `-f` -/
theorem top_near {g : ℝ → ℝ} {t dt η m u : ℝ} (S : Smooth f f1 f2 z ρ C) (hz : f1 z = 0) (hρ : u + dt ≤ ρ) (hdt : 0 < dt) (hu : |t - z| ≤ u) (hC : 0 ≤ C) (hη : 0 ≤ η)
    (hm : ∀ x, |x - z| ≤ u → m ≤ f2 x) (hpos : 0 < m - C * dt / 3 - 4 * η)
    (hg : ∀ x, |x - z| ≤ u + dt → |g x - f x| ≤ η * dt ^ 2) : |(three g t dt).top dt - z| ≤ left C m dt η u := by
  have hu0 : 0 ≤ u := (abs_nonneg _).trans hu
  have ht : |t - z| ≤ ρ := by linarith
  have hz0 : |z - z| ≤ ρ := by rw [sub_self, abs_zero]; linarith
  obtain ⟨u1, u2⟩ := abs_le.1 hu
  have hm1 : |t - dt - z| ≤ u + dt := by rw [abs_le]; constructor <;> linarith
  have hp1 : |t + dt - z| ≤ u + dt := by rw [abs_le]; constructor <;> linarith
  have hc1 : |t - z| ≤ u + dt := by linarith
  have T1 := S.taylor2 (h := dt) ht (by linarith)
  have T2 := S.taylor2 (h := -dt) ht (by rw [← sub_eq_add_neg]; linarith)
  rw [abs_neg, abs_of_pos hdt] at T2
  rw [abs_of_pos hdt] at T1
  rw [← sub_eq_add_neg] at T2
  have T3 := S.taylor1 (h := z - t) ht (by rw [add_sub_cancel]; exact hz0)
  rw [add_sub_cancel, hz] at T3
  have g1 := abs_le.1 (hg _ hm1)
  have g2 := abs_le.1 (hg _ hc1)
  have g3 := abs_le.1 (hg _ hp1)
  -- numerator and denominator
  obtain ⟨D, hD⟩ : ∃ D, D = g (t - dt) + g (t + dt) - 2 * g t := ⟨_, rfl⟩
  obtain ⟨N, hN⟩ : ∃ N, N = g (t - dt) - g (t + dt) := ⟨_, rfl⟩
  have hD' : |D - f2 t * dt ^ 2| ≤ (C * dt / 3 + 4 * η) * dt ^ 2 := by
    have a1 := abs_le.1 T1
    have a2 := abs_le.1 T2
    have e : D - f2 t * dt ^ 2 = (f (t + dt) - f t - f1 t * dt - f2 t * dt ^ 2 / 2) + (f (t - dt) - f t - f1 t * -dt - f2 t * (-dt) ^ 2 / 2)
        + (g (t - dt) - f (t - dt)) + (g (t + dt) - f (t + dt)) - 2 * (g t - f t) := by rw [hD]; ring
    have e' : (C * dt / 3 + 4 * η) * dt ^ 2 = C * dt ^ 3 / 6 + C * dt ^ 3 / 6 + 4 * (η * dt ^ 2) := by ring
    rw [e, e', abs_le]
    constructor <;> linarith [a1.1, a1.2, a2.1, a2.2, g1.1, g1.2, g2.1, g2.2, g3.1, g3.2]
  have hN' : |N + 2 * f1 t * dt| ≤ (C * dt / 3 + 2 * η) * dt ^ 2 := by
    have a1 := abs_le.1 T1
    have a2 := abs_le.1 T2
    have e : N + 2 * f1 t * dt = (f (t - dt) - f t - f1 t * -dt - f2 t * (-dt) ^ 2 / 2) - (f (t + dt) - f t - f1 t * dt - f2 t * dt ^ 2 / 2)
        + (g (t - dt) - f (t - dt)) - (g (t + dt) - f (t + dt)) := by rw [hN]; ring
    have e' : (C * dt / 3 + 2 * η) * dt ^ 2 = C * dt ^ 3 / 6 + C * dt ^ 3 / 6 + 2 * (η * dt ^ 2) := by ring
    rw [e, e', abs_le]
    constructor <;> linarith [a1.1, a1.2, a2.1, a2.2, g1.1, g1.2, g3.1, g3.2]
  have hdt2 : 0 < dt ^ 2 := by positivity
  have hDpos : (m - C * dt / 3 - 4 * η) * dt ^ 2 ≤ D := by
    have := (abs_le.1 hD').1
    have h2 := mul_le_mul_of_nonneg_right (hm t hu) hdt2.le
    have e : (m - C * dt / 3 - 4 * η) * dt ^ 2 = m * dt ^ 2 - (C * dt / 3 + 4 * η) * dt ^ 2 := by ring
    rw [e]
    linarith
  have hD0 : 0 < D := lt_of_lt_of_le (mul_pos hpos hdt2) hDpos
  have e : (three g t dt).top dt - z = ((t - z) * D + N * dt / 2) / D := by
    show t + (g (t - dt) - g (t + dt)) / (g (t - dt) + g (t + dt) - 2 * g t) * dt / 2 - z = _
    rw [← hD, ← hN]
    field_simp
    ring
  rw [e, abs_div, abs_of_pos hD0]
  unfold left
  have num : |(t - z) * D + N * dt / 2| ≤ (C * u ^ 2 / 2 + u * (C * dt / 3 + 4 * η) + (C * dt ^ 2 / 6 + η * dt)) * dt ^ 2 := by
    have e2 : (t - z) * D + N * dt / 2 = (t - z) * (D - f2 t * dt ^ 2) + (N + 2 * f1 t * dt) * (dt / 2) + (0 - f1 t - f2 t * (z - t)) * dt ^ 2 := by ring
    rw [e2]
    have b1 : |(t - z) * (D - f2 t * dt ^ 2)| ≤ u * ((C * dt / 3 + 4 * η) * dt ^ 2) := by
      rw [abs_mul]; exact mul_le_mul hu hD' (abs_nonneg _) hu0
    have b2 : |(N + 2 * f1 t * dt) * (dt / 2)| ≤ (C * dt / 3 + 2 * η) * dt ^ 2 * (dt / 2) := by
      rw [abs_mul, abs_of_pos (by linarith : (0 : ℝ) < dt / 2)]; exact mul_le_mul_of_nonneg_right hN' (by linarith)
    have b3 : |(0 - f1 t - f2 t * (z - t)) * dt ^ 2| ≤ C * u ^ 2 / 2 * dt ^ 2 := by
      rw [abs_mul, abs_of_pos hdt2]
      refine mul_le_mul_of_nonneg_right (T3.trans ?_) hdt2.le
      have : (z - t) ^ 2 ≤ u ^ 2 := by rw [← sq_abs (z - t), abs_sub_comm]; exact pow_le_pow_left₀ (abs_nonneg _) hu 2
      nlinarith
    have t1 := abs_add_le ((t - z) * (D - f2 t * dt ^ 2) + (N + 2 * f1 t * dt) * (dt / 2)) ((0 - f1 t - f2 t * (z - t)) * dt ^ 2)
    have t2 := abs_add_le ((t - z) * (D - f2 t * dt ^ 2)) ((N + 2 * f1 t * dt) * (dt / 2))
    refine (t1.trans (add_le_add (t2.trans (add_le_add b1 b2)) b3)).trans (le_of_eq ?_)
    ring
  have hnum0 : 0 ≤ C * u ^ 2 / 2 + u * (C * dt / 3 + 4 * η) + (C * dt ^ 2 / 6 + η * dt) := by positivity
  calc |(t - z) * D + N * dt / 2| / D
      ≤ ((C * u ^ 2 / 2 + u * (C * dt / 3 + 4 * η) + (C * dt ^ 2 / 6 + η * dt)) * dt ^ 2) / ((m - C * dt / 3 - 4 * η) * dt ^ 2) :=
        div_le_div₀ (by positivity) num (mul_pos hpos hdt2) hDpos
    _ = _ := by rw [mul_div_mul_right _ _ hdt2.ne']

/-- and how far from the extreme value its last line may be -/
noncomputable def off (C M dt η u δ : ℝ) : ℝ := η * dt ^ 2 + C * u ^ 3 / 6 + (C * dt / 3 + 4 * η + C * u) * u ^ 2 / 2 + (M + C * dt / 3 + 4 * η) * (2 * u * δ + δ ^ 2) / 2

theorem value_near {g : ℝ → ℝ} {t dt η m M u : ℝ} (S : Smooth f f1 f2 z ρ C) (hz : f1 z = 0) (hρ : u + dt ≤ ρ) (hdt : 0 < dt) (hu : |t - z| ≤ u) (hC : 0 ≤ C) (hη : 0 ≤ η)
    (hm : ∀ x, |x - z| ≤ u → m ≤ f2 x) (hM : ∀ x, |x - z| ≤ u → f2 x ≤ M) (hpos : 0 < m - C * dt / 3 - 4 * η)
    (hg : ∀ x, |x - z| ≤ u + dt → |g x - f x| ≤ η * dt ^ 2) : |(three g t dt).value - f z| ≤ off C M dt η u (left C m dt η u) := by
  have hδ := top_near S hz hρ hdt hu hC hη hm hpos hg
  have hu0 : 0 ≤ u := (abs_nonneg _).trans hu
  have ht : |t - z| ≤ ρ := by linarith
  have hz0 : |z - z| ≤ ρ := by rw [sub_self, abs_zero]; linarith
  obtain ⟨u1, u2⟩ := abs_le.1 hu
  have hm1 : |t - dt - z| ≤ u + dt := by rw [abs_le]; constructor <;> linarith
  have hp1 : |t + dt - z| ≤ u + dt := by rw [abs_le]; constructor <;> linarith
  have hc1 : |t - z| ≤ u + dt := by linarith
  have T1 := S.taylor2 (h := dt) ht (by linarith)
  have T2 := S.taylor2 (h := -dt) ht (by rw [← sub_eq_add_neg]; linarith)
  rw [abs_neg, abs_of_pos hdt] at T2
  rw [abs_of_pos hdt] at T1
  rw [← sub_eq_add_neg] at T2
  have T3 := S.taylor2 (x := z) (h := t - z) hz0 (by rw [add_sub_cancel]; exact ht)
  rw [add_sub_cancel, hz] at T3
  have g1 := abs_le.1 (hg _ hm1)
  have g2 := abs_le.1 (hg _ hc1)
  have g3 := abs_le.1 (hg _ hp1)
  obtain ⟨D, hD⟩ : ∃ D, D = g (t - dt) + g (t + dt) - 2 * g t := ⟨_, rfl⟩
  obtain ⟨N, hN⟩ : ∃ N, N = g (t - dt) - g (t + dt) := ⟨_, rfl⟩
  have hdt2 : 0 < dt ^ 2 := by positivity
  obtain ⟨E, hE⟩ : ∃ E, E = D / dt ^ 2 := ⟨_, rfl⟩
  have hDE : D = E * dt ^ 2 := by rw [hE, div_mul_cancel₀ _ hdt2.ne']
  have hE' : |E - f2 t| ≤ C * dt / 3 + 4 * η := by
    have a1 := abs_le.1 T1
    have a2 := abs_le.1 T2
    have e : (E - f2 t) * dt ^ 2 = (f (t + dt) - f t - f1 t * dt - f2 t * dt ^ 2 / 2) + (f (t - dt) - f t - f1 t * -dt - f2 t * (-dt) ^ 2 / 2)
        + (g (t - dt) - f (t - dt)) + (g (t + dt) - f (t + dt)) - 2 * (g t - f t) := by rw [sub_mul, ← hDE, hD]; ring
    have e' : (C * dt / 3 + 4 * η) * dt ^ 2 = C * dt ^ 3 / 6 + C * dt ^ 3 / 6 + 4 * (η * dt ^ 2) := by ring
    have q : |E - f2 t| * dt ^ 2 ≤ (C * dt / 3 + 4 * η) * dt ^ 2 := by
      rw [← abs_of_pos hdt2, ← abs_mul, abs_of_pos hdt2, e, e', abs_le]
      constructor <;> linarith [a1.1, a1.2, a2.1, a2.2, g1.1, g1.2, g2.1, g2.2, g3.1, g3.2]
    exact le_of_mul_le_mul_right q hdt2
  have hE0 : 0 < E := by linarith [(abs_le.1 hE').1, hm t hu]
  have hEM : E ≤ M + C * dt / 3 + 4 * η := by linarith [(abs_le.1 hE').2, hM t hu]
  obtain ⟨δ, hδe⟩ : ∃ δ, δ = (three g t dt).top dt - z := ⟨_, rfl⟩
  rw [← hδe] at hδ
  have hD0 : D ≠ 0 := by rw [hDE]; exact (mul_pos hE0 hdt2).ne'
  have hw : N * dt = 2 * D * (δ - (t - z)) := by
    rw [hδe]
    show _ = 2 * D * (t + (g (t - dt) - g (t + dt)) / (g (t - dt) + g (t + dt) - 2 * g t) * dt / 2 - z - (t - z))
    rw [← hD, ← hN]
    field_simp
    ring
  have ev : (three g t dt).value - f z = (g t - f t) + (f t - f z - 0 * (t - z) - f2 z * (t - z) ^ 2 / 2) + (f2 z - E) * (t - z) ^ 2 / 2 + E * (2 * (t - z) * δ - δ ^ 2) / 2 := by
    have e0 : (three g t dt).value = g t - E * (δ - (t - z)) ^ 2 / 2 := by
      show g t + (g (t - dt) - g (t + dt)) / (g (t - dt) + g (t + dt) - 2 * g t) * (g (t + dt) - g (t - dt)) / 8 = _
      have : g (t + dt) - g (t - dt) = -N := by rw [hN]; ring
      rw [← hD, this, ← hN]
      have hN2 : N = 2 * D * (δ - (t - z)) / dt := by rw [← hw, mul_div_cancel_right₀ _ hdt.ne']
      rw [hN2, hE]
      field_simp
      ring
    rw [e0]
    ring
  have hsq : (t - z) ^ 2 ≤ u ^ 2 := by rw [← sq_abs]; exact pow_le_pow_left₀ (abs_nonneg _) hu 2
  have c2 : |f t - f z - 0 * (t - z) - f2 z * (t - z) ^ 2 / 2| ≤ C * u ^ 3 / 6 := by
    refine T3.trans ?_
    have := pow_le_pow_left₀ (abs_nonneg _) hu 3
    have := mul_le_mul_of_nonneg_left this hC
    linarith
  have c3 : |(f2 z - E) * (t - z) ^ 2 / 2| ≤ (C * dt / 3 + 4 * η + C * u) * u ^ 2 / 2 := by
    rw [abs_div, abs_mul, abs_of_nonneg (sq_nonneg (t - z)), abs_of_pos (two_pos : (0 : ℝ) < 2)]
    have l := S.lip t z ht hz0
    have l2 := l.trans (mul_le_mul_of_nonneg_left hu hC)
    have : |f2 z - E| ≤ C * dt / 3 + 4 * η + C * u := by
      have e : f2 z - E = -(E - f2 t) - (f2 t - f2 z) := by ring
      rw [e, abs_le]
      constructor <;> linarith [(abs_le.1 hE').1, (abs_le.1 hE').2, (abs_le.1 l2).1, (abs_le.1 l2).2]
    have := mul_le_mul this hsq (sq_nonneg _) (by positivity)
    linarith
  have c4 : |E * (2 * (t - z) * δ - δ ^ 2) / 2| ≤ (M + C * dt / 3 + 4 * η) * (2 * u * left C m dt η u + left C m dt η u ^ 2) / 2 := by
    rw [abs_div, abs_mul, abs_of_pos hE0, abs_of_pos (two_pos : (0 : ℝ) < 2)]
    have q : |2 * (t - z) * δ - δ ^ 2| ≤ 2 * u * left C m dt η u + left C m dt η u ^ 2 := by
      have q1 : |2 * (t - z) * δ| ≤ 2 * u * left C m dt η u := by
        rw [abs_mul, abs_mul, abs_of_pos (two_pos : (0 : ℝ) < 2)]
        exact mul_le_mul (by linarith) hδ (abs_nonneg _) (by linarith)
      have q2 : δ ^ 2 ≤ left C m dt η u ^ 2 := by rw [← sq_abs]; exact pow_le_pow_left₀ (abs_nonneg _) hδ 2
      have q3 := abs_add_le (2 * (t - z) * δ) (-(δ ^ 2))
      rw [← sub_eq_add_neg, abs_neg, abs_of_nonneg (sq_nonneg δ)] at q3
      exact q3.trans (add_le_add q1 q2)
    have := mul_le_mul hEM q (abs_nonneg _) (by linarith)
    linarith
  have c1 : |g t - f t| ≤ η * dt ^ 2 := hg _ hc1
  rw [ev]
  unfold off
  have d1 := abs_le.1 c1
  have d2 := abs_le.1 c2
  have d3 := abs_le.1 c3
  have d4 := abs_le.1 c4
  rw [abs_le]
  constructor <;> linarith [d1.1, d1.2, d2.1, d2.2, d3.1, d3.2, d4.1, d4.2]

/-- on a parabola one round is exact -/
theorem quadratic_exact {A B t dt : ℝ} (hA : A ≠ 0) (hdt : dt ≠ 0) (hf : ∀ x, f x = A * (x - z) ^ 2 + B) :
    (three f t dt).top dt = z ∧ (three f t dt).value = B := by
  have hD : A * (t - dt - z) ^ 2 + B + (A * (t + dt - z) ^ 2 + B) - 2 * (A * (t - z) ^ 2 + B) = 2 * A * dt ^ 2 := by ring
  constructor
  · show t + (f (t - dt) - f (t + dt)) / (f (t - dt) + f (t + dt) - 2 * f t) * dt / 2 = z
    rw [hf, hf, hf, hD]
    field_simp
    ring
  · show f t + (f (t - dt) - f (t + dt)) / (f (t - dt) + f (t + dt) - 2 * f t) * (f (t + dt) - f (t - dt)) / 8 = B
    rw [hf, hf, hf, hD]
    field_simp
    ring

/-- the round does not see the sign -/
theorem top_neg (g : ℝ → ℝ) (t dt : ℝ) : (three (fun x => -g x) t dt).top dt = (three g t dt).top dt := by
  show t + (-g (t - dt) - -g (t + dt)) / (-g (t - dt) + -g (t + dt) - 2 * -g t) * dt / 2 = t + (g (t - dt) - g (t + dt)) / (g (t - dt) + g (t + dt) - 2 * g t) * dt / 2
  have : (-g (t - dt) - -g (t + dt)) / (-g (t - dt) + -g (t + dt) - 2 * -g t) = (g (t - dt) - g (t + dt)) / (g (t - dt) + g (t + dt) - 2 * g t) := by
    rw [← neg_div_neg_eq]; congr 1 <;> ring
  rw [this]

theorem value_neg (g : ℝ → ℝ) (t dt : ℝ) : (three (fun x => -g x) t dt).value = -(three g t dt).value := by
  show -g t + (-g (t - dt) - -g (t + dt)) / (-g (t - dt) + -g (t + dt) - 2 * -g t) * (-g (t + dt) - -g (t - dt)) / 8 =
    -(g t + (g (t - dt) - g (t + dt)) / (g (t - dt) + g (t + dt) - 2 * g t) * (g (t + dt) - g (t - dt)) / 8)
  have : (-g (t - dt) - -g (t + dt)) / (-g (t - dt) + -g (t + dt) - 2 * -g t) = (g (t - dt) - g (t + dt)) / (g (t - dt) + g (t + dt) - 2 * g t) := by
    rw [← neg_div_neg_eq]; congr 1 <;> ring
  rw [this]
  ring

/-! ## The mean event and the walk from one event to the next -/

theorem nearest_is {a b t : ℝ} (ha : 0 < a) : ∃ k : ℤ, nearest a b t = b + a * k ∧ |t - (b + a * k)| ≤ a / 2 := by
  refine ⟨⌊(t - b) / a + 0.5⌋, rfl, ?_⟩
  have h1 := Int.floor_le ((t - b) / a + 0.5)
  have h2 := Int.lt_floor_add_one ((t - b) / a + 0.5)
  generalize ⌊(t - b) / a + 0.5⌋ = k at h1 h2
  have e : t - b = (t - b) / a * a := (div_mul_cancel₀ _ ha.ne').symm
  generalize (t - b) / a = q at h1 h2 e
  have e2 : t - (b + a * k) = (q - k) * a := by linear_combination e
  rw [e2, abs_mul, abs_of_pos ha]
  have : |q - k| ≤ 1 / 2 := by rw [abs_le]; constructor <;> linarith
  calc |q - k| * a ≤ 1 / 2 * a := mul_le_mul_of_nonneg_right this ha.le
    _ = a / 2 := by ring

theorem nearest_eq {a b t : ℝ} (ha : 0 < a) {k : ℤ} (h : |t - (b + a * k)| < a / 2) : nearest a b t = b + a * k := by
  obtain ⟨h1, h2⟩ := abs_lt.1 h
  have : ⌊(t - b) / a + 0.5⌋ = k := by
    rw [Int.floor_eq_iff]
    constructor
    · have : (k : ℝ) - 1 / 2 ≤ (t - b) / a := by rw [le_div_iff₀ ha]; nlinarith
      linarith
    · have : (t - b) / a < (k : ℝ) + 1 / 2 := by rw [div_lt_iff₀ ha]; nlinarith
      linarith
  unfold nearest
  rw [this]

theorem nearest_next {a b e p δ : ℝ} (ha : 0 < a) {k : ℤ} (he : |e - (b + a * k)| ≤ δ) (hp : δ + |p - a| < a / 2) : nearest a b (e + p) = b + a * (k + 1 : ℤ) := by
  refine nearest_eq ha ?_
  have : e + p - (b + a * ((k + 1 : ℤ) : ℝ)) = (e - (b + a * k)) + (p - a) := by push_cast; ring
  rw [this]
  exact (abs_add_le _ _).trans_lt (by linarith)

/-- the loops of the sample program — test1.cpp:46-107: print the event next to `t`, step on by `p` from what was found, `n` times -/
noncomputable def walk (ev : ℝ → ℝ × ℝ) (p : ℝ) : ℕ → ℝ → List (ℝ × ℝ)
  | 0, _ => []
  | n + 1, t => ev t :: walk ev p n ((ev t).1 + p)

theorem walk_each {a b p δ : ℝ} {ev : ℝ → ℝ × ℝ} {E : ℤ → ℝ × ℝ} (ha : 0 < a) (hev : ∀ t k, nearest a b t = b + a * (k : ℤ) → ev t = E k)
    (hE : ∀ k, |(E k).1 - (b + a * k)| ≤ δ) (hp : δ + |p - a| < a / 2) (n : ℕ) :
    ∀ t (k : ℤ), nearest a b t = b + a * k → walk ev p n t = (List.range n).map fun i : ℕ => E (k + (i : ℤ)) := by
  induction n with
  | zero => intro t k _; rfl
  | succ n ih =>
    intro t k hk
    have e1 := hev t k hk
    have e2 := nearest_next ha (hE k) hp
    show ev t :: walk ev p n ((ev t).1 + p) = _
    rw [e1, ih _ (k + 1) e2, List.range_succ_eq_map, List.map_cons, List.map_map]
    congr 1
    · simp
    · refine List.map_congr_left fun i _ => ?_
      show E (k + 1 + i) = E (k + ((i + 1 : ℕ) : ℤ))
      congr 1
      push_cast
      ring

end Verif.Apsides
