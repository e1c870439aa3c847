import Verif.LimbPoint
import Verif.Props.GeomCut
import Verif.Props.EclipseLimits2
/-!
# C115: the greatest eclipse at sunrise or sunset
-/
namespace Verif.Geom

open Real

/-! ## Specification -/

/-- the velocity of the shadow over the ground at `(x, y)` of the fundamental plane: that of the shadow less that of the rotating Earth (radians per
day; beyond the limb the height is 0) -/
noncomputable def overGround (s vx vy x y : ℝ) : ℝ × ℝ :=
  (vx - 2 * π * (sin s * √(max 0 (1 - x ^ 2 - y ^ 2)) - cos s * y), vy - 2 * π * x * cos s)

/-- `p` is on the limb, and the line from the centre of the shadow `M` to `p` is perpendicular to the velocity `v` -/
def Abeam (bba : ℝ) (M : V3) (v : ℝ × ℝ) (p : ℝ × ℝ) : Prop :=
  OnOvl 1 bba p.1 p.2 ∧ (p.1 - M.x) * v.1 + (p.2 - M.y) * v.2 = 0

/-- how far `p` is to the right of `M`, looking along `v` (times the length of `v`) -/
def right (M : V3) (v : ℝ × ℝ) (p : ℝ × ℝ) : ℝ := (p.1 - M.x) * v.2 - (p.2 - M.y) * v.1

/-- `p` is abeam, and it is the rightmost (`ab`) or leftmost such point -/
def Outmost (bba : ℝ) (M : V3) (v : ℝ × ℝ) (ab : Bool) (p : ℝ × ℝ) : Prop :=
  Abeam bba M v p ∧ ∀ o, Abeam bba M v o → if ab then right M v o ≤ right M v p else right M v p ≤ right M v o

/-! ## Proof -/

theorem vxy_eq (x y s vx vy : ℝ) : ((vxy x y s vx vy).Vx, (vxy x y s vx vy).Vy) = overGround s vx vy x y := by
  unfold vxy overGround
  simp only []
  have h : (if 1 - x * x - y * y < 0 then 0 else √(1 - x * x - y * y)) = √(max 0 (1 - x ^ 2 - y ^ 2)) := by
    rw [show 1 - x * x - y * y = 1 - x ^ 2 - y ^ 2 by ring]
    split
    · next h => rw [max_eq_left h.le, sqrt_zero]
    · next h => rw [max_eq_right (not_lt.1 h)]
  rw [h]

/-- of the two points `A` is the one further along the line -/
theorem ovl_order (x1 y1 dx dy r ba : ℝ) (hb : ba ≠ 0) :
    0 ≤ ((lineOvl x1 y1 dx dy r ba).ax - (lineOvl x1 y1 dx dy r ba).bx) * dx
      + ((lineOvl x1 y1 dx dy r ba).ay - (lineOvl x1 y1 dx dy r ba).byy) * dy := by
  unfold lineOvl
  simp only []
  have hb2 : 0 < ba * ba := mul_self_pos.2 hb
  split
  · simp
  · have hA : 0 ≤ dx * dx + dy * dy / (ba * ba) := add_nonneg (mul_self_nonneg _) (div_nonneg (mul_self_nonneg _) hb2.le)
    generalize dx * dx + dy * dy / (ba * ba) = A at hA ⊢
    generalize x1 * dx + y1 * dy / (ba * ba) = B
    have hD := sqrt_nonneg (B * B - A * (x1 * x1 + y1 * y1 / (ba * ba) - r * r))
    generalize √(B * B - A * (x1 * x1 + y1 * y1 / (ba * ba) - r * r)) = D at *
    have e : (x1 + dx * ((-B + D) / A) - (x1 + dx * ((-B - D) / A))) * dx + (y1 + dy * ((-B + D) / A) - (y1 + dy * ((-B - D) / A))) * dy
        = (dx * dx + dy * dy) * (2 * (D / A)) := by ring
    rw [e]
    exact mul_nonneg (add_nonneg (mul_self_nonneg _) (mul_self_nonneg _)) (mul_nonneg (by norm_num) (div_nonneg hD hA))

theorem abeam_param {bba : ℝ} {M : V3} {v o : ℝ × ℝ} (hv : v.1 ≠ 0 ∨ v.2 ≠ 0) (h : Abeam bba M v o) :
    ∃ t, o.1 = M.x + v.2 * t ∧ o.2 = M.y + -v.1 * t := by
  have hp : 0 < v.1 * v.1 + v.2 * v.2 := by
    rcases hv with h | h
    · exact add_pos_of_pos_of_nonneg (mul_self_pos.2 h) (mul_self_nonneg _)
    · exact add_pos_of_nonneg_of_pos (mul_self_nonneg _) (mul_self_pos.2 h)
  have h2 := h.2
  refine ⟨((o.1 - M.x) * v.2 - (o.2 - M.y) * v.1) / (v.1 * v.1 + v.2 * v.2), ?_, ?_⟩
  · have : v.2 * (((o.1 - M.x) * v.2 - (o.2 - M.y) * v.1) / (v.1 * v.1 + v.2 * v.2)) = o.1 - M.x := by
      rw [← mul_div_assoc, div_eq_iff hp.ne']
      linear_combination (-v.1) * h2
    rw [this]; ring
  · have : -v.1 * (((o.1 - M.x) * v.2 - (o.2 - M.y) * v.1) / (v.1 * v.1 + v.2 * v.2)) = o.2 - M.y := by
      rw [← mul_div_assoc, div_eq_iff hp.ne']
      linear_combination (-v.2) * h2
    rw [this]; ring

theorem limbRound_ok (bba : ℝ) (M : V3) (vx0 vy0 : ℝ) (ab : Bool) (s x y : ℝ) (hb : bba ≠ 0)
    (hv : (overGround s vx0 vy0 x y).1 ≠ 0 ∨ (overGround s vx0 vy0 x y).2 ≠ 0) :
    (limbRound bba M vx0 vy0 ab s x y = none → ∀ o, ¬ Abeam bba M (overGround s vx0 vy0 x y) o) ∧
    ∀ p R, limbRound bba M vx0 vy0 ab s x y = some (p.1, p.2, R) →
      Outmost bba M (overGround s vx0 vy0 x y) ab p ∧ R = √((p.1 - M.x) ^ 2 + (p.2 - M.y) ^ 2) := by
  have e := vxy_eq x y s vx0 vy0
  generalize hv' : overGround s vx0 vy0 x y = v at *
  obtain ⟨v1, v2⟩ := v
  obtain ⟨e1, e2⟩ := Prod.mk.inj e
  unfold limbRound
  simp only [e1, e2]
  simp only at hv
  have c := c40_lineOvl M.x M.y v2 (-v1) 1 bba hb (by
    rcases hv with h | h
    · exact Or.inr (neg_ne_zero.2 h)
    · exact Or.inl h)
  have ho := ovl_order M.x M.y v2 (-v1) 1 bba hb
  generalize lineOvl M.x M.y v2 (-v1) 1 bba = N at *
  obtain ⟨c0, -, c2⟩ := c
  constructor
  · intro h o hab
    have hn : N.n = 0 := by
      by_contra hn
      rw [if_neg hn] at h
      cases ab <;> simp at h
    obtain ⟨t, t1, t2⟩ := abeam_param (v := (v1, v2)) hv hab
    exact c0.1 hn t (by have := hab.1; rw [t1, t2] at this; exact this)
  · intro p R h
    have hn : N.n ≠ 0 := by
      intro hn
      rw [if_pos hn] at h
      cases h
    rw [if_neg hn] at h
    obtain ⟨t1, t2, r0, r1, r2, r3, r4, r5, r6⟩ := c2 N rfl hn
    have hp : 0 < v1 * v1 + v2 * v2 := by
      rcases hv with h | h
      · exact add_pos_of_pos_of_nonneg (mul_self_pos.2 h) (mul_self_nonneg _)
      · exact add_pos_of_nonneg_of_pos (mul_self_nonneg _) (mul_self_pos.2 h)
    have ht : t2 ≤ t1 := by
      rw [r1, r2, r3, r4] at ho
      have : 0 ≤ (v1 * v1 + v2 * v2) * (t1 - t2) := by linarith [ho, show (M.x + v2 * t1 - (M.x + v2 * t2)) * v2 + (M.y + -v1 * t1 - (M.y + -v1 * t2)) * -v1 = (v1 * v1 + v2 * v2) * (t1 - t2) by ring]
      nlinarith
    have key : ∀ o, Abeam bba M (v1, v2) o → ∃ t, (t = t1 ∨ t = t2) ∧ right M (v1, v2) o = (v1 * v1 + v2 * v2) * t := by
      intro o hab
      obtain ⟨t, q1, q2⟩ := abeam_param (v := (v1, v2)) hv hab
      refine ⟨t, (r0 t).1 (by have := hab.1; rw [q1, q2] at this; exact this), ?_⟩
      unfold right
      rw [q1, q2]
      ring
    cases ab
    · simp only [Bool.false_eq_true, if_false, Option.some.injEq, Prod.mk.injEq] at h
      obtain ⟨h1, h2, h3⟩ := h
      refine ⟨⟨⟨?_, ?_⟩, fun o hab => ?_⟩, ?_⟩
      · rw [← h1, ← h2, r3, r4]; exact (r0 t2).2 (Or.inr rfl)
      · rw [← h1, ← h2, r3, r4]; ring
      · obtain ⟨t, q1, q2⟩ := key o hab
        rw [if_neg (by decide), q2]
        have : right M (v1, v2) p = (v1 * v1 + v2 * v2) * t2 := by
          unfold right
          rw [← h1, ← h2, r3, r4]
          ring
        rw [this]
        refine mul_le_mul_of_nonneg_left ?_ hp.le
        rcases q1 with q | q <;> rw [q]
        exact ht
      · rw [← h3, r6, h1, h2]
    · simp only [if_true, Option.some.injEq, Prod.mk.injEq] at h
      obtain ⟨h1, h2, h3⟩ := h
      refine ⟨⟨⟨?_, ?_⟩, fun o hab => ?_⟩, ?_⟩
      · rw [← h1, ← h2, r1, r2]; exact (r0 t1).2 (Or.inl rfl)
      · rw [← h1, ← h2, r1, r2]; ring
      · obtain ⟨t, q1, q2⟩ := key o hab
        rw [if_pos rfl, q2]
        have : right M (v1, v2) p = (v1 * v1 + v2 * v2) * t1 := by
          unfold right
          rw [← h1, ← h2, r1, r2]
          ring
        rw [this]
        refine mul_le_mul_of_nonneg_left ?_ hp.le
        rcases q1 with q | q <;> rw [q]
        exact ht
      · rw [← h3, r5, h1, h2]

/-- **C115.**  `mDian` answers whether there is a point of the limb with greatest eclipse at sunrise or sunset on the asked side, after two rounds of
approximation.  If so, `A` gets the longitude and latitude of a point `p` of the limb, at most `r` from the centre `M` of the shadow, which is the
outmost point abeam of the motion of the shadow over the ground at `q`, where `q` is the same for the motion over the ground at `M`.  If not, `A`
stays, and there is no such `q`, or none abeam for it, or the outmost point is more than `r` away. -/
theorem c115_limb (bba : ℝ) (M : V3) (vx0 vy0 : ℝ) (ab : Bool) (r : ℝ) (I : V3) (A : List ℝ) (hb : bba ≠ 0)
    (v : ℝ → ℝ → ℝ × ℝ) (hvd : v = overGround I.y vx0 vy0) (hv : ∀ x y, (x = M.x ∧ y = M.y) ∨ OnOvl 1 bba x y → (v x y).1 ≠ 0 ∨ (v x y).2 ≠ 0) :
    (∃ p q : ℝ × ℝ, Outmost bba M (v M.x M.y) ab q ∧ Outmost bba M (v q.1 q.2) ab p ∧ √((p.1 - M.x) ^ 2 + (p.2 - M.y) ^ 2) ≤ r ∧
      ∃ J W, mDian bba M vx0 vy0 ab r I A = (true, A ++ [J, W]) ∧ ∀ _ : (rotX I.y ⟨p.1, p.2, 0⟩).x ≠ 0 ∨ (rotX I.y ⟨p.1, p.2, 0⟩).y ≠ 0,
        -π < J ∧ J ≤ π ∧ -(π / 2) ≤ W ∧ W ≤ π / 2 ∧ ∃ μ : ℝ, 0 < μ ∧ AtPlace I ⟨μ * p.1, μ * p.2, 0⟩ J W) ∨
    mDian bba M vx0 vy0 ab r I A = (false, A) ∧
      ((∀ o, ¬ Abeam bba M (v M.x M.y) o) ∨ ∃ q : ℝ × ℝ, Outmost bba M (v M.x M.y) ab q ∧
        ((∀ o, ¬ Abeam bba M (v q.1 q.2) o) ∨ ∃ p : ℝ × ℝ, Outmost bba M (v q.1 q.2) ab p ∧ r < √((p.1 - M.x) ^ 2 + (p.2 - M.y) ^ 2))) := by
  subst hvd
  have L1 := limbRound_ok bba M vx0 vy0 ab I.y M.x M.y hb (hv _ _ (Or.inl ⟨rfl, rfl⟩))
  rcases e1 : limbRound bba M vx0 vy0 ab I.y M.x M.y with _ | ⟨qx, qy, q3⟩
  · refine Or.inr ⟨?_, Or.inl (L1.1 e1)⟩
    unfold mDian
    rw [e1]
  · have hq := (L1.2 (qx, qy) q3 e1).1
    have L2 := limbRound_ok bba M vx0 vy0 ab I.y qx qy hb (hv _ _ (Or.inr hq.1.1))
    rcases e2 : limbRound bba M vx0 vy0 ab I.y qx qy with _ | ⟨px, py, R⟩
    · refine Or.inr ⟨?_, Or.inr ⟨(qx, qy), hq, Or.inl (L2.1 e2)⟩⟩
      unfold mDian
      rw [e1]
      simp only [e2]
    · obtain ⟨hp, hR⟩ := L2.2 (px, py) R e2
      by_cases h : R ≤ r
      · refine Or.inl ⟨(px, py), (qx, qy), hq, hp, by rw [← hR]; exact h, (bse2db ⟨px, py, 0⟩ I true).1, (bse2db ⟨px, py, 0⟩ I true).2, ?_,
          fun hpole => c83_limb px py I _ _ rfl ?_ hpole⟩
        · unfold mDian
          rw [e1]
          simp only [e2]
          rw [if_pos h, List.append_assoc]
          rfl
        · by_contra hc
          push Not at hc
          have := hp.1.1
          unfold OnOvl at this
          simp only at this
          rw [hc.1, hc.2] at this
          norm_num at this
      · refine Or.inr ⟨?_, Or.inr ⟨(qx, qy), hq, Or.inr ⟨(px, py), hp, by rw [← hR]; exact not_le.1 h⟩⟩⟩
        unfold mDian
        rw [e1]
        simp only [e2]
        rw [if_neg h]

/-- the shadow crosses the middle of the Earth at 100 radii of the Earth per day -/
example : ∀ x y : ℝ, (x = 0 ∧ y = 0) ∨ OnOvl 1 1 x y → (overGround 0 100 0 x y).1 ≠ 0 ∨ (overGround 0 100 0 x y).2 ≠ 0 := by
  intro x y h
  refine Or.inl (ne_of_gt ?_)
  unfold overGround
  simp only [sin_zero, cos_zero, zero_mul, one_mul, zero_sub]
  have hy : -1 ≤ y := by
    rcases h with h | h
    · rw [h.2]; norm_num
    · unfold OnOvl at h
      nlinarith [sq_nonneg x]
  nlinarith [pi_pos, pi_le_four]

end Verif.Geom
