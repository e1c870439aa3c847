import Verif.Props.ApsidesTimes
import Verif.Props.Geom
import Mathlib.Analysis.Real.Pi.Bounds
import Verif.Props.LonNear

/-!
# C93: nodes of the moon, conjunctions and oppositions; the instances of C92 and C93
-/

namespace Verif.Apsides

open Real

variable {f f1 f2 : ℝ → ℝ} {z ρ C m M : ℝ}

/-- the curve crosses 0 upwards at `z`: slope at least `m` within `ρ` of it and changing by at most `C` per unit of time.  A downward crossing is an upward one of `-f`. -/
structure Cross (f f1 : ℝ → ℝ) (z ρ C m : ℝ) : Prop where
  d1 : ∀ x, |x - z| ≤ ρ → HasDerivAt f (f1 x) x
  lip : ∀ x y, |x - z| ≤ ρ → |y - z| ≤ ρ → |f1 x - f1 y| ≤ C * |x - y|
  zero : f z = 0
  low : ∀ x, |x - z| ≤ ρ → m ≤ f1 x
  nonneg : 0 ≤ C

theorem Cross.taylor (h : Cross f f1 z ρ C m) {x d : ℝ} (hx : |x - z| ≤ ρ) (hxh : |x + d - z| ≤ ρ) : |f (x + d) - f x - f1 x * d| ≤ C * d ^ 2 / 2 := by
  have := grow (φ := fun s => f (x + s * d) - f x - f1 x * (s * d)) (φ' := fun s => (f1 (x + s * d) - f1 x) * d) (B := fun s => C * d ^ 2 * s ^ 2 / 2) (B' := fun s => C * d ^ 2 * s)
    (h := 1) (by norm_num) ?_ ?_ (by simp) (by simp) ?_
  · simpa using this
  · intro s a b
    have e1 : HasDerivAt (fun s : ℝ => x + s * d) d s := by simpa using ((hasDerivAt_id s).mul_const d).const_add x
    have e2 := (h.d1 (x + s * d) (between hx hxh a b)).comp s e1
    have e3 : HasDerivAt (fun s : ℝ => f1 x * (s * d)) (f1 x * d) s := by simpa using ((hasDerivAt_id s).mul_const d).const_mul (f1 x)
    exact ((e2.sub_const (f x)).sub e3).congr_deriv (by ring)
  · intro s
    exact (((hasDerivAt_pow 2 s).const_mul (C * d ^ 2)).div_const 2).congr_deriv (by norm_num; ring)
  · intro s a b
    rw [abs_mul]
    have l := h.lip (x + s * d) x (between hx hxh a b) hx
    rw [add_sub_cancel_left, abs_mul, abs_of_nonneg a] at l
    calc |f1 (x + s * d) - f1 x| * |d| ≤ C * (s * |d|) * |d| := mul_le_mul_of_nonneg_right l (abs_nonneg _)
      _ = C * d ^ 2 * s := by rw [← sq_abs d]; ring

/-- what one correction `t - g(t) / v` leaves: `u` away at the start, the speed wrong by `κ`, the value by `ε` -/
noncomputable def rest (C m κ ε u : ℝ) : ℝ := (C * u ^ 2 / 2 + u * κ + ε) / (m - κ)

/-- one correction with any speed -/
theorem Cross.step (h : Cross f f1 z ρ C m) {s : ℝ} (hs : s = 1 ∨ s = -1) {w v t u κ ε : ℝ} (hu : |t - z| ≤ u) (hρ : u ≤ ρ) (hv : |s * v - f1 t| ≤ κ) (hw : |s * w - f t| ≤ ε)
    (hκ : κ < m) : |t - w / v - z| ≤ rest C m κ ε u := by
  have hu0 : 0 ≤ u := (abs_nonneg _).trans hu
  have ht : |t - z| ≤ ρ := hu.trans hρ
  have hz0 : |z - z| ≤ ρ := by rw [sub_self, abs_zero]; linarith
  have T := h.taylor (d := z - t) ht (by rw [add_sub_cancel]; exact hz0)
  rw [add_sub_cancel, h.zero] at T
  obtain ⟨V, hV⟩ : ∃ V, V = s * v := ⟨_, rfl⟩
  obtain ⟨W, hW⟩ : ∃ W, W = s * w := ⟨_, rfl⟩
  have hq : w / v = W / V := by
    rw [hV, hW]
    rcases hs with rfl | rfl
    · rw [one_mul, one_mul]
    · rw [neg_one_mul, neg_one_mul, neg_div_neg_eq]
  rw [← hV] at hv
  rw [← hW] at hw
  have hVm : m - κ ≤ V := by linarith [(abs_le.1 hv).1, h.low t ht]
  have hV0 : 0 < V := by linarith
  have e : t - w / v - z = ((t - z) * V - W) / V := by rw [hq]; field_simp; ring
  rw [e, abs_div, abs_of_pos hV0]
  have e2 : (t - z) * V - W = (t - z) * (V - f1 t) + (0 - f t - f1 t * (z - t)) - (W - f t) := by ring
  have b1 : |(t - z) * (V - f1 t)| ≤ u * κ := by rw [abs_mul]; exact mul_le_mul hu hv (abs_nonneg _) hu0
  have b2 : |0 - f t - f1 t * (z - t)| ≤ C * u ^ 2 / 2 := by
    refine T.trans ?_
    have : (z - t) ^ 2 ≤ u ^ 2 := by rw [← sq_abs (z - t), abs_sub_comm]; exact pow_le_pow_left₀ (abs_nonneg _) hu 2
    have := mul_le_mul_of_nonneg_left this h.nonneg
    linarith
  have num : |(t - z) * V - W| ≤ C * u ^ 2 / 2 + u * κ + ε := by
    rw [e2]
    have a1 := abs_le.1 b1
    have a2 := abs_le.1 b2
    have a3 := abs_le.1 hw
    rw [abs_le]
    constructor <;> linarith [a1.1, a1.2, a2.1, a2.2, a3.1, a3.2]
  exact div_le_div₀ ((abs_nonneg _).trans num) num (by linarith) hVm

/-- the speed from two values `dt` apart is wrong by at most this -/
noncomputable def wrong (C dt ε : ℝ) : ℝ := C * dt / 2 + 2 * ε / dt

theorem Cross.speed (h : Cross f f1 z ρ C m) {s : ℝ} {g : ℝ → ℝ} {t dt u ε : ℝ} (hdt : 0 < dt) (hu : |t - z| ≤ u) (hρ : u + dt ≤ ρ) (hg : ∀ x, |x - z| ≤ ρ → |s * g x - f x| ≤ ε) :
    |s * ((g (t + dt) - g t) / dt) - f1 t| ≤ wrong C dt ε := by
  obtain ⟨u1, u2⟩ := abs_le.1 hu
  have ht : |t - z| ≤ ρ := by linarith
  have hp : |t + dt - z| ≤ ρ := by rw [abs_le]; constructor <;> linarith
  have T := abs_le.1 (h.taylor (d := dt) ht hp)
  have g1 := abs_le.1 (hg t ht)
  have g2 := abs_le.1 (hg _ hp)
  have e : s * ((g (t + dt) - g t) / dt) - f1 t = ((s * g (t + dt) - f (t + dt)) - (s * g t - f t) + (f (t + dt) - f t - f1 t * dt)) / dt := by
    field_simp
    ring
  have e' : wrong C dt ε = (2 * ε + C * dt ^ 2 / 2) / dt := by unfold wrong; field_simp; ring
  rw [e, e', abs_div, abs_of_pos hdt]
  refine div_le_div_of_nonneg_right ?_ hdt.le
  rw [abs_le]
  constructor <;> linarith [T.1, T.2, g1.1, g1.2, g2.1, g2.2]

/-! ## Nodes of the moon -/

/-- the mean ascending (`asc`) or descending node number `k` — eph0.cpp:697-702 -/
noncomputable def meanNode (asc : Bool) (k : ℤ) : ℝ := (if asc then 21 / 36525 else 35 / 36525) + 27.21222082 / 36525 * k

theorem moonNode_near {B B1 : ℝ → ℝ} {w : ℤ → ℝ → ℝ} {l : ℝ → ℝ} {asc : Bool} {z : ℤ → ℝ} {ε₁ ε₂ ε₃ u u₁ u₂ : ℝ}
    (hB : ∀ k, Cross B B1 (z k) ρ C m) (hz : ∀ k, |meanNode asc k - z k| ≤ u)
    (c₁ : ∀ k x, |x - z k| ≤ ρ → |sign asc * w 10 x - B x| ≤ ε₁) (c₂ : ∀ k x, |x - z k| ≤ ρ → |sign asc * w 40 x - B x| ≤ ε₂)
    (c₃ : ∀ k x, |x - z k| ≤ ρ → |sign asc * w (-1) x - B x| ≤ ε₃)
    (hu₁ : u₁ = rest C m (wrong C (0.5 / 36525) ε₁) ε₁ u) (hu₂ : u₂ = rest C m (wrong C (0.05 / 36525) ε₂) ε₂ u₁)
    (r₁ : u + 0.5 / 36525 ≤ ρ) (r₂ : u₁ + 0.05 / 36525 ≤ ρ) (r₃ : u₂ ≤ ρ)
    (q₁ : wrong C (0.5 / 36525) ε₁ < m) (q₂ : wrong C (0.05 / 36525) ε₂ < m) (q₃ : wrong C (0.05 / 36525) ε₂ + C * (u₁ + u₂) < m) (t : ℝ) :
    ∃ k, |t - meanNode asc k| ≤ 27.21222082 / 36525 / 2 ∧ |(moonNode w l t asc).1 - z k| ≤ rest C m (wrong C (0.05 / 36525) ε₂ + C * (u₁ + u₂)) ε₃ u₂ ∧
      (moonNode w l t asc).2 = l (moonNode w l t asc).1 := by
  obtain ⟨k, e, b⟩ := nearest_is (a := 27.21222082 / 36525) (b := if asc then 21 / 36525 else 35 / 36525) (t := t) (by norm_num)
  refine ⟨k, b, ?_, rfl⟩
  obtain ⟨t0, h0⟩ : ∃ x, x = nearest (27.21222082 / 36525) (if asc then 21 / 36525 else 35 / 36525) t := ⟨_, rfl⟩
  obtain ⟨t1, h1⟩ : ∃ x, x = secant (w 10) t0 (0.5 / 36525) := ⟨_, rfl⟩
  obtain ⟨v, hv⟩ : ∃ x, x = (w 40 (t1 + 0.05 / 36525) - w 40 t1) / (0.05 / 36525) := ⟨_, rfl⟩
  obtain ⟨t2, h2⟩ : ∃ x, x = t1 - w 40 t1 / v := ⟨_, rfl⟩
  have e3 : (moonNode w l t asc).1 = t2 - w (-1) t2 / v := by
    rw [h2, hv, h1, h0]; rfl
  have H := hB k
  have a0 : |t0 - z k| ≤ u := by rw [h0, e]; exact hz k
  have p1 : (0 : ℝ) < 0.5 / 36525 := by norm_num
  have a1 : |t1 - z k| ≤ u₁ := by
    rw [h1, hu₁]
    exact H.step (sign_or asc) a0 (by linarith) (H.speed p1 a0 r₁ (c₁ k)) (c₁ k _ (a0.trans (by linarith))) q₁
  have p2 : (0 : ℝ) < 0.05 / 36525 := by norm_num
  have i1 : |t1 - z k| ≤ ρ := by linarith
  have sp : |sign asc * v - B1 t1| ≤ wrong C (0.05 / 36525) ε₂ := by rw [hv]; exact H.speed p2 a1 r₂ (c₂ k)
  have a2 : |t2 - z k| ≤ u₂ := by
    rw [h2, hu₂]
    exact H.step (sign_or asc) a1 (by linarith) sp (c₂ k _ i1) q₂
  have i2 : |t2 - z k| ≤ ρ := a2.trans r₃
  rw [e3]
  refine H.step (sign_or asc) a2 r₃ ?_ (c₃ k _ i2) q₃
  have l := H.lip t1 t2 i1 i2
  have d : |t1 - t2| ≤ u₁ + u₂ := by
    have := abs_le.1 a1
    have := abs_le.1 a2
    rw [abs_le]; constructor <;> linarith
  have l2 := abs_le.1 (l.trans (mul_le_mul_of_nonneg_left d H.nonneg))
  have := abs_le.1 sp
  rw [abs_le]
  constructor <;> linarith [l2.1, l2.2]

theorem moonNode_walk {w : ℤ → ℝ → ℝ} {l : ℝ → ℝ} {asc : Bool} (h : ∀ k, |(moonNode w l (meanNode asc k) asc).1 - meanNode asc k| ≤ 13.2 / 36525) (t : ℝ) :
    ∃ k : ℤ, |t - meanNode asc k| ≤ 27.21222082 / 36525 / 2 ∧
      ∀ n, walk (fun t => moonNode w l t asc) (27.555 / 36525) n t = (List.range n).map fun i : ℕ => moonNode w l (meanNode asc (k + i)) asc := by
  obtain ⟨k, e, b⟩ := nearest_is (a := 27.21222082 / 36525) (b := if asc then 21 / 36525 else 35 / 36525) (t := t) (by norm_num)
  refine ⟨k, b, fun n => ?_⟩
  refine walk_each (E := fun k => moonNode w l (meanNode asc k) asc) (by norm_num) (fun t k hk => ?_) h ?_ n t k e
  · have : nearest (27.21222082 / 36525) (if asc then 21 / 36525 else 35 / 36525) (meanNode asc k) = meanNode asc k :=
      nearest_eq (by norm_num) (by rw [meanNode, sub_self, abs_zero]; norm_num)
    show moonNode w l t asc = moonNode w l (meanNode asc k) asc
    unfold moonNode
    simp only []
    rw [this, hk]
    rfl
  · rw [abs_of_pos (by norm_num)]; norm_num

/-! ## Conjunction and opposition of a planet -/

/-- the rounds of `xingHR` after the mean search: the speed of the start serves both corrections -/
theorem hrRounds_near {A A1 : ℝ → ℝ} {sp : ℤ → ℝ → ℝ → ℝ → ℝ × ℝ × ℝ × ℝ} {s t u u₁ ε₁ ε₂ ε₃ : ℝ} (hs : s = 1 ∨ s = -1) (hA : Cross A A1 z ρ C m) (ht : |t - z| ≤ u)
    (c₁ : ∀ x, |x - z| ≤ ρ → |s * (sp 8 0 0 x).1 - A x| ≤ ε₁)
    (c₂ : |s * (sp 40 (sp 8 0 0 t).2.2.1 (sp 8 0 0 t).2.2.2 t).1 - A t| ≤ ε₂)
    (c₃ : ∀ x a b, |x - z| ≤ ρ → (∃ y c d, |y - z| ≤ ρ ∧ (sp 40 c d y).2.2 = (a, b)) → |s * (sp (-1) a b x).1 - A x| ≤ ε₃)
    (hu₁ : u₁ = rest C m (wrong C 2e-5 ε₁) ε₂ u) (r₁ : u + 2e-5 ≤ ρ) (r₂ : u₁ ≤ ρ) (q₁ : wrong C 2e-5 ε₁ < m) (q₂ : wrong C 2e-5 ε₁ + C * (u + u₁) < m) :
    |(hrRounds sp t).1 - z| ≤ rest C m (wrong C 2e-5 ε₁ + C * (u + u₁)) ε₃ u₁ := by
  obtain ⟨v, hv⟩ : ∃ x, x = ((sp 8 0 0 (t + 2e-5)).1 - (sp 8 0 0 t).1) / 2e-5 := ⟨_, rfl⟩
  obtain ⟨a, ha⟩ : ∃ x, x = sp 40 (sp 8 0 0 t).2.2.1 (sp 8 0 0 t).2.2.2 t := ⟨_, rfl⟩
  obtain ⟨t1, h1⟩ : ∃ x, x = t - a.1 / v := ⟨_, rfl⟩
  have e : (hrRounds sp t).1 = t1 - (sp (-1) a.2.2.1 a.2.2.2 t1).1 / v := by rw [h1, ha, hv]; rfl
  have p0 : (0 : ℝ) < 2e-5 := by norm_num
  have i0 : |t - z| ≤ ρ := by linarith
  have S : |s * v - A1 t| ≤ wrong C 2e-5 ε₁ := by rw [hv]; exact hA.speed (g := fun x => (sp 8 0 0 x).1) (by norm_num) ht r₁ c₁
  have a1 : |t1 - z| ≤ u₁ := by
    rw [h1, hu₁]
    exact hA.step hs ht (by linarith) S (by rw [ha]; exact c₂) q₁
  have i1 := a1.trans r₂
  rw [e]
  refine hA.step hs a1 r₂ ?_ (c₃ _ _ _ i1 ⟨t, _, _, i0, by rw [← ha]⟩) q₂
  have l := hA.lip t t1 i0 i1
  have d : |t - t1| ≤ u + u₁ := by
    have := abs_le.1 a1
    have := abs_le.1 ht
    rw [abs_le]; constructor <;> linarith
  have l2 := abs_le.1 (l.trans (mul_le_mul_of_nonneg_left d hA.nonneg))
  have := abs_le.1 S
  rw [abs_le]
  constructor <;> linarith [l2.1, l2.2]

/-! ## The search with the mean speed -/

/-- the difference `D` of two longitudes goes through `w0` (a whole number `n` of turns away) at `z`, with a speed within a fraction `q` of `v` -/
structure Pass (D D1 : ℝ → ℝ) (w0 v z ρ q : ℝ) : Prop where
  d1 : ∀ x, |x - z| ≤ ρ → HasDerivAt D (D1 x) x
  at_z : ∃ n : ℤ, D z = w0 + 2 * π * n
  speed : ∀ x, |x - z| ≤ ρ → |D1 x - v| ≤ q * |v|
  nonneg : 0 ≤ q
  lt_one : q < 1
  v_ne : v ≠ 0
  /-- less than half a turn away from it -/
  half : (1 + q) * |v| * ρ < π

theorem Pass.one {D D1 : ℝ → ℝ} {w0 v q t : ℝ} (h : Pass D D1 w0 v z ρ q) (ht : |t - z| ≤ ρ) : |t - Verif.Geom.rrad (D t - w0) / v - z| ≤ q * |t - z| := by
  obtain ⟨n, hn⟩ := h.at_z
  have hρ : 0 ≤ ρ := (abs_nonneg _).trans ht
  have hz : |z - z| ≤ ρ := by rw [sub_self, abs_zero]; exact hρ
  -- the difference is nearly v·(t - z)
  have key : |D t - D z - v * (t - z)| ≤ q * |v| * |t - z| := by
    have := grow (φ := fun s => D (z + s * (t - z)) - D z - v * (s * (t - z))) (φ' := fun s => (D1 (z + s * (t - z)) - v) * (t - z)) (B := fun s => q * |v| * |t - z| * s)
      (B' := fun _ => q * |v| * |t - z|) (h := 1) (by norm_num) ?_ ?_ (by simp) (by simp) ?_
    · simpa using this
    · intro s a b
      have i := between (x := z) (h := t - z) hz (by rw [add_sub_cancel]; exact ht) a b
      have e1 : HasDerivAt (fun s : ℝ => z + s * (t - z)) (t - z) s := by simpa using ((hasDerivAt_id s).mul_const (t - z)).const_add z
      have e2 := (h.d1 _ i).comp s e1
      have e3 : HasDerivAt (fun s : ℝ => v * (s * (t - z))) (v * (t - z)) s := by simpa using ((hasDerivAt_id s).mul_const (t - z)).const_mul v
      exact ((e2.sub_const (D z)).sub e3).congr_deriv (by ring)
    · intro s
      simpa using (hasDerivAt_id s).const_mul (q * |v| * |t - z|)
    · intro s a b
      have i := between (x := z) (h := t - z) hz (by rw [add_sub_cancel]; exact ht) a b
      rw [abs_mul]
      exact mul_le_mul_of_nonneg_right (h.speed _ i) (abs_nonneg _)
  have size : |D t - D z| < π := by
    have e : D t - D z = (D t - D z - v * (t - z)) + v * (t - z) := by ring
    rw [e]
    refine lt_of_le_of_lt ((abs_add_le _ _).trans (add_le_add key (by rw [abs_mul]))) ?_
    have : q * |v| * |t - z| + |v| * |t - z| = (1 + q) * |v| * |t - z| := by ring
    rw [this]
    exact lt_of_le_of_lt (mul_le_mul_of_nonneg_left ht (mul_nonneg (by linarith [h.nonneg]) (abs_nonneg _))) h.half
  have r : Verif.Geom.rrad (D t - w0) = D t - D z := by
    refine Verif.Geom.c36_rrad_unique _ _ ⟨(abs_lt.1 size).1, (abs_lt.1 size).2.le⟩ (-n) ?_
    rw [hn]; push_cast; ring
  rw [r]
  have e : t - (D t - D z) / v - z = -(D t - D z - v * (t - z)) / v := by field_simp [h.v_ne]; ring
  have hv : 0 < |v| := abs_pos.2 h.v_ne
  rw [e, abs_div, abs_neg, div_le_iff₀ hv]
  calc _ ≤ q * |v| * |t - z| := key
    _ = q * |t - z| * |v| := by ring

/-- after `n` rounds the event is `qⁿ` times as far away -/
theorem Pass.rounds {D D1 : ℝ → ℝ} {w0 v q : ℝ} (h : Pass D D1 w0 v z ρ q) (n : ℕ) : ∀ {t : ℝ}, |t - z| ≤ ρ → |meanRounds D w0 v n t - z| ≤ q ^ n * |t - z| := by
  induction n with
  | zero => intro t _; rw [pow_zero, one_mul]; exact le_refl |t - z|
  | succ n ih =>
    intro t ht
    have h1 := h.one ht
    have h2 : |t - Verif.Geom.rrad (D t - w0) / v - z| ≤ ρ := by
      refine h1.trans ?_
      have := mul_le_mul_of_nonneg_right h.lt_one.le (abs_nonneg (t - z))
      linarith
    show |meanRounds D w0 v n (t - Verif.Geom.rrad (D t - w0) / v) - z| ≤ _
    refine (ih h2).trans ?_
    calc q ^ n * |t - Verif.Geom.rrad (D t - w0) / v - z| ≤ q ^ n * (q * |t - z|) := mul_le_mul_of_nonneg_left h1 (pow_nonneg h.nonneg n)
      _ = q ^ (n + 1) * |t - z| := by ring

/-- `xingHR`: from anywhere less than half a turn from the mean-orbit conjunction (opposition) `z₀` to the true one `z` -/
theorem xingHR_near {xt : ℕ} {D D1 A A1 : ℝ → ℝ} {sp : ℝ → ℤ → ℝ → ℝ → ℝ → ℝ × ℝ × ℝ × ℝ} {f : Bool} {s t z₀ ρ₀ q u u₁ ε₁ ε₂ ε₃ : ℝ}
    (hD : Pass D D1 (if f then 0 else π) (meanSpeed xt) z₀ ρ₀ q) (ht : |t - z₀| ≤ ρ₀) (hu : q ^ 6 * ρ₀ + |z₀ - z| ≤ u)
    (hs : s = 1 ∨ s = -1) (hA : Cross A A1 z ρ C m)
    (c₁ : ∀ x, |x - z| ≤ ρ → |s * (sp (if f then (if xt > 2 then π else 0) else 0) 8 0 0 x).1 - A x| ≤ ε₁)
    (c₂ : ∀ x y a b, |x - z| ≤ ρ → |y - z| ≤ ρ → (sp (if f then (if xt > 2 then π else 0) else 0) 8 0 0 y).2.2 = (a, b) →
      |s * (sp (if f then (if xt > 2 then π else 0) else 0) 40 a b x).1 - A x| ≤ ε₂)
    (c₃ : ∀ x a b, |x - z| ≤ ρ → (∃ y c d, |y - z| ≤ ρ ∧ (sp (if f then (if xt > 2 then π else 0) else 0) 40 c d y).2.2 = (a, b)) →
      |s * (sp (if f then (if xt > 2 then π else 0) else 0) (-1) a b x).1 - A x| ≤ ε₃)
    (hu₁ : u₁ = rest C m (wrong C 2e-5 ε₁) ε₂ u) (r₁ : u + 2e-5 ≤ ρ) (r₂ : u₁ ≤ ρ) (q₁ : wrong C 2e-5 ε₁ < m) (q₂ : wrong C 2e-5 ε₁ + C * (u + u₁) < m) :
    |(xingHR xt D sp t f).1 - z| ≤ rest C m (wrong C 2e-5 ε₁ + C * (u + u₁)) ε₃ u₁ := by
  have a0 := hD.rounds 6 ht
  have a1 : |meanRounds D (if f then 0 else π) (meanSpeed xt) 6 t - z| ≤ u := by
    have e := abs_add_le (meanRounds D (if f then 0 else π) (meanSpeed xt) 6 t - z₀) (z₀ - z)
    rw [sub_add_sub_cancel] at e
    have := mul_le_mul_of_nonneg_left ht (pow_nonneg hD.nonneg 6)
    linarith
  have p0 : (0 : ℝ) < 2e-5 := by norm_num
  have i0 : |meanRounds D (if f then 0 else π) (meanSpeed xt) 6 t - z| ≤ ρ := by linarith
  exact hrRounds_near hs hA a1 c₁ (c₂ _ _ _ _ i0 i0 rfl) c₃ hu₁ r₁ r₂ q₁ q₂

/-- `xingLiu`: from anywhere less than half a turn from the opposition (lower conjunction) `z₀`, the station after (before) it -/
theorem xingLiu_near {xt : ℕ} {D D1 R R1 R2 : ℝ → ℝ} {v : ℤ → ℝ → ℝ → Verif.Geom.V3} {sn : Bool} {s agx t z₀ ρ₀ q u η₁ η₂ η₃ η₄ : ℝ}
    (hD : Pass D D1 0 (meanSpeed xt) z₀ ρ₀ q) (ht : |t - z₀| ≤ ρ₀)
    (hu : q ^ 6 * ρ₀ + |z₀ + (if sn = decide (xt > 2) then -1 else 1) * (toStation xt / 36525) - z| ≤ u)
    (hs1 : s = 1 ∨ s = -1) (hR : Dip R R1 R2 z ρ C m M)
    (c₁ : Close s (fun x => (v 8 0 x).x) R z ρ η₁ (5 / 36525)) (c₂ : Close s (fun x => (v 8 0 x).x) R z ρ η₂ (1 / 36525)) (c₃ : Close s (fun x => (v 8 0 x).x) R z ρ η₃ (0.5 / 36525))
    (c₄ : ∀ y, |y - z| ≤ ρ → Close s (fun x => (v (-1) ((v 8 0 y).z * agx) x).x) R z ρ η₄ 2e-6)
    (hs : Sizes C m (5 / 36525) (1 / 36525) (0.5 / 36525) η₁ η₂ η₃ u ρ) (q₄ : 0 < m - C * 2e-6 / 3 - 4 * η₄)
    (r₄ : left C m (0.5 / 36525) η₃ (left2 C m (5 / 36525) (1 / 36525) η₁ η₂ u) + 2e-6 ≤ ρ) :
    |xingLiu xt D v agx t sn - z| ≤ left C m 2e-6 η₄ (left C m (0.5 / 36525) η₃ (left2 C m (5 / 36525) (1 / 36525) η₁ η₂ u)) := by
  have a0 := hD.rounds 6 ht
  have a1 := a0.trans (mul_le_mul_of_nonneg_left ht (pow_nonneg hD.nonneg 6))
  obtain ⟨t0, h0⟩ : ∃ x, x = meanRounds D 0 (meanSpeed xt) 6 t := ⟨_, rfl⟩
  rw [← h0] at a1
  have b : |t0 + (if sn = decide (xt > 2) then -1 else 1) * (toStation xt / 36525) - z| ≤ u := by
    have e := abs_add_le (t0 - z₀) (z₀ + (if sn = decide (xt > 2) then -1 else 1) * (toStation xt / 36525) - z)
    have e2 : t0 - z₀ + (z₀ + (if sn = decide (xt > 2) then -1 else 1) * (toStation xt / 36525) - z) = t0 + (if sn = decide (xt > 2) then -1 else 1) * (toStation xt / 36525) - z := by ring
    rw [e2] at e
    linarith
  have e : xingLiu xt D v agx t sn = liuRounds v agx (t0 + (if sn = decide (xt > 2) then -1 else 1) * (toStation xt / 36525)) := by
    show liuRounds v agx (if sn = true then (if xt > 2 then meanRounds D 0 (meanSpeed xt) 6 t - toStation xt / 36525 else meanRounds D 0 (meanSpeed xt) 6 t + toStation xt / 36525)
      else (if xt > 2 then meanRounds D 0 (meanSpeed xt) 6 t + toStation xt / 36525 else meanRounds D 0 (meanSpeed xt) 6 t - toStation xt / 36525)) = _
    rw [← h0]
    congr 1
    cases sn <;> by_cases hx : xt > 2 <;> simp [hx, sub_eq_add_neg]
  rw [e]
  exact liuRounds_near hs1 hR b c₁ c₂ c₃ c₄ hs q₄ r₄

/-- `xingHY`: conjunction of the moon and a planet in right ascension -/
theorem xingHY_near {D D1 A A1 : ℝ → ℝ} {mp : ℝ → ℝ → ℤ → ℝ → ℝ × ℝ} {s t z₀ ρ₀ q u u₁ ε₁ ε₂ ε₃ : ℝ}
    (hD : Pass D D1 0 8192 z₀ ρ₀ q) (ht : |t - z₀| ≤ ρ₀) (hu : q ^ 3 * ρ₀ + |z₀ - z| ≤ u) (hs : s = 1 ∨ s = -1) (hA : Cross A A1 z ρ C m)
    (c : ∀ x₀ x₁ x, |x₀ - z₀| ≤ q ^ 2 * ρ₀ → |x₁ - z| ≤ u → |x - z| ≤ ρ →
      |s * (mp x₀ x₁ 8 x).1 - A x| ≤ ε₁ ∧ |s * (mp x₀ x₁ 30 x).1 - A x| ≤ ε₂ ∧ |s * (mp x₀ x₁ (-1) x).1 - A x| ≤ ε₃)
    (hu₁ : u₁ = rest C m (wrong C 1e-6 ε₁) ε₂ u) (r₁ : u + 1e-6 ≤ ρ) (r₂ : u₁ ≤ ρ) (q₁ : wrong C 1e-6 ε₁ < m) (q₂ : wrong C 1e-6 ε₁ + C * (u + u₁) < m) :
    |(xingHY D mp t).1 - z| ≤ rest C m (wrong C 1e-6 ε₁ + C * (u + u₁)) ε₃ u₁ := by
  obtain ⟨t2, h2⟩ : ∃ x, x = meanRounds D 0 8192 2 t := ⟨_, rfl⟩
  obtain ⟨t3, h3⟩ : ∃ x, x = meanRounds D 0 8192 3 t := ⟨_, rfl⟩
  have a2 : |t2 - z₀| ≤ q ^ 2 * ρ₀ := by rw [h2]; exact (hD.rounds 2 ht).trans (mul_le_mul_of_nonneg_left ht (pow_nonneg hD.nonneg 2))
  have a3 : |t3 - z| ≤ u := by
    have e := abs_add_le (t3 - z₀) (z₀ - z)
    rw [sub_add_sub_cancel] at e
    have : |t3 - z₀| ≤ q ^ 3 * ρ₀ := by rw [h3]; exact (hD.rounds 3 ht).trans (mul_le_mul_of_nonneg_left ht (pow_nonneg hD.nonneg 3))
    linarith
  obtain ⟨v, hv⟩ : ∃ x, x = ((mp t2 t3 8 (t3 + 1e-6)).1 - (mp t2 t3 8 t3).1) / 1e-6 := ⟨_, rfl⟩
  obtain ⟨t4, h4⟩ : ∃ x, x = t3 - (mp t2 t3 30 t3).1 / v := ⟨_, rfl⟩
  have e : (xingHY D mp t).1 = t4 - (mp t2 t3 (-1) t4).1 / v := by rw [h4, hv, h3, h2]; rfl
  have p0 : (0 : ℝ) < 1e-6 := by norm_num
  have i0 : |t3 - z| ≤ ρ := by linarith
  have S : |s * v - A1 t3| ≤ wrong C 1e-6 ε₁ := by
    rw [hv]; exact hA.speed (g := fun x => (mp t2 t3 8 x).1) p0 a3 r₁ (fun x hx => (c _ _ x a2 a3 hx).1)
  have a1 : |t4 - z| ≤ u₁ := by
    rw [h4, hu₁]
    exact hA.step hs a3 (by linarith) S (c _ _ _ a2 a3 i0).2.1 q₁
  have i1 := a1.trans r₂
  rw [e]
  refine hA.step hs a1 r₂ ?_ (c _ _ _ a2 a3 i1).2.2 q₂
  have l := hA.lip t3 t4 i0 i1
  have d : |t3 - t4| ≤ u + u₁ := by
    have := abs_le.1 a1
    have := abs_le.1 a3
    rw [abs_le]; constructor <;> linarith
  have l2 := abs_le.1 (l.trans (mul_le_mul_of_nonneg_left d hA.nonneg))
  have := abs_le.1 S
  rw [abs_le]
  constructor <;> linarith [l2.1, l2.2]

/-! ## Concrete cases -/

/-- speed of the mean anomaly -/
noncomputable def ω : ℝ := 2 * π / (27.55454988 / 36525)

theorem ω_bounds : 8328.6 < ω ∧ ω < 8328.8 := by
  unfold ω
  constructor
  · rw [lt_div_iff₀ (by norm_num)]; have := pi_gt_d6; norm_num at this ⊢; linarith
  · rw [div_lt_iff₀ (by norm_num)]; have := pi_lt_d6; norm_num at this ⊢; linarith

/-- a moon whose perigees fall 0.1 days after the mean ones -/
noncomputable def demoR (x : ℝ) : ℝ := 385000 - 20905 * cos (ω * (x - (-10.2302 / 36525)))

theorem demo_dip (k : ℤ) : Dip demoR (fun x => 20905 * ω * sin (ω * (x - (-10.2302 / 36525)))) (fun x => 20905 * ω ^ 2 * cos (ω * (x - (-10.2302 / 36525))))
    (meanMoon true k + 0.1 / 36525) (3 / 36525) 1.21e16 1.1e12 1.46e12 := by
  obtain ⟨w1, w2⟩ := ω_bounds
  have hw : 0 < ω := by linarith
  have lin : ∀ x : ℝ, HasDerivAt (fun x => ω * (x - (-10.2302 / 36525))) ω x := fun x => by
    simpa using ((hasDerivAt_id x).sub_const (-10.2302 / 36525)).const_mul ω
  have sq1 : 6.9365e7 ≤ ω ^ 2 := by nlinarith
  have sq2 : ω ^ 2 ≤ 6.9369e7 := by nlinarith
  have cub : 20905 * ω ^ 3 ≤ 1.21e16 := by
    have : ω ^ 3 = ω ^ 2 * ω := by ring
    rw [this]
    have := mul_le_mul sq2 w2.le hw.le (by norm_num)
    norm_num at this ⊢
    linarith
  -- the phase at the true perigee is a multiple of a whole turn
  have turn : ω * (meanMoon true k + 0.1 / 36525 - (-10.2302 / 36525)) = k * (2 * π) := by
    unfold meanMoon ω
    simp only [if_true]
    field_simp
    ring
  have phase : ∀ x : ℝ, cos (ω * (x - (-10.2302 / 36525))) = cos (ω * (x - (meanMoon true k + 0.1 / 36525))) := by
    intro x
    have : ω * (x - (-10.2302 / 36525)) = ω * (x - (meanMoon true k + 0.1 / 36525)) + k * (2 * π) := by rw [← turn]; ring
    rw [this, cos_add_int_mul_two_pi]
  refine { d1 := fun x _ => ?_, d2 := fun x _ => ?_, lip := fun x y _ _ => ?_, flat := ?_, low := fun x hx => ?_, high := fun x _ => ?_, nonneg := by norm_num }
  · exact ((((lin x).cos).const_mul 20905).const_sub 385000).congr_deriv (by ring)
  · exact (((lin x).sin).const_mul (20905 * ω)).congr_deriv (by ring)
  · have := Verif.Longitude.abs_cos_sub_cos (ω * (x - (-10.2302 / 36525))) (ω * (y - (-10.2302 / 36525)))
    rw [← mul_sub, abs_mul, abs_of_pos (by positivity : 0 < 20905 * ω ^ 2)]
    have e : ω * (x - (-10.2302 / 36525)) - ω * (y - (-10.2302 / 36525)) = ω * (x - y) := by ring
    rw [e, abs_mul, abs_of_pos hw] at this
    calc _ ≤ 20905 * ω ^ 2 * (ω * |x - y|) := mul_le_mul_of_nonneg_left this (by positivity)
      _ = 20905 * ω ^ 3 * |x - y| := by ring
      _ ≤ _ := mul_le_mul_of_nonneg_right cub (abs_nonneg _)
  · show 20905 * ω * sin (ω * (meanMoon true k + 0.1 / 36525 - (-10.2302 / 36525))) = 0
    rw [turn]
    have : sin (k * (2 * π)) = 0 := by
      have := sin_int_mul_pi (k * 2)
      push_cast at this
      rwa [mul_assoc] at this
    rw [this, mul_zero]
  · show (1.1e12 : ℝ) ≤ 20905 * ω ^ 2 * cos (ω * (x - (-10.2302 / 36525)))
    rw [phase]
    have c := one_sub_sq_div_two_le_cos (x := ω * (x - (meanMoon true k + 0.1 / 36525)))
    have s1 : (ω * (x - (meanMoon true k + 0.1 / 36525))) ^ 2 ≤ 0.47 := by
      rw [mul_pow, ← sq_abs (x - _)]
      have := pow_le_pow_left₀ (abs_nonneg _) hx 2
      have := mul_le_mul sq2 this (sq_nonneg _) (by norm_num)
      norm_num at this ⊢
      linarith
    have c2 : (0.765 : ℝ) ≤ cos (ω * (x - (meanMoon true k + 0.1 / 36525))) := by norm_num at s1 ⊢; linarith
    have := mul_le_mul sq1 c2 (by norm_num) (by positivity)
    norm_num at this ⊢
    linarith
  · show 20905 * ω ^ 2 * cos (ω * (x - (-10.2302 / 36525))) ≤ (1.46e12 : ℝ)
    have := mul_le_mul_of_nonneg_left (cos_le_one (ω * (x - (-10.2302 / 36525)))) (by positivity : 0 ≤ 20905 * ω ^ 2)
    norm_num at this sq2 ⊢
    linarith

/-- its series: the short ones are off by up to 3 km and 0.1 km -/
noncomputable def demoSeries (n : ℤ) (x : ℝ) : ℝ := if n = 10 then demoR x + 3 * sin (1000000 * x) else if n = 20 then demoR x - 0.1 * sin (1000000 * x) else demoR x

theorem demo_sizes : Sizes 1.21e16 1.1e12 (2 / 36525) (0.5 / 36525) (1200 / 86400 / 36525) 1.1e9 6e8 0 (0.1 / 36525) (3 / 36525) := by
  constructor <;> norm_num [left, left2]

/-- whatever the instant asked for, the perigee of this moon is found to within half a minute and 30 m -/
example (t : ℝ) : ∃ k, |t - meanMoon true k| ≤ 27.55454988 / 36525 / 2 ∧ |(moonMinR demoSeries t true).1 - (meanMoon true k + 0.1 / 36525)| ≤ 30 / 86400 / 36525 ∧
    |(moonMinR demoSeries t true).2 - (385000 - 20905)| ≤ 0.03 := by
  have sn : ∀ x : ℝ, |sin x| ≤ 1 := abs_sin_le_one
  obtain ⟨k, h⟩ := moonMinR_near (r := demoSeries) (min := true) (R := demoR) (z := fun k => meanMoon true k + 0.1 / 36525) (η₁ := 1.1e9) (η₂ := 6e8) (η₃ := 0) (u := 0.1 / 36525)
    demo_dip (fun k => by rw [sub_add_cancel_left, abs_neg, abs_of_pos (by norm_num)])
    (fun k => ⟨by norm_num, fun x _ => by
      have e : sign true * demoSeries 10 x - demoR x = 3 * sin (1000000 * x) := by simp [sign, demoSeries]
      rw [e, abs_mul, abs_of_pos (by norm_num : (0 : ℝ) < 3)]
      exact (mul_le_mul_of_nonneg_left (sn _) (by norm_num)).trans (by norm_num)⟩)
    (fun k => ⟨by norm_num, fun x _ => by
      have e : sign true * demoSeries 20 x - demoR x = -(0.1 * sin (1000000 * x)) := by simp [sign, demoSeries]
      rw [e, abs_neg, abs_mul, abs_of_pos (by norm_num : (0 : ℝ) < 0.1)]
      exact (mul_le_mul_of_nonneg_left (sn _) (by norm_num)).trans (by norm_num)⟩)
    (fun k => ⟨le_rfl, fun x _ => by
      have e : sign true * demoSeries (-1) x - demoR x = 0 := by simp [sign, demoSeries]
      rw [e, abs_zero, zero_mul]⟩)
    demo_sizes t
  refine ⟨k, h.mean, h.time.trans (by norm_num [left, left2]), ?_⟩
  have hv := h.value
  have e1 : demoR (meanMoon true k + 0.1 / 36525) = 385000 - 20905 := by
    have e : ω * (meanMoon true k + 0.1 / 36525 - (-10.2302 / 36525)) = k * (2 * π) := by
      unfold meanMoon ω
      simp only [if_true]
      field_simp
      ring
    unfold demoR
    rw [e, cos_int_mul_two_pi, mul_one]
  simp only [e1, sign, if_true, one_mul] at hv
  exact hv.trans (by norm_num [left, left2, off])

/-- speed of the argument of latitude -/
noncomputable def Ω : ℝ := 2 * π / (27.21222082 / 36525)

theorem Ω_bounds : 8433.3 < Ω ∧ Ω < 8433.6 := by
  unfold Ω
  constructor
  · rw [lt_div_iff₀ (by norm_num)]; have := pi_gt_d6; norm_num at this ⊢; linarith
  · rw [div_lt_iff₀ (by norm_num)]; have := pi_lt_d6; norm_num at this ⊢; linarith

/-- a moon whose ascending nodes fall 0.2 days after the mean ones -/
noncomputable def demoB (x : ℝ) : ℝ := 0.09 * sin (Ω * (x - 21.2 / 36525))

theorem demo_cross (k : ℤ) : Cross demoB (fun x => 0.09 * Ω * cos (Ω * (x - 21.2 / 36525))) (meanNode true k + 0.2 / 36525) (1.5 / 36525) 6.41e6 700 := by
  obtain ⟨w1, w2⟩ := Ω_bounds
  have hw : 0 < Ω := by linarith
  have lin : ∀ x : ℝ, HasDerivAt (fun x => Ω * (x - 21.2 / 36525)) Ω x := fun x => by
    simpa using ((hasDerivAt_id x).sub_const (21.2 / 36525)).const_mul Ω
  have sq2 : Ω ^ 2 ≤ 7.1126e7 := by nlinarith
  have turn : Ω * (meanNode true k + 0.2 / 36525 - 21.2 / 36525) = k * (2 * π) := by
    unfold meanNode Ω
    simp only [if_true]
    field_simp
    ring
  have phase : ∀ x : ℝ, cos (Ω * (x - 21.2 / 36525)) = cos (Ω * (x - (meanNode true k + 0.2 / 36525))) := by
    intro x
    have : Ω * (x - 21.2 / 36525) = Ω * (x - (meanNode true k + 0.2 / 36525)) + k * (2 * π) := by rw [← turn]; ring
    rw [this, cos_add_int_mul_two_pi]
  refine { d1 := fun x _ => ?_, lip := fun x y _ _ => ?_, zero := ?_, low := fun x hx => ?_, nonneg := by norm_num }
  · exact (((lin x).sin).const_mul 0.09).congr_deriv (by ring)
  · have := Verif.Longitude.abs_cos_sub_cos (Ω * (x - 21.2 / 36525)) (Ω * (y - 21.2 / 36525))
    rw [← mul_sub, abs_mul, abs_of_pos (by positivity : 0 < 0.09 * Ω)]
    have e : Ω * (x - 21.2 / 36525) - Ω * (y - 21.2 / 36525) = Ω * (x - y) := by ring
    rw [e, abs_mul, abs_of_pos hw] at this
    calc _ ≤ 0.09 * Ω * (Ω * |x - y|) := mul_le_mul_of_nonneg_left this (by positivity)
      _ = 0.09 * Ω ^ 2 * |x - y| := by ring
      _ ≤ _ := mul_le_mul_of_nonneg_right (by norm_num at sq2 ⊢; linarith) (abs_nonneg _)
  · show 0.09 * sin (Ω * (meanNode true k + 0.2 / 36525 - 21.2 / 36525)) = 0
    rw [turn]
    have : sin (k * (2 * π)) = 0 := by
      have := sin_int_mul_pi (k * 2)
      push_cast at this
      rwa [mul_assoc] at this
    rw [this, mul_zero]
  · show (700 : ℝ) ≤ 0.09 * Ω * cos (Ω * (x - 21.2 / 36525))
    rw [phase]
    have c := one_sub_sq_div_two_le_cos (x := Ω * (x - (meanNode true k + 0.2 / 36525)))
    have s1 : (Ω * (x - (meanNode true k + 0.2 / 36525))) ^ 2 ≤ 0.12 := by
      rw [mul_pow, ← sq_abs (x - _)]
      have := pow_le_pow_left₀ (abs_nonneg _) hx 2
      have := mul_le_mul sq2 this (sq_nonneg _) (by norm_num)
      norm_num at this ⊢
      linarith
    have c2 : (0.94 : ℝ) ≤ cos (Ω * (x - (meanNode true k + 0.2 / 36525))) := by norm_num at s1 ⊢; linarith
    have := mul_le_mul w1.le c2 (by norm_num) hw.le
    norm_num at this ⊢
    linarith

/-- whatever the instant asked for, the node is found to within a second -/
example (t : ℝ) (l : ℝ → ℝ) : ∃ k, |t - meanNode true k| ≤ 27.21222082 / 36525 / 2 ∧ |(moonNode (fun _ => demoB) l t true).1 - (meanNode true k + 0.2 / 36525)| ≤ 1 / 86400 / 36525 := by
  have ex : ∀ k : ℤ, ∀ x : ℝ, |x - (meanNode true k + 0.2 / 36525)| ≤ 1.5 / 36525 → |sign true * demoB x - demoB x| ≤ 0 := fun k x _ => by simp [sign]
  obtain ⟨k, h1, h2, -⟩ := moonNode_near (w := fun _ => demoB) (l := l) (asc := true) (B := demoB) (z := fun k => meanNode true k + 0.2 / 36525) (u := 0.2 / 36525)
    demo_cross (fun k => by rw [sub_add_cancel_left, abs_neg, abs_of_pos (by norm_num)]) ex ex ex rfl rfl
    (by norm_num) (by norm_num [rest, wrong]) (by norm_num [rest, wrong]) (by norm_num [wrong]) (by norm_num [wrong]) (by norm_num [rest, wrong]) t
  exact ⟨k, h1, h2.trans (by norm_num [rest, wrong])⟩

/-- and the rounds of the conjunction search from 0.2 days away to within 10 minutes -/
example : |(hrRounds (fun _ _ _ x => (demoB x, 0, 0, 0)) (meanNode true 7)).1 - (meanNode true 7 + 0.2 / 36525)| ≤ 600 / 86400 / 36525 := by
  refine (hrRounds_near (A := demoB) (s := 1) (u := 0.2 / 36525) (ε₁ := 0) (ε₂ := 0) (ε₃ := 0) (Or.inl rfl) (demo_cross 7) ?_ (fun x _ => ?_) ?_ (fun x _ _ _ _ => ?_) rfl
    (by norm_num) (by norm_num [rest, wrong]) (by norm_num [wrong]) (by norm_num [rest, wrong])).trans (by norm_num [rest, wrong])
  · rw [sub_add_cancel_left, abs_neg, abs_of_pos (by norm_num)]
  · simp
  · simp
  · simp

/-- Mars seen from the Earth, with an equation of the centre: six rounds with the mean speed bring the opposition a million times nearer -/
example : ∃ D : ℝ → ℝ, (∀ t, D t = meanSpeed 3 * t + 0.1 * sin (meanSpeed 3 * t)) ∧ ∀ t, |t - 0| ≤ 2.8 / |meanSpeed 3| → |meanRounds D 0 (meanSpeed 3) 6 t - 0| ≤ 0.1 ^ 6 * |t - 0| := by
  refine ⟨fun t => meanSpeed 3 * t + 0.1 * sin (meanSpeed 3 * t), fun _ => rfl, fun t ht => ?_⟩
  have hv : meanSpeed 3 ≠ 0 := by
    have e : meanSpeed 3 = -(2 * π / (780 / 36525)) := rfl
    rw [e]
    exact neg_ne_zero.2 (div_pos (by linarith [pi_pos]) (by norm_num)).ne'
  have hv' := abs_pos.2 hv
  refine Pass.rounds (ρ := 2.8 / |meanSpeed 3|) (D1 := fun t => meanSpeed 3 + 0.1 * (cos (meanSpeed 3 * t) * meanSpeed 3)) ⟨fun x _ => ?_, ⟨0, by simp⟩, fun x _ => ?_, by norm_num, by norm_num, hv, ?_⟩ 6 ht
  · have l : HasDerivAt (fun t : ℝ => meanSpeed 3 * t) (meanSpeed 3) x := by simpa using (hasDerivAt_id x).const_mul (meanSpeed 3)
    exact l.add ((l.sin).const_mul 0.1)
  · show |meanSpeed 3 + 0.1 * (cos (meanSpeed 3 * x) * meanSpeed 3) - meanSpeed 3| ≤ 0.1 * |meanSpeed 3|
    rw [add_sub_cancel_left, abs_mul, abs_mul, abs_of_pos (by norm_num : (0 : ℝ) < 0.1)]
    have := mul_le_mul_of_nonneg_right (abs_cos_le_one (meanSpeed 3 * x)) hv'.le
    linarith
  · have e : (1 + 0.1) * |meanSpeed 3| * (2.8 / |meanSpeed 3|) = 3.08 := by field_simp; norm_num
    rw [e]
    have := pi_gt_d6
    norm_num at this ⊢
    linarith

end Verif.Apsides
