import Verif.Props.Apsides

/-!
# C92: apsides and greatest elongations, from the mean event to the result
-/

namespace Verif.Apsides

open Real

variable {f f1 f2 : ℝ → ℝ} {z ρ C m M : ℝ}

/-- a curve with a dip at `z`: slope 0 there, curvature between `m` and `M` within `ρ` of it and changing by at most `C` per unit of time.  A peak is a dip of `-f`. -/
structure Dip (f f1 f2 : ℝ → ℝ) (z ρ C m M : ℝ) : Prop extends Smooth f f1 f2 z ρ C where
  flat : f1 z = 0
  low : ∀ x, |x - z| ≤ ρ → m ≤ f2 x
  high : ∀ x, |x - z| ≤ ρ → f2 x ≤ M
  nonneg : 0 ≤ C

/-- `z` is the only lowest point near by -/
theorem Dip.lowest (h : Dip f f1 f2 z ρ C m M) (hm : 0 < m) {x : ℝ} (hx : |x - z| ≤ ρ) (hne : x ≠ z) : f z < f x := by
  have hρ : 0 ≤ ρ := (abs_nonneg _).trans hx
  have hz : |z - z| ≤ ρ := by rw [sub_self, abs_zero]; exact hρ
  -- along the segment
  have key : ∀ d : ℝ, d ≠ 0 → |z + d - z| ≤ ρ → f z < f (z + d) := by
    intro d hd hzd
    have inn : ∀ s, 0 ≤ s → s ≤ 1 → |z + s * d - z| ≤ ρ := fun s a b => between hz hzd a b
    have e1 : ∀ s : ℝ, HasDerivAt (fun s : ℝ => z + s * d) d s := fun s => by simpa using ((hasDerivAt_id s).mul_const d).const_add z
    have slope : ∀ s, 0 < s → s ≤ 1 → 0 < f1 (z + s * d) * d := by
      intro s hs hs1
      have mono : StrictMonoOn (fun s => f1 (z + s * d) * d) (Set.Icc 0 1) := by
        refine strictMonoOn_of_deriv_pos (convex_Icc 0 1) (fun s hs => ?_) (fun s hs => ?_)
        · exact (((h.d2 _ (inn s hs.1 hs.2)).comp s (e1 s)).mul_const d).continuousAt.continuousWithinAt
        · rw [interior_Icc] at hs
          have := ((h.d2 _ (inn s hs.1.le hs.2.le)).comp s (e1 s)).mul_const d
          have e : deriv (fun s => f1 (z + s * d) * d) s = f2 (z + s * d) * d * d := this.deriv
          rw [e]
          have := h.low _ (inn s hs.1.le hs.2.le)
          have : 0 < d * d := mul_self_pos.2 hd
          nlinarith
      have := mono (Set.left_mem_Icc.2 zero_le_one) ⟨hs.le, hs1⟩ hs
      simpa [h.flat] using this
    have mono : StrictMonoOn (fun s => f (z + s * d)) (Set.Icc 0 1) := by
      refine strictMonoOn_of_deriv_pos (convex_Icc 0 1) (fun s hs => ?_) (fun s hs => ?_)
      · exact ((h.d1 _ (inn s hs.1 hs.2)).comp s (e1 s)).continuousAt.continuousWithinAt
      · rw [interior_Icc] at hs
        have := (h.d1 _ (inn s hs.1.le hs.2.le)).comp s (e1 s)
        have e : deriv (fun s => f (z + s * d)) s = f1 (z + s * d) * d := this.deriv
        rw [e]
        exact slope s hs.1 hs.2.le
    have := mono (Set.left_mem_Icc.2 zero_le_one) (Set.right_mem_Icc.2 zero_le_one) zero_lt_one
    simpa using this
  have := key (x - z) (sub_ne_zero.2 hne) (by rw [add_sub_cancel]; exact hx)
  rwa [add_sub_cancel] at this

/-- a series for the curve `f`, off by at most `η·dt²` where a round with step `dt` looks; `s` = 1 for a dip, -1 for a peak -/
def Close (s : ℝ) (g f : ℝ → ℝ) (z ρ η dt : ℝ) : Prop := 0 ≤ η ∧ ∀ x, |x - z| ≤ ρ → |s * g x - f x| ≤ η * dt ^ 2

theorem top_sign {s : ℝ} (hs : s = 1 ∨ s = -1) (g : ℝ → ℝ) (t dt : ℝ) : (three (fun x => s * g x) t dt).top dt = (three g t dt).top dt ∧
    (three (fun x => s * g x) t dt).value = s * (three g t dt).value := by
  rcases hs with rfl | rfl
  · have e : (fun x => 1 * g x) = g := by funext x; exact one_mul _
    rw [e, one_mul]; exact ⟨rfl, rfl⟩
  · simp only [neg_mul, one_mul]; exact ⟨top_neg g t dt, value_neg g t dt⟩

theorem Dip.round (h : Dip f f1 f2 z ρ C m M) {s : ℝ} (hs : s = 1 ∨ s = -1) {g : ℝ → ℝ} {t dt η u : ℝ} (hg : Close s g f z ρ η dt) (hdt : 0 < dt) (hu : |t - z| ≤ u)
    (hρ : u + dt ≤ ρ) (hpos : 0 < m - C * dt / 3 - 4 * η) :
    |(three g t dt).top dt - z| ≤ left C m dt η u ∧ |s * (three g t dt).value - f z| ≤ off C M dt η u (left C m dt η u) := by
  rw [← (top_sign hs g t dt).1, ← (top_sign hs g t dt).2]
  have hl := fun x (hx : |x - z| ≤ u) => h.low x (by linarith)
  have hh := fun x (hx : |x - z| ≤ u) => h.high x (by linarith)
  have hg' := fun x (hx : |x - z| ≤ u + dt) => hg.2 x (by linarith)
  exact ⟨top_near h.toSmooth h.flat hρ hdt hu h.nonneg hg.1 hl hpos hg', value_near h.toSmooth h.flat hρ hdt hu h.nonneg hg.1 hl hh hpos hg'⟩

/-- what is left after three rounds with steps `d₁ d₂ d₃` -/
noncomputable def left2 (C m d₁ d₂ η₁ η₂ u : ℝ) : ℝ := left C m d₂ η₂ (left C m d₁ η₁ u)

theorem Dip.rounds (h : Dip f f1 f2 z ρ C m M) {s : ℝ} (hs : s = 1 ∨ s = -1) {g₁ g₂ g₃ : ℝ → ℝ} {t d₁ d₂ d₃ η₁ η₂ η₃ u : ℝ} (hu : |t - z| ≤ u)
    (c₁ : Close s g₁ f z ρ η₁ d₁) (c₂ : Close s g₂ f z ρ η₂ d₂) (c₃ : Close s g₃ f z ρ η₃ d₃) (p₁ : 0 < d₁) (p₂ : 0 < d₂) (p₃ : 0 < d₃)
    (q₁ : 0 < m - C * d₁ / 3 - 4 * η₁) (q₂ : 0 < m - C * d₂ / 3 - 4 * η₂) (q₃ : 0 < m - C * d₃ / 3 - 4 * η₃)
    (r₁ : u + d₁ ≤ ρ) (r₂ : left C m d₁ η₁ u + d₂ ≤ ρ) (r₃ : left2 C m d₁ d₂ η₁ η₂ u + d₃ ≤ ρ) :
    |(three g₃ ((three g₂ ((three g₁ t d₁).top d₁) d₂).top d₂) d₃).top d₃ - z| ≤ left C m d₃ η₃ (left2 C m d₁ d₂ η₁ η₂ u) ∧
    |s * (three g₃ ((three g₂ ((three g₁ t d₁).top d₁) d₂).top d₂) d₃).value - f z| ≤
      off C M d₃ η₃ (left2 C m d₁ d₂ η₁ η₂ u) (left C m d₃ η₃ (left2 C m d₁ d₂ η₁ η₂ u)) := by
  have a1 := (h.round hs c₁ p₁ hu r₁ q₁).1
  have a2 := (h.round hs c₂ p₂ a1 r₂ q₂).1
  exact h.round hs c₃ p₃ a2 r₃ q₃

/-- +1 when the lowest value is wanted, -1 when the highest -/
noncomputable def sign (low : Bool) : ℝ := if low then 1 else -1

theorem sign_or (low : Bool) : sign low = 1 ∨ sign low = -1 := by cases low <;> simp [sign]

/-! ## The four searches -/

/-- the mean perigee (`min`) or apogee number `k` — eph0.cpp:668-672 -/
noncomputable def meanMoon (min : Bool) (k : ℤ) : ℝ := (if min then -10.3302 / 36525 else 3.4471 / 36525) + 27.55454988 / 36525 * k

/-- the mean perihelion or aphelion number `k` — eph0.cpp:721-725 -/
noncomputable def meanEarth (min : Bool) (k : ℤ) : ℝ := (if min then 1.7 / 36525 else 184.5 / 36525) + 365.25963586 / 36525 * k

/-- the mean eastern (`dx`) or western elongation number `k` of Mercury or Venus — eph.cpp:34-49 -/
noncomputable def meanElong (venus dx : Bool) (k : ℤ) : ℝ :=
  (if dx then (if venus then 382 / 36525 else 46 / 36525) else (if venus then 521 / 36525 else 87 / 36525)) + (if venus then 583.9213708245 / 36525 else 115.8774777586 / 36525) * k

/-- conditions on the sizes: curvature `m`, its change `C`, the series' errors `η`, the distance `u` of the true event from the mean one -/
structure Sizes (C m d₁ d₂ d₃ η₁ η₂ η₃ u ρ : ℝ) : Prop where
  q₁ : 0 < m - C * d₁ / 3 - 4 * η₁
  q₂ : 0 < m - C * d₂ / 3 - 4 * η₂
  q₃ : 0 < m - C * d₃ / 3 - 4 * η₃
  r₁ : u + d₁ ≤ ρ
  r₂ : left C m d₁ η₁ u + d₂ ≤ ρ
  r₃ : left2 C m d₁ d₂ η₁ η₂ u + d₃ ≤ ρ

/-- the result `e` of a search near `t`: instant and value next to the extremum of `f` that belongs to the mean event `k`, `t` being within half a period of that mean event -/
structure Found (f : ℝ → ℝ) (s : ℝ) (e : ℝ × ℝ) (z mean : ℝ) (t half δ ν : ℝ) : Prop where
  mean : |t - mean| ≤ half
  time : |e.1 - z| ≤ δ
  value : |s * e.2 - f z| ≤ ν

theorem moonMinR_near {R R1 R2 : ℝ → ℝ} {r : ℤ → ℝ → ℝ} {min : Bool} {z : ℤ → ℝ} {η₁ η₂ η₃ u : ℝ}
    (hR : ∀ k, Dip R R1 R2 (z k) ρ C m M) (hz : ∀ k, |meanMoon min k - z k| ≤ u)
    (c₁ : ∀ k, Close (sign min) (r 10) R (z k) ρ η₁ (2 / 36525)) (c₂ : ∀ k, Close (sign min) (r 20) R (z k) ρ η₂ (0.5 / 36525))
    (c₃ : ∀ k, Close (sign min) (r (-1)) R (z k) ρ η₃ (1200 / 86400 / 36525)) (hs : Sizes C m (2 / 36525) (0.5 / 36525) (1200 / 86400 / 36525) η₁ η₂ η₃ u ρ) (t : ℝ) :
    ∃ k, Found R (sign min) (moonMinR r t min) (z k) (meanMoon min k) t (27.55454988 / 36525 / 2)
      (left C m (1200 / 86400 / 36525) η₃ (left2 C m (2 / 36525) (0.5 / 36525) η₁ η₂ u))
      (off C M (1200 / 86400 / 36525) η₃ (left2 C m (2 / 36525) (0.5 / 36525) η₁ η₂ u) (left C m (1200 / 86400 / 36525) η₃ (left2 C m (2 / 36525) (0.5 / 36525) η₁ η₂ u))) := by
  obtain ⟨k, e, b⟩ := nearest_is (a := 27.55454988 / 36525) (b := if min then -10.3302 / 36525 else 3.4471 / 36525) (t := t) (by norm_num)
  have hk := hz k
  have := (hR k).rounds (sign_or min) (t := nearest (27.55454988 / 36525) (if min then -10.3302 / 36525 else 3.4471 / 36525) t) (by rw [e]; exact hk)
    (c₁ k) (c₂ k) (c₃ k) (by norm_num) (by norm_num) (by norm_num) hs.q₁ hs.q₂ hs.q₃ hs.r₁ hs.r₂ hs.r₃
  exact ⟨k, b, this.1, this.2⟩

theorem earthMinR_near {R R1 R2 : ℝ → ℝ} {r : ℤ → ℝ → ℝ} {min : Bool} {z : ℤ → ℝ} {η₁ η₂ η₃ u : ℝ}
    (hR : ∀ k, Dip R R1 R2 (z k) ρ C m M) (hz : ∀ k, |meanEarth min k - z k| ≤ u)
    (c₁ : ∀ k, Close (sign min) (r 10) R (z k) ρ η₁ (3 / 36525)) (c₂ : ∀ k, Close (sign min) (r 80) R (z k) ρ η₂ (0.2 / 36525))
    (c₃ : ∀ k, Close (sign min) (r (-1)) R (z k) ρ η₃ (0.01 / 36525)) (hs : Sizes C m (3 / 36525) (0.2 / 36525) (0.01 / 36525) η₁ η₂ η₃ u ρ) (t : ℝ) :
    ∃ k, Found R (sign min) (earthMinR r t min) (z k) (meanEarth min k) t (365.25963586 / 36525 / 2)
      (left C m (0.01 / 36525) η₃ (left2 C m (3 / 36525) (0.2 / 36525) η₁ η₂ u))
      (off C M (0.01 / 36525) η₃ (left2 C m (3 / 36525) (0.2 / 36525) η₁ η₂ u) (left C m (0.01 / 36525) η₃ (left2 C m (3 / 36525) (0.2 / 36525) η₁ η₂ u))) := by
  obtain ⟨k, e, b⟩ := nearest_is (a := 365.25963586 / 36525) (b := if min then 1.7 / 36525 else 184.5 / 36525) (t := t) (by norm_num)
  have hk := hz k
  have := (hR k).rounds (sign_or min) (t := nearest (365.25963586 / 36525) (if min then 1.7 / 36525 else 184.5 / 36525) t) (by rw [e]; exact hk)
    (c₁ k) (c₂ k) (c₃ k) (by norm_num) (by norm_num) (by norm_num) hs.q₁ hs.q₂ hs.q₃ hs.r₁ hs.r₂ hs.r₃
  exact ⟨k, b, this.1, this.2⟩

/-- the elongation is greatest: a dip of its negative, whether eastern or western -/
theorem daJu_near {R R1 R2 : ℝ → ℝ} {r : ℕ → ℝ → ℝ} {venus dx : Bool} {z : ℤ → ℝ} {η₁ η₂ η₃ u : ℝ}
    (hR : ∀ k, Dip R R1 R2 (z k) ρ C m M) (hz : ∀ k, |meanElong venus dx k - z k| ≤ u)
    (c₁ : ∀ k, Close (-1) (r 0) R (z k) ρ η₁ ((if venus then 4 else 2) / 36525)) (c₂ : ∀ k, Close (-1) (r 1) R (z k) ρ η₂ (0.2 / 36525))
    (c₃ : ∀ k, Close (-1) (r 2) R (z k) ρ η₃ (0.01 / 36525)) (hs : Sizes C m ((if venus then 4 else 2) / 36525) (0.2 / 36525) (0.01 / 36525) η₁ η₂ η₃ u ρ) (t : ℝ) :
    ∃ k, Found R (-1) (daJu venus r t dx) (z k) (meanElong venus dx k) t ((if venus then 583.9213708245 / 36525 else 115.8774777586 / 36525) / 2)
      (left C m (0.01 / 36525) η₃ (left2 C m ((if venus then 4 else 2) / 36525) (0.2 / 36525) η₁ η₂ u))
      (off C M (0.01 / 36525) η₃ (left2 C m ((if venus then 4 else 2) / 36525) (0.2 / 36525) η₁ η₂ u)
        (left C m (0.01 / 36525) η₃ (left2 C m ((if venus then 4 else 2) / 36525) (0.2 / 36525) η₁ η₂ u))) := by
  cases venus <;> cases dx
  · obtain ⟨k, e, b⟩ := nearest_is (a := 115.8774777586 / 36525) (b := 87 / 36525) (t := t) (by norm_num)
    have := (hR k).rounds (Or.inr rfl) (t := nearest (115.8774777586 / 36525) (87 / 36525) t) (by rw [e]; exact hz k)
      (c₁ k) (c₂ k) (c₃ k) (by norm_num) (by norm_num) (by norm_num) hs.q₁ hs.q₂ hs.q₃ hs.r₁ hs.r₂ hs.r₃
    exact ⟨k, b, this.1, this.2⟩
  · obtain ⟨k, e, b⟩ := nearest_is (a := 115.8774777586 / 36525) (b := 46 / 36525) (t := t) (by norm_num)
    have := (hR k).rounds (Or.inr rfl) (t := nearest (115.8774777586 / 36525) (46 / 36525) t) (by rw [e]; exact hz k)
      (c₁ k) (c₂ k) (c₃ k) (by norm_num) (by norm_num) (by norm_num) hs.q₁ hs.q₂ hs.q₃ hs.r₁ hs.r₂ hs.r₃
    exact ⟨k, b, this.1, this.2⟩
  · obtain ⟨k, e, b⟩ := nearest_is (a := 583.9213708245 / 36525) (b := 521 / 36525) (t := t) (by norm_num)
    have := (hR k).rounds (Or.inr rfl) (t := nearest (583.9213708245 / 36525) (521 / 36525) t) (by rw [e]; exact hz k)
      (c₁ k) (c₂ k) (c₃ k) (by norm_num) (by norm_num) (by norm_num) hs.q₁ hs.q₂ hs.q₃ hs.r₁ hs.r₂ hs.r₃
    exact ⟨k, b, this.1, this.2⟩
  · obtain ⟨k, e, b⟩ := nearest_is (a := 583.9213708245 / 36525) (b := 382 / 36525) (t := t) (by norm_num)
    have := (hR k).rounds (Or.inr rfl) (t := nearest (583.9213708245 / 36525) (382 / 36525) t) (by rw [e]; exact hz k)
      (c₁ k) (c₂ k) (c₃ k) (by norm_num) (by norm_num) (by norm_num) hs.q₁ hs.q₂ hs.q₃ hs.r₁ hs.r₂ hs.r₃
    exact ⟨k, b, this.1, this.2⟩

/-- the stationary point of a planet: right ascension turns.  Four rounds, the last with the light time of the third -/
theorem liuRounds_near {R R1 R2 : ℝ → ℝ} {v : ℤ → ℝ → ℝ → Verif.Geom.V3} {s agx t u η₁ η₂ η₃ η₄ : ℝ} (hs1 : s = 1 ∨ s = -1) (hR : Dip R R1 R2 z ρ C m M) (ht : |t - z| ≤ u)
    (c₁ : Close s (fun x => (v 8 0 x).x) R z ρ η₁ (5 / 36525)) (c₂ : Close s (fun x => (v 8 0 x).x) R z ρ η₂ (1 / 36525)) (c₃ : Close s (fun x => (v 8 0 x).x) R z ρ η₃ (0.5 / 36525))
    (c₄ : ∀ y, |y - z| ≤ ρ → Close s (fun x => (v (-1) ((v 8 0 y).z * agx) x).x) R z ρ η₄ 2e-6)
    (hs : Sizes C m (5 / 36525) (1 / 36525) (0.5 / 36525) η₁ η₂ η₃ u ρ) (q₄ : 0 < m - C * 2e-6 / 3 - 4 * η₄)
    (r₄ : left C m (0.5 / 36525) η₃ (left2 C m (5 / 36525) (1 / 36525) η₁ η₂ u) + 2e-6 ≤ ρ) :
    |liuRounds v agx t - z| ≤ left C m 2e-6 η₄ (left C m (0.5 / 36525) η₃ (left2 C m (5 / 36525) (1 / 36525) η₁ η₂ u)) := by
  have a1 := (hR.round hs1 c₁ (by norm_num) ht hs.r₁ hs.q₁).1
  have a2 := (hR.round hs1 c₂ (by norm_num) a1 hs.r₂ hs.q₂).1
  have a3 := (hR.round hs1 c₃ (by norm_num) a2 hs.r₃ hs.q₃).1
  have c := c₄ _ (a2.trans (by have := hs.r₃; have e : (0 : ℝ) < 0.5 / 36525 := by norm_num
                               unfold left2 at this; linarith))
  exact (hR.round hs1 c (by norm_num) a3 r₄ q₄).1

/-! ## The list of events -/

theorem moonMinR_walk {r : ℤ → ℝ → ℝ} {min : Bool} (h : ∀ k, |(moonMinR r (meanMoon min k) min).1 - meanMoon min k| ≤ 13.7 / 36525) (t : ℝ) :
    ∃ k : ℤ, |t - meanMoon min k| ≤ 27.55454988 / 36525 / 2 ∧
      ∀ n, walk (fun t => moonMinR r t min) (27.555 / 36525) n t = (List.range n).map fun i : ℕ => moonMinR r (meanMoon min (k + i)) min := by
  obtain ⟨k, e, b⟩ := nearest_is (a := 27.55454988 / 36525) (b := if min then -10.3302 / 36525 else 3.4471 / 36525) (t := t) (by norm_num)
  refine ⟨k, b, fun n => ?_⟩
  refine walk_each (E := fun k => moonMinR r (meanMoon min k) min) (by norm_num) (fun t k hk => ?_) h ?_ n t k e
  · have : nearest (27.55454988 / 36525) (if min then -10.3302 / 36525 else 3.4471 / 36525) (meanMoon min k) = meanMoon min k :=
      nearest_eq (by norm_num) (by rw [meanMoon, sub_self, abs_zero]; norm_num)
    show moonMinR r t min = moonMinR r (meanMoon min k) min
    unfold moonMinR
    simp only []
    rw [this, hk]
    rfl
  · rw [abs_of_pos (by norm_num)]; norm_num

theorem earthMinR_walk {r : ℤ → ℝ → ℝ} {min : Bool} (h : ∀ k, |(earthMinR r (meanEarth min k) min).1 - meanEarth min k| ≤ 182 / 36525) (t : ℝ) :
    ∃ k : ℤ, |t - meanEarth min k| ≤ 365.25963586 / 36525 / 2 ∧
      ∀ n, walk (fun t => earthMinR r t min) (365.259636 / 36525) n t = (List.range n).map fun i : ℕ => earthMinR r (meanEarth min (k + i)) min := by
  obtain ⟨k, e, b⟩ := nearest_is (a := 365.25963586 / 36525) (b := if min then 1.7 / 36525 else 184.5 / 36525) (t := t) (by norm_num)
  refine ⟨k, b, fun n => ?_⟩
  refine walk_each (E := fun k => earthMinR r (meanEarth min k) min) (by norm_num) (fun t k hk => ?_) h ?_ n t k e
  · have : nearest (365.25963586 / 36525) (if min then 1.7 / 36525 else 184.5 / 36525) (meanEarth min k) = meanEarth min k :=
      nearest_eq (by norm_num) (by rw [meanEarth, sub_self, abs_zero]; norm_num)
    show earthMinR r t min = earthMinR r (meanEarth min k) min
    unfold earthMinR
    simp only []
    rw [this, hk]
    rfl
  · rw [abs_of_pos (by norm_num)]; norm_num

/-- `walk` with the planet's own period — test1.cpp:84-105 -/
theorem daJu_walk {r : ℕ → ℝ → ℝ} {venus dx : Bool}
    (h : ∀ k, |(daJu venus r (meanElong venus dx k) dx).1 - meanElong venus dx k| ≤ (if venus then 291 else 57) / 36525) (t : ℝ) :
    ∃ k : ℤ, |t - meanElong venus dx k| ≤ (if venus then 583.9213708245 / 36525 else 115.8774777586 / 36525) / 2 ∧
      ∀ n, walk (fun t => daJu venus r t dx) (if venus then 583.9213708245 / 36525 else 115.8774777586 / 36525) n t =
        (List.range n).map fun i : ℕ => daJu venus r (meanElong venus dx (k + i)) dx := by
  have key : ∀ a b : ℝ, 0 < a → ∀ δ, δ < a / 2 → (∀ t, nearest a b t = nearest (if venus then 583.9213708245 / 36525 else 115.8774777586 / 36525)
        (if dx then (if venus then (382 : ℝ) else 46) / 36525 else (if venus then 521 else 87) / 36525) t) → (∀ k : ℤ, meanElong venus dx k = b + a * k) →
      (∀ k, |(daJu venus r (meanElong venus dx k) dx).1 - meanElong venus dx k| ≤ δ) →
      ∃ k : ℤ, |t - meanElong venus dx k| ≤ a / 2 ∧
      ∀ n, walk (fun t => daJu venus r t dx) a n t = (List.range n).map fun i : ℕ => daJu venus r (meanElong venus dx (k + i)) dx := by
    intro a b ha δ hδ hn hm hE
    obtain ⟨k, e, q⟩ := nearest_is (b := b) (t := t) ha
    refine ⟨k, by rw [hm]; exact q, fun n => ?_⟩
    refine walk_each (E := fun k => daJu venus r (meanElong venus dx k) dx) ha (fun t k hk => ?_) (fun k => by rw [← hm]; exact hE k) (by rw [sub_self, abs_zero]; linarith) n t k e
    have : nearest a b (meanElong venus dx k) = meanElong venus dx k := by
      rw [hm]; exact nearest_eq ha (by rw [sub_self, abs_zero]; linarith)
    show daJu venus r t dx = daJu venus r (meanElong venus dx k) dx
    unfold daJu
    simp only []
    rw [← hn t, ← hn (meanElong venus dx k), this, hk, hm]
  cases venus <;> cases dx
  · exact key (115.8774777586 / 36525) (87 / 36525) (by norm_num) (57 / 36525) (by norm_num) (fun _ => by norm_num) (fun _ => by simp [meanElong]) h
  · exact key (115.8774777586 / 36525) (46 / 36525) (by norm_num) (57 / 36525) (by norm_num) (fun _ => by norm_num) (fun _ => by simp [meanElong]) h
  · exact key (583.9213708245 / 36525) (521 / 36525) (by norm_num) (291 / 36525) (by norm_num) (fun _ => by norm_num) (fun _ => by simp [meanElong]) h
  · exact key (583.9213708245 / 36525) (382 / 36525) (by norm_num) (291 / 36525) (by norm_num) (fun _ => by norm_num) (fun _ => by simp [meanElong]) h

end Verif.Apsides
