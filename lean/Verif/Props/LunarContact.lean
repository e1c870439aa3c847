import Verif.Props.Contact
import Verif.Props.LunarEclipse

/-!
# C88 The contact times of a lunar eclipse for the true, curved motion
-/

namespace Verif.Geom

open Real Verif.Contact

/-! ## Specification -/

/-- the mean velocities of the point `(x, y)` over any two stretches of the time from `a` to `c` differ by at most `e` -/
def Steady (x y : ℝ → ℝ) (a c e : ℝ) : Prop :=
  ∀ t t' p p', t ∈ Set.Icc a c → t' ∈ Set.Icc a c → p ∈ Set.Icc a c → p' ∈ Set.Icc a c → t ≠ t' → p ≠ p' →
    √(((x t - x t') / (t - t') - (x p - x p') / (p - p')) ^ 2 + ((y t - y t') / (t - t') - (y p - y p') / (p - p')) ^ 2) ≤ e

/-- `f` changes by at most `b` per day from `a` to `c` -/
def Slow (f : ℝ → ℝ) (a c b : ℝ) : Prop := ∀ t t', t ∈ Set.Icc a c → t' ∈ Set.Icc a c → |f t - f t'| ≤ b * |t - t'|

/-! ## `lineT` along and across the path -/

theorem lineT_rot (x y t v u r W : ℝ) (hv : 0 < v) (hW : 0 < W) (hWW : W ^ 2 = u * u + v * v) (hD : 0 ≤ r ^ 2 - ((u * x - v * y) / W) ^ 2) :
    lineT x y t v u r true = t + (√(r ^ 2 - ((u * x - v * y) / W) ^ 2) - (v * x + u * y) / W) / W
    ∧ lineT x y t v u r false = t + (-√(r ^ 2 - ((u * x - v * y) / W) ^ 2) - (v * x + u * y) / W) / W := by
  obtain ⟨h, hh⟩ : ∃ h, h = √(r ^ 2 - ((u * x - v * y) / W) ^ 2) := ⟨_, rfl⟩
  have hsq : h ^ 2 = r ^ 2 - ((u * x - v * y) / W) ^ 2 := by rw [hh, sq_sqrt hD]
  have hn : 0 ≤ h := by rw [hh]; exact sqrt_nonneg _
  rw [← hh]
  have hsq' : W ^ 2 * h ^ 2 = W ^ 2 * r ^ 2 - (u * x - v * y) ^ 2 := by rw [hsq]; field_simp
  have hDe : u * (y * v - x * u) * (u * (y * v - x * u)) - (u * u + v * v) * ((y * v - x * u) * (y * v - x * u) - r * r * v * v) = (v * W * h) ^ 2 := by
    linear_combination (-v ^ 2) * hsq' + (-(r ^ 2 * v ^ 2)) * hWW
  have hp : 0 ≤ v * W * h := by positivity
  have hA : u * u + v * v = W ^ 2 := hWW.symm
  unfold lineT
  simp only [hDe]
  rw [if_neg (not_lt.2 (sq_nonneg _)), if_neg (not_lt.2 (sq_nonneg _)), sqrt_sq hp, hA]
  constructor
  · simp only [if_true]
    congr 1
    field_simp
    linear_combination (-x) * hWW
  · simp only [Bool.false_eq_true, if_false]
    congr 1
    field_simp
    linear_combination (-x) * hWW

theorem cauchy (v u α β W k : ℝ) (hW : 0 ≤ W) (hWW : W ^ 2 = u * u + v * v) (hk : √(α ^ 2 + β ^ 2) ≤ k) : |v * α + u * β| ≤ W * k ∧ |u * α - v * β| ≤ W * k := by
  have h0 : 0 ≤ √(α ^ 2 + β ^ 2) := sqrt_nonneg _
  have hs : √(α ^ 2 + β ^ 2) ^ 2 = α ^ 2 + β ^ 2 := sq_sqrt (by positivity)
  have key : ∀ z, z ^ 2 ≤ (W * √(α ^ 2 + β ^ 2)) ^ 2 → |z| ≤ W * k := by
    intro z hz
    have := abs_le_of_sq_le_sq' hz (mul_nonneg hW h0)
    exact (abs_le.2 this).trans (mul_le_mul_of_nonneg_left hk hW)
  constructor <;> apply key <;> rw [mul_pow, hs, hWW]
  · nlinarith [sq_nonneg (v * β - u * α)]
  · nlinarith [sq_nonneg (u * β + v * α)]

/-! ## One pair of contacts -/

/-- the path in units of the radius at the instant `n`, and of the time the moon takes for it -/
theorem near_path (x y ρ : ℝ → ℝ) (n v u W r0 e b : ℝ) (hW : 0 < W) (hWW : W ^ 2 = u * u + v * v) (hr0 : 0 < r0) (hρ : ρ n = r0)
    (hstep : n + 60 / 86400 ≤ n + 6 / 5 * (r0 / W))
    (hv : v = (x (n + 60 / 86400) - x n) / (60 / 86400)) (hu : u = (y (n + 60 / 86400) - y n) / (60 / 86400))
    (hS : Steady x y (n - 6 / 5 * (r0 / W)) (n + 6 / 5 * (r0 / W)) e) (hR : Slow ρ (n - 6 / 5 * (r0 / W)) (n + 6 / 5 * (r0 / W)) b)
    (he : 0 ≤ e) (hb : 0 ≤ b) (heb : e + b ≤ W / 100) (hq : |(u * x n - v * y n) / W| ≤ 9 / 10 * r0) (hs : |(v * x n + u * y n) / W| ≤ 1 / 10 * r0) :
    Near (fun θ => (v * x (n + r0 / W * θ) + u * y (n + r0 / W * θ)) / W / r0) (fun θ => (u * x (n + r0 / W * θ) - v * y (n + r0 / W * θ)) / W / r0)
      (fun θ => ρ (n + r0 / W * θ) / r0) (e / W) (b / W) := by
  obtain ⟨k, hk⟩ : ∃ k, k = r0 / W := ⟨_, rfl⟩
  have hk0 : 0 < k := by rw [hk]; positivity
  have hkW : k * W = r0 := by rw [hk, div_mul_cancel₀ _ hW.ne']
  rw [← hk] at hstep hS hR ⊢
  have hin : ∀ θ, |θ| ≤ 6 / 5 → n + k * θ ∈ Set.Icc (n - 6 / 5 * k) (n + 6 / 5 * k) := by
    intro θ hθ
    have := abs_le.1 hθ
    constructor <;> nlinarith
  have hn : n ∈ Set.Icc (n - 6 / 5 * k) (n + 6 / 5 * k) := ⟨by linarith, by linarith⟩
  have hn1 : n + 60 / 86400 ∈ Set.Icc (n - 6 / 5 * k) (n + 6 / 5 * k) := ⟨by linarith, hstep⟩
  -- the deviation from uniform motion
  have dev : ∀ θ θ', |θ| ≤ 6 / 5 → |θ'| ≤ 6 / 5 →
      √((x (n + k * θ) - x (n + k * θ') - v * (k * (θ - θ'))) ^ 2 + (y (n + k * θ) - y (n + k * θ') - u * (k * (θ - θ'))) ^ 2) ≤ e * (k * |θ - θ'|) := by
    intro θ θ' hθ hθ'
    by_cases heq : θ = θ'
    · subst heq; simp
    · have hne : θ - θ' ≠ 0 := sub_ne_zero.2 heq
      have hd : n + k * θ - (n + k * θ') = k * (θ - θ') := by ring
      have hkd : k * (θ - θ') ≠ 0 := mul_ne_zero hk0.ne' hne
      have h1 := hS _ _ (n + 60 / 86400) n (hin θ hθ) (hin θ' hθ') hn1 hn
        (by intro h2; exact hkd (by rw [← hd, h2, sub_self])) (by intro h2; linarith)
      rw [show n + 60 / 86400 - n = 60 / 86400 by ring, ← hv, ← hu, hd] at h1
      have h2 : (x (n + k * θ) - x (n + k * θ') - v * (k * (θ - θ'))) ^ 2 + (y (n + k * θ) - y (n + k * θ') - u * (k * (θ - θ'))) ^ 2
          = (k * (θ - θ')) ^ 2 * (((x (n + k * θ) - x (n + k * θ')) / (k * (θ - θ')) - v) ^ 2 + ((y (n + k * θ) - y (n + k * θ')) / (k * (θ - θ')) - u) ^ 2) := by
        field_simp
      rw [h2, sqrt_mul (sq_nonneg _), sqrt_sq_eq_abs, abs_mul, abs_of_pos hk0, mul_comm e]
      exact mul_le_mul_of_nonneg_left h1 (by positivity)
  refine ⟨by positivity, by positivity, ?_, ?_, ?_, ?_, ?_, ?_, ?_⟩
  · rw [← add_div, div_le_iff₀ hW]; linarith
  · intro t t' ht ht'
    have h1 := (cauchy v u _ _ W _ hW.le hWW (dev t t' ht ht')).1
    have h2 : (v * x (n + k * t) + u * y (n + k * t)) / W / r0 - (v * x (n + k * t') + u * y (n + k * t')) / W / r0 - (t - t')
        = (v * (x (n + k * t) - x (n + k * t') - v * (k * (t - t'))) + u * (y (n + k * t) - y (n + k * t') - u * (k * (t - t')))) / (W * r0) := by
      rw [eq_div_iff (by positivity)]
      have e1 : ∀ z, z / W / r0 * (W * r0) = z := fun z => by field_simp
      rw [sub_mul, sub_mul, e1, e1, ← hkW]
      linear_combination (-(k * (t - t'))) * hWW
    show |_| ≤ _
    rw [h2, abs_div, abs_of_pos (show 0 < W * r0 by positivity), div_le_iff₀ (by positivity)]
    refine h1.trans (le_of_eq ?_)
    rw [← hkW]; field_simp
  · intro t t' ht ht'
    have h1 := (cauchy v u _ _ W _ hW.le hWW (dev t t' ht ht')).2
    have h2 : (u * x (n + k * t) - v * y (n + k * t)) / W / r0 - (u * x (n + k * t') - v * y (n + k * t')) / W / r0
        = (u * (x (n + k * t) - x (n + k * t') - v * (k * (t - t'))) - v * (y (n + k * t) - y (n + k * t') - u * (k * (t - t')))) / (W * r0) := by
      rw [eq_div_iff (by positivity)]
      have e1 : ∀ z, z / W / r0 * (W * r0) = z := fun z => by field_simp
      rw [sub_mul, e1, e1]; ring
    show |_| ≤ _
    rw [h2, abs_div, abs_of_pos (show 0 < W * r0 by positivity), div_le_iff₀ (by positivity)]
    refine h1.trans (le_of_eq ?_)
    rw [← hkW]; field_simp
  · intro t t' ht ht'
    have h1 := hR _ _ (hin t ht) (hin t' ht')
    rw [show n + k * t - (n + k * t') = k * (t - t') by ring, abs_mul, abs_of_pos hk0] at h1
    show |ρ (n + k * t) / r0 - ρ (n + k * t') / r0| ≤ _
    rw [← sub_div, abs_div, abs_of_pos hr0, div_le_iff₀ hr0]
    refine h1.trans (le_of_eq ?_)
    rw [← hkW]; field_simp
  · show ρ (n + k * 0) / r0 = 1
    rw [mul_zero, add_zero, hρ, div_self hr0.ne']
  · show |(u * x (n + k * 0) - v * y (n + k * 0)) / W / r0| ≤ _
    rw [mul_zero, add_zero, abs_div, abs_of_pos hr0, div_le_iff₀ hr0]; exact hq
  · show |(v * x (n + k * 0) + u * y (n + k * 0)) / W / r0| ≤ _
    rw [mul_zero, add_zero, abs_div, abs_of_pos hr0, div_le_iff₀ hr0]; exact hs

/-- the two rounds of the program, in these units -/
theorem contact_units (lecXY : ℝ → Re0) (ht : ∀ t, (lecXY t).t = t) (n v u W r0 : ℝ) (rad : Re0 → ℝ) (hv : 0 < v) (hW : 0 < W) (hWW : W ^ 2 = u * u + v * v) (hr0 : 0 < r0)
    (s q r : ℝ → ℝ) (hs : s = fun θ => (v * (lecXY (n + r0 / W * θ)).x + u * (lecXY (n + r0 / W * θ)).y) / W / r0)
    (hq : q = fun θ => (u * (lecXY (n + r0 / W * θ)).x - v * (lecXY (n + r0 / W * θ)).y) / W / r0) (hr : r = fun θ => rad (lecXY (n + r0 / W * θ)) / r0)
    (h0 : 0 ≤ r 0 ^ 2 - q 0 ^ 2) (h1 : 0 ≤ r (first s q r) ^ 2 - q (first s q r) ^ 2)
    (h2 : 0 ≤ r (-first (fun t => -s (-t)) (fun t => q (-t)) (fun t => r (-t))) ^ 2 - q (-first (fun t => -s (-t)) (fun t => q (-t)) (fun t => r (-t))) ^ 2) :
    contact lecXY (lecXY n) v u rad true = n + r0 / W * second s q r
    ∧ contact lecXY (lecXY n) v u rad false = n - r0 / W * second (fun t => -s (-t)) (fun t => q (-t)) (fun t => r (-t)) := by
  obtain ⟨k, hk⟩ : ∃ k, k = r0 / W := ⟨_, rfl⟩
  have hk0 : 0 < k := by rw [hk]; positivity
  have hkW : k * W = r0 := by rw [hk, div_mul_cancel₀ _ hW.ne']
  rw [← hk] at hs hq hr ⊢
  have es : ∀ θ, (v * (lecXY (n + k * θ)).x + u * (lecXY (n + k * θ)).y) / W = s θ * r0 := by
    intro θ; rw [hs]; exact (div_mul_cancel₀ _ hr0.ne').symm
  have eq : ∀ θ, (u * (lecXY (n + k * θ)).x - v * (lecXY (n + k * θ)).y) / W = q θ * r0 := by
    intro θ; rw [hq]; exact (div_mul_cancel₀ _ hr0.ne').symm
  have er : ∀ θ, rad (lecXY (n + k * θ)) = r θ * r0 := by
    intro θ; rw [hr]; exact (div_mul_cancel₀ _ hr0.ne').symm
  -- one round from the instant `θ`
  have round : ∀ θ, 0 ≤ r θ ^ 2 - q θ ^ 2 →
      lineT (lecXY (n + k * θ)).x (lecXY (n + k * θ)).y (lecXY (n + k * θ)).t v u (rad (lecXY (n + k * θ))) true = n + k * (θ + √(r θ ^ 2 - q θ ^ 2) - s θ)
      ∧ lineT (lecXY (n + k * θ)).x (lecXY (n + k * θ)).y (lecXY (n + k * θ)).t v u (rad (lecXY (n + k * θ))) false = n + k * (θ - √(r θ ^ 2 - q θ ^ 2) - s θ) := by
    intro θ hθ
    have e0 : rad (lecXY (n + k * θ)) ^ 2 - ((u * (lecXY (n + k * θ)).x - v * (lecXY (n + k * θ)).y) / W) ^ 2 = (r θ ^ 2 - q θ ^ 2) * r0 ^ 2 := by
      rw [eq, er]; ring
    have := lineT_rot (lecXY (n + k * θ)).x (lecXY (n + k * θ)).y (lecXY (n + k * θ)).t v u (rad (lecXY (n + k * θ))) W hv hW hWW (by rw [e0]; positivity)
    rw [e0, es, sqrt_mul hθ, sqrt_sq hr0.le, ht] at this
    rw [ht]
    refine ⟨this.1.trans ?_, this.2.trans ?_⟩ <;>
    · rw [← hkW]; field_simp; ring
  have hn0 : n + k * 0 = n := by ring
  have r0' := round 0 h0
  rw [hn0] at r0'
  unfold contact
  simp only []
  constructor
  · rw [r0'.1]
    have hf : (0 : ℝ) + √(r 0 ^ 2 - q 0 ^ 2) - s 0 = first s q r := by unfold first; ring
    rw [hf, (round _ h1).1]
    congr 1
  · rw [r0'.2]
    have hf : (0 : ℝ) - √(r 0 ^ 2 - q 0 ^ 2) - s 0 = -first (fun t => -s (-t)) (fun t => q (-t)) (fun t => r (-t)) := by
      unfold first; simp only [neg_zero]; ring
    rw [hf, (round _ h2).2]
    unfold second; simp only []
    ring

/-- For a moon whose velocity changes little while it crosses the circle: the two contact times the program computes differ by at most `14 ((e + b)/W)² · r₀/W` from the instants between which
the centre of the moon is inside the circle. -/
theorem contacts_near (lecXY : ℝ → Re0) (ht : ∀ t, (lecXY t).t = t) (n v u W r0 e b : ℝ) (rad : Re0 → ℝ)
    (hv0 : 0 < v) (hW : 0 < W) (hWW : W ^ 2 = u * u + v * v) (hr0 : 0 < r0) (hρ : rad (lecXY n) = r0) (hstep : 60 / 86400 ≤ 6 / 5 * (r0 / W))
    (hv : v = ((lecXY (n + 60 / 86400)).x - (lecXY n).x) / (60 / 86400)) (hu : u = ((lecXY (n + 60 / 86400)).y - (lecXY n).y) / (60 / 86400))
    (hS : Steady (fun t => (lecXY t).x) (fun t => (lecXY t).y) (n - 6 / 5 * (r0 / W)) (n + 6 / 5 * (r0 / W)) e)
    (hR : Slow (fun t => rad (lecXY t)) (n - 6 / 5 * (r0 / W)) (n + 6 / 5 * (r0 / W)) b)
    (he : 0 ≤ e) (hb : 0 ≤ b) (heb : e + b ≤ W / 100) (hq : |(u * (lecXY n).x - v * (lecXY n).y) / W| ≤ 9 / 10 * r0)
    (hs : |(v * (lecXY n).x + u * (lecXY n).y) / W| ≤ 1 / 10 * r0) :
    ∃ T1 T2, |contact lecXY (lecXY n) v u rad false - T1| ≤ 14 * ((e + b) / W) ^ 2 * (r0 / W) ∧ |contact lecXY (lecXY n) v u rad true - T2| ≤ 14 * ((e + b) / W) ^ 2 * (r0 / W)
      ∧ T1 < T2 ∧ n - 6 / 5 * (r0 / W) ≤ T1 ∧ T2 ≤ n + 6 / 5 * (r0 / W)
      ∧ ∀ t, n - 6 / 5 * (r0 / W) ≤ t → t ≤ n + 6 / 5 * (r0 / W) → (√((lecXY t).x ^ 2 + (lecXY t).y ^ 2) ≤ rad (lecXY t) ↔ T1 ≤ t ∧ t ≤ T2) := by
  obtain ⟨s, hsd⟩ : ∃ s : ℝ → ℝ, s = fun θ => (v * (lecXY (n + r0 / W * θ)).x + u * (lecXY (n + r0 / W * θ)).y) / W / r0 := ⟨_, rfl⟩
  obtain ⟨q, hqd⟩ : ∃ q : ℝ → ℝ, q = fun θ => (u * (lecXY (n + r0 / W * θ)).x - v * (lecXY (n + r0 / W * θ)).y) / W / r0 := ⟨_, rfl⟩
  obtain ⟨r, hrd⟩ : ∃ r : ℝ → ℝ, r = fun θ => rad (lecXY (n + r0 / W * θ)) / r0 := ⟨_, rfl⟩
  have hN : Near s q r (e / W) (b / W) := by
    rw [hsd, hqd, hrd]
    exact near_path (fun t => (lecXY t).x) (fun t => (lecXY t).y) (fun t => rad (lecXY t)) n v u W r0 e b hW hWW hr0 hρ (by linarith) hv hu hS hR he hb heb hq hs
  have hN' := hN.reflect
  obtain ⟨f1, f2, f3, T, g1, g2, g3, g4, g5⟩ := hN.leave
  obtain ⟨f1', f2', f3', T', g1', g2', g3', g4', g5'⟩ := hN'.leave
  obtain ⟨c2, c1⟩ := contact_units lecXY ht n v u W r0 rad hv0 hW hWW hr0 s q r hsd hqd hrd f2 f3 f3'
  obtain ⟨k, hk⟩ : ∃ k, k = r0 / W := ⟨_, rfl⟩
  have hk0 : 0 < k := by rw [hk]; positivity
  have hkW : k * W = r0 := by rw [hk, div_mul_cancel₀ _ hW.ne']
  rw [← add_div] at g1 g1'
  rw [c1, c2]
  rw [← hk] at hsd hqd hrd ⊢
  have hg2 := abs_le.1 g2
  have hg2' := abs_le.1 g2'
  -- the instants
  have hlt : -T' < T := by
    by_contra hc
    have h1 := hN.s_mono g2 (show |-T'| ≤ 6 / 5 by rwa [abs_neg]) (le_of_not_gt hc)
    have h2 : 0 < -s (-T') := g4'
    have h3 : 0 ≤ 99 / 100 * (-T' - T) := by
      have := le_of_not_gt hc
      linarith
    linarith
  refine ⟨n - k * T', n + k * T, ?_, ?_, ?_, ?_, ?_, ?_⟩
  · rw [show n - k * second (fun t => -s (-t)) (fun t => q (-t)) (fun t => r (-t)) - (n - k * T') = k * (T' - second (fun t => -s (-t)) (fun t => q (-t)) (fun t => r (-t))) by ring,
      abs_mul, abs_of_pos hk0, mul_comm]
    exact mul_le_mul_of_nonneg_right g1' hk0.le
  · rw [show n + k * second s q r - (n + k * T) = -(k * (T - second s q r)) by ring, abs_neg, abs_mul, abs_of_pos hk0, mul_comm]
    exact mul_le_mul_of_nonneg_right g1 hk0.le
  · have := mul_lt_mul_of_pos_left hlt hk0
    linarith
  · have := mul_le_mul_of_nonneg_left hg2'.2 hk0.le
    linarith
  · have := mul_le_mul_of_nonneg_left hg2.2 hk0.le
    linarith
  · intro t hta htb
    obtain ⟨θ, hθ⟩ : ∃ θ, θ = (t - n) / k := ⟨_, rfl⟩
    have htθ : t = n + k * θ := by rw [hθ, mul_div_cancel₀ _ hk0.ne']; ring
    have hθa : |θ| ≤ 6 / 5 := by
      rw [hθ, abs_div, abs_of_pos hk0, div_le_iff₀ hk0]
      exact abs_le.2 ⟨by linarith, by linarith⟩
    -- the gap is the difference of the squares
    have hrpos : 0 < r θ := by linarith [(hN.r_near hθa).1]
    have hrad : rad (lecXY t) = r θ * r0 := by rw [htθ, hrd]; exact (div_mul_cancel₀ _ hr0.ne').symm
    have hgap : (lecXY t).x ^ 2 + (lecXY t).y ^ 2 = (s θ ^ 2 + q θ ^ 2) * r0 ^ 2 := by
      rw [hsd, hqd]
      simp only [← htθ]
      have hW0 := hW.ne'
      have hr00 := hr0.ne'
      have e1 : ∀ z : ℝ, (z / W / r0) ^ 2 * r0 ^ 2 = z ^ 2 / W ^ 2 := fun z => by field_simp
      rw [add_mul, e1, e1, ← add_div, eq_div_iff (pow_ne_zero 2 hW0), hWW]
      ring
    have hiff : √((lecXY t).x ^ 2 + (lecXY t).y ^ 2) ≤ rad (lecXY t) ↔ gap s q r θ ≤ 0 := by
      rw [sqrt_le_left (by rw [hrad]; positivity), hgap, hrad, mul_pow, mul_le_mul_iff_left₀ (by positivity)]
      unfold gap
      exact sub_nonpos.symm
    rw [hiff, htθ]
    have hiff2 : (n + k * θ ≤ n + k * T ↔ θ ≤ T) := by rw [add_le_add_iff_left, mul_le_mul_iff_right₀ hk0]
    have hiff1 : (n - k * T' ≤ n + k * θ ↔ -T' ≤ θ) := by
      rw [show n - k * T' = n + k * (-T') by ring, add_le_add_iff_left, mul_le_mul_iff_right₀ hk0]
    rw [hiff1, hiff2]
    rcases le_total 0 (s θ) with hsθ | hsθ
    · rw [g5 θ hθa hsθ]
      refine ⟨fun h => ⟨?_, h⟩, fun h => h.2⟩
      by_contra hc
      have h1 := hN.s_mono hθa (show |-T'| ≤ 6 / 5 by rwa [abs_neg]) (le_of_lt (lt_of_not_ge hc))
      have h2 : 0 < -s (-T') := g4'
      have h3 := lt_of_not_ge hc
      linarith
    · have h1 := g5' (-θ) (by rwa [abs_neg]) (by show 0 ≤ -s (- -θ); rw [neg_neg]; linarith)
      have h2 : gap (fun t => -s (-t)) (fun t => q (-t)) (fun t => r (-t)) (-θ) = gap s q r θ := by
        unfold gap; simp only [neg_neg]; ring
      rw [h2] at h1
      rw [h1]
      refine ⟨fun h => ⟨by linarith, ?_⟩, fun h => by linarith [h.1]⟩
      by_contra hc
      have h3 := hN.s_mono g2 hθa (le_of_lt (lt_of_not_ge hc))
      have h4 := lt_of_not_ge hc
      linarith

/-! ## The instant of greatest eclipse -/

theorem near_dist_mono {s q r : ℝ → ℝ} {e b : ℝ} (h : Near s q r e b) {t t' : ℝ} (ht : |t| ≤ 6 / 5) (ht' : |t'| ≤ 6 / 5) (hlt : t < t') (hs : 93 / 100 * e ≤ s t) :
    s t ^ 2 + q t ^ 2 < s t' ^ 2 + q t' ^ 2 := by
  have hd : 0 < t' - t := by linarith
  have he := h.he
  have h1 := h.s_mono ht ht' hlt.le
  have h2 := h.hq t' t ht' ht
  rw [abs_of_pos hd] at h2
  have hqq : |q t' + q t| ≤ 1824 / 1000 := (abs_add_le _ _).trans (by linarith [h.q_le ht, h.q_le ht'])
  have e1 : 99 / 100 * (t' - t) * (s t' + s t) ≤ (s t' - s t) * (s t' + s t) := mul_le_mul_of_nonneg_right h1 (by linarith)
  have e0 : 99 / 100 * (t' - t) * (186 / 100 * e + 99 / 100 * (t' - t)) ≤ 99 / 100 * (t' - t) * (s t' + s t) :=
    mul_le_mul_of_nonneg_left (by linarith) (by linarith)
  have e2 : |(q t' - q t) * (q t' + q t)| ≤ e * (t' - t) * (1824 / 1000) := by
    rw [abs_mul]; exact mul_le_mul h2 hqq (abs_nonneg _) (mul_nonneg he hd.le)
  have e5 := (abs_le.1 e2).1
  have e7 : 0 ≤ e * (t' - t) := mul_nonneg he hd.le
  have e8 : 0 < (t' - t) * (t' - t) := mul_pos hd hd
  have : s t' ^ 2 + q t' ^ 2 - (s t ^ 2 + q t ^ 2) = (s t' - s t) * (s t' + s t) + (q t' - q t) * (q t' + q t) := by ring
  nlinarith

theorem near_least {s q r : ℝ → ℝ} {e b : ℝ} (h : Near s q r e b) {m : ℝ} (hm : |m| ≤ 6 / 5) (hmin : ∀ t, |t| ≤ 6 / 5 → s m ^ 2 + q m ^ 2 ≤ s t ^ 2 + q t ^ 2) : s m ≤ 93 / 100 * e := by
  by_contra hc
  have hc := lt_of_not_ge hc
  have he := h.he
  have he1 : e ≤ 1 / 100 := by linarith [h.small, h.hb]
  obtain ⟨x, hx⟩ : ∃ x, x = min ((s m - 93 / 100 * e) / 2) (1 / 10) := ⟨_, rfl⟩
  have hx0 : 0 < x := by rw [hx]; exact lt_min (by linarith) (by norm_num)
  have hx1 : x ≤ (s m - 93 / 100 * e) / 2 := by rw [hx]; exact min_le_left _ _
  have hx2 : x ≤ 1 / 10 := by rw [hx]; exact min_le_right _ _
  have hma := abs_le.1 hm
  have hm0 : -(2 / 10) ≤ m := by
    by_contra hc2
    have h1 := h.s_mono hm (show |(0 : ℝ)| ≤ 6 / 5 by norm_num) (by linarith)
    have := (abs_le.1 h.s0).2
    have := mul_nonneg (show (0 : ℝ) ≤ 93 / 100 by norm_num) he
    linarith
  have htw : |m - x| ≤ 6 / 5 := abs_le.2 ⟨by linarith, by linarith⟩
  have h1 := h.hs m (m - x) hm htw
  rw [show m - (m - x) = x by ring, abs_of_pos hx0] at h1
  have h2 := (abs_le.1 h1).2
  have h3 : e * x ≤ 1 / 100 * x := mul_le_mul_of_nonneg_right he1 hx0.le
  have := near_dist_mono h htw hm (by linarith) (by linarith)
  have := hmin (m - x) htw
  linarith

theorem middle_near {s q r : ℝ → ℝ} {e b : ℝ} (h : Near s q r e b) {m : ℝ} (hm : |m| ≤ 6 / 5) (hmin : ∀ t, |t| ≤ 6 / 5 → s m ^ 2 + q m ^ 2 ≤ s t ^ 2 + q t ^ 2) :
    |m - -s 0| ≤ 105 / 100 * e := by
  have he := h.he
  have h1 := near_least h hm hmin
  have h2 := near_least h.reflect (m := -m) (by rwa [abs_neg]) (fun t ht => by
    have := hmin (-t) (by rwa [abs_neg])
    simpa using this)
  simp only [neg_neg] at h2
  have hw : |(-s 0)| ≤ 6 / 5 := by rw [abs_neg]; linarith [h.s0]
  have h3 := h.hs (-s 0) 0 hw (by norm_num)
  rw [sub_zero, sub_neg_eq_add, sub_add_cancel] at h3
  have h4 : e * |(-s 0)| ≤ e * (1 / 10) := mul_le_mul_of_nonneg_left (by rw [abs_neg]; exact h.s0) he
  have h5 := abs_le.1 (h3.trans h4)
  refine abs_le.2 ⟨?_, ?_⟩
  · by_contra hc
    have hc := lt_of_not_ge hc
    have h0 : 0 ≤ 105 / 100 * e := by linarith
    have := h.s_mono hm hw (by linarith)
    linarith
  · by_contra hc
    have hc := lt_of_not_ge hc
    have h0 : 0 ≤ 105 / 100 * e := by linarith
    have := h.s_mono hw hm (by linarith)
    linarith

end Verif.Geom
