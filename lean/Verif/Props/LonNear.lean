import Verif.Longitude
import Verif.Props.Series
import Mathlib.Analysis.Real.Pi.Bounds
import Mathlib.Analysis.SpecialFunctions.Trigonometric.Bounds
import Mathlib.Analysis.SpecialFunctions.Trigonometric.Deriv
import Mathlib.Analysis.Calculus.Deriv.MeanValue

/-!
# Bounds on functions of the time (used by C74)

`Bd`, `Lip`: bounded by / Lipschitz with a constant on `|t| ≤ R`; `Near f v K1 K2`: the increment of `f` is `v·h` up to `K1·|h| + K2·h²`.
-/

namespace Verif.Longitude

open Real

def Bd (R : ℝ) (f : ℝ → ℝ) (B : ℝ) : Prop := ∀ t, |t| ≤ R → |f t| ≤ B
def Lip (R : ℝ) (f : ℝ → ℝ) (K : ℝ) : Prop := ∀ s t, |s| ≤ R → |t| ≤ R → |f t - f s| ≤ K * |t - s|
def Near (R : ℝ) (f v : ℝ → ℝ) (K1 K2 : ℝ) : Prop :=
  ∀ s t, |s| ≤ R → |t| ≤ R → |f t - f s - v s * (t - s)| ≤ K1 * |t - s| + K2 * (t - s) ^ 2

variable {R : ℝ} {f g v w : ℝ → ℝ} {A B K L K1 K2 L1 L2 : ℝ}

theorem Bd.mono (h : Bd R f B) (hB : B ≤ L) : Bd R f L := fun t ht => (h t ht).trans hB
theorem Lip.mono (h : Lip R f K) (hK : K ≤ L) : Lip R f L := fun s t hs ht => (h s t hs ht).trans (by gcongr)
theorem Near.mono (h : Near R f v K1 K2) (h1 : K1 ≤ L1) (h2 : K2 ≤ L2) : Near R f v L1 L2 :=
  fun s t hs ht => (h s t hs ht).trans (by gcongr)

theorem Bd.congr (h : Bd R f B) (e : ∀ t, g t = f t) : Bd R g B := fun t ht => by rw [e]; exact h t ht
theorem Lip.congr (h : Lip R f K) (e : ∀ t, g t = f t) : Lip R g K := fun s t hs ht => by rw [e, e]; exact h s t hs ht
theorem Near.congr (h : Near R f v K1 K2) (e : ∀ t, g t = f t) (e' : ∀ t, w t = v t) : Near R g w K1 K2 :=
  fun s t hs ht => by rw [e, e, e']; exact h s t hs ht

theorem Bd.add (hf : Bd R f A) (hg : Bd R g B) : Bd R (fun t => f t + g t) (A + B) :=
  fun t ht => (abs_add_le _ _).trans (add_le_add (hf t ht) (hg t ht))
theorem Bd.const (c : ℝ) : Bd R (fun _ => c) |c| := fun _ _ => le_rfl
theorem Bd.smul (hf : Bd R f A) (c : ℝ) : Bd R (fun t => c * f t) (|c| * A) := fun t ht => by
  rw [abs_mul]; exact mul_le_mul_of_nonneg_left (hf t ht) (abs_nonneg _)
theorem Bd.mul (hf : Bd R f A) (hg : Bd R g B) (hA : 0 ≤ A) : Bd R (fun t => f t * g t) (A * B) := fun t ht => by
  rw [abs_mul]; exact mul_le_mul (hf t ht) (hg t ht) (abs_nonneg _) hA

theorem Lip.add (hf : Lip R f K) (hg : Lip R g L) : Lip R (fun t => f t + g t) (K + L) := fun s t hs ht => by
  rw [show f t + g t - (f s + g s) = (f t - f s) + (g t - g s) by ring, add_mul]
  exact (abs_add_le _ _).trans (add_le_add (hf s t hs ht) (hg s t hs ht))
theorem Lip.const (c : ℝ) : Lip R (fun _ => c) 0 := fun s t _ _ => by simp
theorem Lip.id : Lip R (fun t => t) 1 := fun s t _ _ => by simp
theorem Lip.smul (hf : Lip R f K) (c : ℝ) : Lip R (fun t => c * f t) (|c| * K) := fun s t hs ht => by
  rw [show c * f t - c * f s = c * (f t - f s) by ring, abs_mul, mul_assoc]
  exact mul_le_mul_of_nonneg_left (hf s t hs ht) (abs_nonneg _)
theorem Lip.mul (hf : Lip R f K) (hg : Lip R g L) (bf : Bd R f A) (bg : Bd R g B) :
    Lip R (fun t => f t * g t) (A * L + K * B) := fun s t hs ht => by
  rw [show f t * g t - f s * g s = f s * (g t - g s) + (f t - f s) * g t by ring]
  refine (abs_add_le _ _).trans ?_
  rw [abs_mul, abs_mul, add_mul]
  have h1 := mul_le_mul (bf s hs) (hg s t hs ht) (abs_nonneg _) ((abs_nonneg _).trans (bf s hs))
  have h2 := mul_le_mul (hf s t hs ht) (bg t ht) (abs_nonneg _) ((abs_nonneg _).trans (hf s t hs ht))
  calc |f s| * |g t - g s| + |f t - f s| * |g t| ≤ A * (L * |t - s|) + K * |t - s| * B := add_le_add h1 h2
    _ = A * L * |t - s| + K * B * |t - s| := by ring

theorem Bd.pow (hR : 0 ≤ R) (n : ℕ) : Bd R (fun t => t ^ n) (R ^ n) := fun t ht => by
  rw [abs_pow]; exact pow_le_pow_left₀ (abs_nonneg _) ht n
theorem Lip.pow (hR : 0 ≤ R) : ∀ n : ℕ, Lip R (fun t => t ^ n) (n * R ^ (n - 1))
  | 0 => by simpa using Lip.const (R := R) 1
  | 1 => by simpa using Lip.id (R := R)
  | n + 2 => by
    have h := (Lip.pow hR (n + 1)).mul (Lip.id) (Bd.pow hR (n + 1)) (B := R) (fun t ht => ht)
    refine (h.congr (fun t => by rw [pow_succ])).mono ?_
    rw [show n + 1 - 1 = n by omega, show n + 2 - 1 = n + 1 by omega, pow_succ]
    push_cast
    apply le_of_eq
    ring

theorem abs_cos_sub_cos (x y : ℝ) : |cos x - cos y| ≤ |x - y| := by
  rw [cos_sub_cos, abs_mul, abs_mul]
  have h1 : |sin ((x + y) / 2)| ≤ 1 := abs_sin_le_one _
  have h2 : |sin ((x - y) / 2)| ≤ |(x - y) / 2| := abs_sin_le_abs
  have h3 : |(x - y) / 2| = |x - y| / 2 := by rw [abs_div]; norm_num
  rw [h3] at h2
  rw [show |(-2 : ℝ)| = 2 by norm_num]
  have := mul_le_mul h1 h2 (abs_nonneg _) zero_le_one
  nlinarith [abs_nonneg (x - y)]

theorem abs_sin_sub_sin (x y : ℝ) : |sin x - sin y| ≤ |x - y| := by
  have := abs_cos_sub_cos (π / 2 - x) (π / 2 - y)
  rw [cos_pi_div_two_sub, cos_pi_div_two_sub, show π / 2 - x - (π / 2 - y) = -(x - y) by ring, abs_neg] at this
  exact this

/-- second order increment of the cosine -/
theorem cos_second (x h : ℝ) : |cos (x + h) - cos x + h * sin x| ≤ h ^ 2 / 2 := by
  have key : ∀ x y : ℝ, 0 ≤ y → |cos (x + y) - cos x + y * sin x| ≤ y ^ 2 / 2 := by
    intro x y hy
    have mono : ∀ c : ℝ, |c| = 1 → 0 ≤ y ^ 2 / 2 - c * (cos (x + y) - cos x + y * sin x) := by
      intro c hc
      have hder : ∀ u : ℝ, HasDerivAt (fun u => u ^ 2 / 2 - c * (cos (x + u) - cos x + u * sin x)) (u - c * (-sin (x + u) + sin x)) u := by
        intro u
        have h1 : HasDerivAt (fun u : ℝ => u ^ 2 / 2) u u := by
          have := (hasDerivAt_pow 2 u).div_const 2
          simpa using this
        have h2 : HasDerivAt (fun u : ℝ => cos (x + u)) (-sin (x + u)) u := by
          have := (hasDerivAt_cos (x + u)).comp_const_add x u
          simpa using this
        have h3 : HasDerivAt (fun u : ℝ => u * sin x) (sin x) u := by
          have := (hasDerivAt_id u).mul_const (sin x)
          simpa using this
        exact h1.sub (((h2.sub_const _).add h3).const_mul c)
      have hm : MonotoneOn (fun u => u ^ 2 / 2 - c * (cos (x + u) - cos x + u * sin x)) (Set.Ici 0) := by
        refine monotoneOn_of_deriv_nonneg (convex_Ici 0) (fun u _ => (hder u).continuousAt.continuousWithinAt)
          (fun u _ => (hder u).differentiableAt.differentiableWithinAt) (fun u hu => ?_)
        rw [(hder u).deriv]
        rw [interior_Ici] at hu
        have hu' : 0 < u := hu
        have h5 := abs_sin_sub_sin (x + u) x
        rw [show x + u - x = u by ring, abs_of_pos hu'] at h5
        have h6 : |c * (-sin (x + u) + sin x)| ≤ u := by
          rw [abs_mul, hc, one_mul, show -sin (x + u) + sin x = -(sin (x + u) - sin x) by ring, abs_neg]; exact h5
        have := (abs_le.1 h6).2
        linarith
      have := hm (Set.mem_Ici.2 le_rfl) (Set.mem_Ici.2 hy) hy
      simpa using this
    have m1 := mono 1 (by norm_num)
    have m2 := mono (-1) (by norm_num)
    rw [abs_le]
    constructor <;> linarith
  rcases le_total 0 h with hh | hh
  · exact key x h hh
  · have := key (-x) (-h) (by linarith)
    rw [show -x + -h = -(x + h) by ring, cos_neg, cos_neg, sin_neg, neg_sq, neg_mul_neg] at this
    exact this

theorem Near.of_lip (h : Lip R f K) : Near R f (fun _ => 0) K 0 := fun s t hs ht => by
  have := h s t hs ht
  simpa using this
theorem Near.add (hf : Near R f v K1 K2) (hg : Near R g w L1 L2) :
    Near R (fun t => f t + g t) (fun t => v t + w t) (K1 + L1) (K2 + L2) := fun s t hs ht => by
  rw [show f t + g t - (f s + g s) - (v s + w s) * (t - s) = (f t - f s - v s * (t - s)) + (g t - g s - w s * (t - s)) by ring]
  refine (abs_add_le _ _).trans ((add_le_add (hf s t hs ht) (hg s t hs ht)).trans (le_of_eq ?_))
  ring
theorem Near.neg (hf : Near R f v K1 K2) : Near R (fun t => -f t) (fun t => -v t) K1 K2 := fun s t hs ht => by
  rw [show -f t - -f s - -v s * (t - s) = -(f t - f s - v s * (t - s)) by ring, abs_neg]
  exact hf s t hs ht
theorem Near.linear (c : ℝ) : Near R (fun t => c * t) (fun _ => c) 0 0 := fun s t _ _ => by
  rw [show c * t - c * s - c * (t - s) = 0 by ring]; simp
theorem Near.speed (hf : Near R f v K1 K2) (h : ∀ s, |s| ≤ R → |v s - w s| ≤ L) : Near R f w (K1 + L) K2 := fun s t hs ht => by
  rw [show f t - f s - w s * (t - s) = (f t - f s - v s * (t - s)) + (v s - w s) * (t - s) by ring]
  refine (abs_add_le _ _).trans ?_
  rw [abs_mul]
  have := mul_le_mul_of_nonneg_right (h s hs) (abs_nonneg (t - s))
  have := hf s t hs ht
  linarith

/-- a periodic term with a power of the time as amplitude and a phase `P` moving at about the rate `ω` -/
theorem Near.cosP (hR : 0 ≤ R) (P : ℝ → ℝ) (ω δ a : ℝ) (k : ℕ) (hω : 0 ≤ ω) (hδ : 0 ≤ δ)
    (hP : ∀ s t, |s| ≤ R → |t| ≤ R → |P t - P s - ω * (t - s)| ≤ δ * |t - s|) :
    Near R (fun t => a * t ^ k * cos (P t)) (fun s => -(a * ω * s ^ k * sin (P s))) (|a| * (R ^ k * δ + k * R ^ (k - 1))) (|a| * R ^ k * (ω + δ) ^ 2 / 2) := by
  intro s t hs ht
  obtain ⟨d, hd⟩ : ∃ d, d = P t - P s := ⟨_, rfl⟩
  have hPd := hP s t hs ht
  rw [← hd] at hPd
  have h0 := abs_nonneg (t - s)
  have hda : |d| ≤ (ω + δ) * |t - s| := by
    have : |d| ≤ |d - ω * (t - s)| + |ω * (t - s)| := by
      have := abs_add_le (d - ω * (t - s)) (ω * (t - s))
      rwa [sub_add_cancel] at this
    rw [abs_mul, abs_of_nonneg hω] at this
    linarith
  have c := cos_second (P s) d
  rw [hd, show P s + (P t - P s) = P t by ring, ← hd] at c
  have e : a * t ^ k * cos (P t) - a * s ^ k * cos (P s) - -(a * ω * s ^ k * sin (P s)) * (t - s)
      = a * (s ^ k * (cos (P t) - cos (P s) + d * sin (P s)) - s ^ k * sin (P s) * (d - ω * (t - s)) + (t ^ k - s ^ k) * cos (P t)) := by ring
  have hsk : |s ^ k| ≤ R ^ k := Bd.pow hR k s hs
  have hRk : 0 ≤ R ^ k := pow_nonneg hR k
  have b1 : |s ^ k * (cos (P t) - cos (P s) + d * sin (P s))| ≤ R ^ k * ((ω + δ) ^ 2 * (t - s) ^ 2 / 2) := by
    rw [abs_mul]
    refine mul_le_mul hsk (c.trans (div_le_div_of_nonneg_right ?_ (by norm_num))) (abs_nonneg _) hRk
    rw [← mul_pow, ← sq_abs d, ← sq_abs ((ω + δ) * (t - s)), abs_mul, abs_of_nonneg (add_nonneg hω hδ)]
    exact pow_le_pow_left₀ (abs_nonneg _) hda 2
  have b2 : |s ^ k * sin (P s) * (d - ω * (t - s))| ≤ R ^ k * (δ * |t - s|) := by
    rw [abs_mul, abs_mul]
    have : |s ^ k| * |sin (P s)| ≤ R ^ k := by
      have := mul_le_mul hsk (abs_sin_le_one (P s)) (abs_nonneg _) hRk
      linarith
    exact mul_le_mul this hPd (abs_nonneg _) hRk
  have b3 : |(t ^ k - s ^ k) * cos (P t)| ≤ k * R ^ (k - 1) * |t - s| := by
    rw [abs_mul]
    have := mul_le_mul (Lip.pow hR k s t hs ht) (abs_cos_le_one (P t)) (abs_nonneg _) ((abs_nonneg _).trans (Lip.pow hR k s t hs ht))
    simpa using this
  rw [e, abs_mul]
  have : |s ^ k * (cos (P t) - cos (P s) + d * sin (P s)) - s ^ k * sin (P s) * (d - ω * (t - s)) + (t ^ k - s ^ k) * cos (P t)|
      ≤ R ^ k * ((ω + δ) ^ 2 * (t - s) ^ 2 / 2) + R ^ k * (δ * |t - s|) + k * R ^ (k - 1) * |t - s| := by
    refine (abs_add_le _ _).trans (add_le_add ((abs_sub _ _).trans (add_le_add b1 b2)) b3)
  calc _ ≤ |a| * (R ^ k * ((ω + δ) ^ 2 * (t - s) ^ 2 / 2) + R ^ k * (δ * |t - s|) + k * R ^ (k - 1) * |t - s|) :=
        mul_le_mul_of_nonneg_left this (abs_nonneg _)
    _ = _ := by ring

end Verif.Longitude
