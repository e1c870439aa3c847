import Verif.EclipseSearch
import Verif.Props.SolarEclipse
import Verif.Props.EclipseTable
import Mathlib.Analysis.Real.Pi.Bounds

/-!
# C91: the eclipse search examines each new moon once
-/

namespace Verif.Geom

open Real

/-- the mean new moon number `k`, in days from 2000 January 1, 12h -/
noncomputable def meanMoon (k : ℤ) : ℝ := 29.530588853 * k + 5.098

/-- within 9 days of the mean new moon the numbering gives its number -/
theorem suoN_near {k : ℤ} (hk : |k| ≤ 100000) {x : ℝ} (h : |x - meanMoon k| ≤ 9) : suoN x = k := by
  unfold meanMoon at h
  obtain ⟨h1, h2⟩ := abs_le.1 h
  obtain ⟨k1, k2⟩ := abs_le.1 hk
  have k1' : (-100000 : ℝ) ≤ k := by exact_mod_cast k1
  have k2' : (k : ℝ) ≤ 100000 := by exact_mod_cast k2
  unfold suoN
  rw [Int.floor_eq_iff, le_div_iff₀ (by norm_num), div_lt_iff₀ (by norm_num)]
  constructor <;> norm_num at h1 h2 ⊢ <;> linarith

theorem suoN_next {x : ℝ} {k : ℤ} (h : suoN x = k) : suoN (x + 29.5306) = k + 1 := by
  unfold suoN at h ⊢
  rw [Int.floor_eq_iff, le_div_iff₀ (by norm_num), div_lt_iff₀ (by norm_num)] at h ⊢
  push_cast
  constructor <;> norm_num at h ⊢ <;> linarith [h.1, h.2]

theorem secRad_ge : 206264 ≤ secRad := by
  unfold secRad
  rw [le_div_iff₀ pi_pos]
  have := pi_lt_d6
  norm_num at this ⊢
  linarith

theorem ecSpeed_ge (t : ℝ) : 6518 ≤ ecSpeed t := by
  unfold ecSpeed
  have s0 := sin_le_one (0.7848 + 8328.691425 * t + 0.0001523 * (t * t))
  have s1 := sin_le_one (2.543 + 15542.7543 * t)
  have s2 := sin_le_one (0.1874 + 7214.0629 * t)
  norm_num
  linarith

/-- what the series adds to the mean lead -/
theorem ecLead_mean {t : ℝ} (ht : |t| ≤ 82) : |ecLead t - (-1.084719 + 7771.377145013 * t - 0.0000331 * (t * t))| ≤ 0.211 := by
  have g : ∀ (A θ : ℝ), 0 ≤ A → |A * cos θ| ≤ A := fun A θ hA => by
    rw [abs_mul, abs_of_nonneg hA]; exact mul_le_of_le_one_right hA (abs_cos_le_one _)
  have gt : |43 * cos (2.67823 + 628.31 * t) * t| ≤ 43 * 82 := by
    rw [abs_mul]
    exact mul_le_mul (g 43 _ (by norm_num)) ht (abs_nonneg _) (by norm_num)
  unfold ecLead
  simp only []
  have e : ∀ a x : ℝ, a + x - a = x := fun a x => by ring
  rw [e]
  have r := secRad_ge
  have r0 : 0 < secRad := by linarith
  rw [abs_div, abs_of_pos r0, div_le_iff₀ r0]
  refine le_trans (b := 43500) ?_ (by norm_num at r ⊢; linarith)
  have a1 := abs_le.1 (g 22640 (0.785 + 8328.6914 * t + 0.000152 * (t * t)) (by norm_num))
  have a2 := abs_le.1 (g 4586 (0.19 + 7214.063 * t - 0.000218 * (t * t)) (by norm_num))
  have a3 := abs_le.1 (g 2370 (2.54 + 15542.754 * t - 0.000070 * (t * t)) (by norm_num))
  have a4 := abs_le.1 (g 769 (3.1 + 16657.383 * t) (by norm_num))
  have a5 := abs_le.1 (g 666 (1.5 + 628.302 * t) (by norm_num))
  have a6 := abs_le.1 (g 412 (4.8 + 16866.93 * t) (by norm_num))
  have a7 := abs_le.1 (g 212 (4.1 - 1114.63 * t) (by norm_num))
  have a8 := abs_le.1 (g 205 (0.2 + 6585.76 * t) (by norm_num))
  have a9 := abs_le.1 (g 192 (4.9 + 23871.45 * t) (by norm_num))
  have a10 := abs_le.1 (g 165 (2.6 + 14914.45 * t) (by norm_num))
  have a11 := abs_le.1 (g 147 (5.5 - 7700.39 * t) (by norm_num))
  have a12 := abs_le.1 (g 125 (0.5 + 7771.38 * t) (by norm_num))
  have a13 := abs_le.1 (g 109 (3.9 + 8956.99 * t) (by norm_num))
  have a14 := abs_le.1 (g 55 (5.6 - 1324.18 * t) (by norm_num))
  have a15 := abs_le.1 (g 45 (0.9 + 25195.62 * t) (by norm_num))
  have a16 := abs_le.1 (g 40 (3.8 - 8538.24 * t) (by norm_num))
  have a17 := abs_le.1 (g 38 (4.3 + 22756.82 * t) (by norm_num))
  have a18 := abs_le.1 (g 36 (5.5 + 24986.07 * t) (by norm_num))
  have a19 := abs_le.1 (g 6893 (4.669257 + 628.3076 * t) (by norm_num))
  have a20 := abs_le.1 (g 72 (4.6261 + 1256.62 * t) (by norm_num))
  have a21 := abs_le.1 gt
  clear g gt e
  rw [abs_le]
  constructor
  · linarith [a1.1, a2.1, a3.1, a4.1, a5.1, a6.1, a7.1, a8.1, a9.1, a10.1, a11.1, a12.1, a13.1, a14.1, a15.1, a16.1, a17.1, a18.1, a19.2, a20.2, a21.2]
  · linarith [a1.2, a2.2, a3.2, a4.2, a5.2, a6.2, a7.2, a8.2, a9.2, a10.2, a11.2, a12.2, a13.2, a14.2, a15.2, a16.2, a17.2, a18.2, a19.1, a20.1, a21.1]

theorem ecMean_near {k : ℤ} (hk : |k| ≤ 100000) : |ecMean (k * π * 2) * 36525 - meanMoon k| ≤ 1 ∧ |ecMean (k * π * 2)| ≤ 81 := by
  have p1 := pi_gt_d20
  have p2 := pi_lt_d20
  obtain ⟨k1, k2⟩ := abs_le.1 hk
  have k1' : (-100000 : ℝ) ≤ k := by exact_mod_cast k1
  have k2' : (k : ℝ) ≤ 100000 := by exact_mod_cast k2
  have ha : |(k : ℝ)| ≤ 100000 := abs_le.2 ⟨k1', k2'⟩
  obtain ⟨d, hd⟩ : ∃ d, d = π - 3.1415926535 := ⟨_, rfl⟩
  have hd' : |(k : ℝ) * d| ≤ 0.00001 := by
    rw [abs_mul]
    have : |d| ≤ 0.0000000001 := by rw [abs_le, hd]; norm_num at p1 p2 ⊢; constructor <;> linarith
    calc |(k : ℝ)| * |d| ≤ 100000 * 0.0000000001 := mul_le_mul ha this (abs_nonneg _) (by norm_num)
      _ = 0.00001 := by norm_num
  have e : ecMean (k * π * 2) = ((k : ℝ) * 6.283185307 + 2 * ((k : ℝ) * d) + 1.08472) / 7771.37714500204 := by
    unfold ecMean; rw [hd]; congr 1; ring
  obtain ⟨z1, z2⟩ := abs_le.1 hd'
  rw [e]
  unfold meanMoon
  generalize (k : ℝ) * d = z at *
  constructor
  · rw [abs_le]; constructor <;> norm_num at z1 z2 ⊢ <;> linarith
  · rw [abs_le]; constructor <;> norm_num at z1 z2 ⊢ <;> linarith

/-- the new moon `ecFast` finds is within eight days of the mean one (the truth is within one; this is all the numbering needs) -/
theorem ecNew_near {k : ℤ} (hk : |k| ≤ 100000) : |ecNew (k * π * 2) * 36525 - meanMoon k| ≤ 8 := by
  obtain ⟨h1, h2⟩ := ecMean_near hk
  obtain ⟨W, hW⟩ : ∃ W, W = (k : ℝ) * π * 2 := ⟨_, rfl⟩
  rw [← hW] at h1 h2 ⊢
  obtain ⟨t, ht⟩ : ∃ t, t = ecMean W := ⟨_, rfl⟩
  rw [← ht] at h1 h2
  have hWt : W = 7771.37714500204 * t - 1.08472 := by
    rw [ht]; unfold ecMean; field_simp; ring
  obtain ⟨δ, hδ⟩ : ∃ δ, δ = -0.0000331 * t * t + 0.10976 * cos (0.785 + 8328.6914 * t) := ⟨_, rfl⟩
  have sq : ∀ {u c : ℝ}, |u| ≤ c → |u * u| ≤ c * c := fun {u c} h => by
    rw [abs_mul]; exact mul_le_mul h h (abs_nonneg _) ((abs_nonneg _).trans h)
  have hδb : |δ| ≤ 0.33 := by
    have a := abs_le.1 (sq h2)
    have b1 := neg_one_le_cos (0.785 + 8328.6914 * t)
    have b2 := cos_le_one (0.785 + 8328.6914 * t)
    rw [hδ, mul_assoc (-0.0000331 : ℝ), abs_le]
    generalize cos (0.785 + 8328.6914 * t) = y at *
    generalize t * t = z at *
    norm_num at a ⊢
    constructor <;> linarith [a.1, a.2]
  obtain ⟨u, hu⟩ : ∃ u, u = ecNear t := ⟨_, rfl⟩
  have hu' : u = t - δ / 7771 := by rw [hu, hδ]; rfl
  have hN : ecNew W = u + (W - ecLead u) / ecSpeed u := by unfold ecNew; rw [← ht, ← hu]
  have hd7 := abs_le.1 hδb
  have ht' := abs_le.1 h2
  have hub : |u| ≤ 82 := by
    rw [hu', abs_le]; norm_num at hd7 ⊢; constructor <;> linarith [hd7.1, hd7.2, ht'.1, ht'.2]
  have hl := abs_le.1 (ecLead_mean hub)
  have hv := ecSpeed_ge u
  have hv0 : 0 < ecSpeed u := by linarith
  have hus := abs_le.1 (sq hub)
  have hq : |(W - ecLead u) / ecSpeed u| ≤ 0.78 / 6518 := by
    rw [abs_div, abs_of_pos hv0, div_le_div_iff₀ hv0 (by norm_num)]
    have : |W - ecLead u| ≤ 0.78 := by
      obtain ⟨y, hy⟩ : ∃ y, y = ecLead u - (-1.084719 + 7771.377145013 * u - 0.0000331 * (u * u)) := ⟨_, rfl⟩
      rw [← hy] at hl
      have e : W - ecLead u = 7771.37714500204 * t - 1.08472 + 1.084719 - 7771.377145013 * u + 0.0000331 * (u * u) - y := by rw [hWt, hy]; ring
      rw [e]
      generalize hz : u * u = z at *
      clear hz hy e hN hWt ht hW hv hv0
      rw [hu', abs_le]
      norm_num at hd7 hl hus ⊢
      constructor <;> linarith [hd7.1, hd7.2, ht'.1, ht'.2, hl.1, hl.2, hus.1, hus.2]
    have n := abs_nonneg (W - ecLead u)
    nlinarith
  rw [hN]
  have hq' := abs_le.1 hq
  have h1' := abs_le.1 h1
  generalize (W - ecLead u) / ecSpeed u = q at *
  rw [hu', abs_le]
  norm_num at hd7 hq' ⊢
  constructor <;> linarith [hd7.1, hd7.2, h1'.1, h1'.2, hq'.1, hq'.2]

theorem jd_ite {i : EcIn} {c : Prop} [Decidable c] {a b : EcFast} (ha : a.jd = i.jd0 ∨ a.jd = i.jd) (hb : b.jd = i.jd0 ∨ b.jd = i.jd) :
    (if c then a else b).jd = i.jd0 ∨ (if c then a else b).jd = i.jd := by
  by_cases h : c
  · rw [if_pos h]; exact ha
  · rw [if_neg h]; exact hb

theorem ecFast_jd (i : EcIn) : (ecFast i).jd = i.jd0 ∨ (ecFast i).jd = i.jd := by
  unfold ecFast
  refine jd_ite (Or.inl rfl) ?_
  refine jd_ite (Or.inr rfl) ?_
  refine jd_ite (Or.inr rfl) ?_
  refine jd_ite (Or.inr rfl) ?_
  refine jd_ite (Or.inr rfl) ?_
  exact jd_ite (Or.inr rfl) (Or.inr rfl)

/-- the instant `ecFast` reports belongs to the new moon it was asked for -/
theorem ecFastAt_near (o : Orbit) {jd : ℝ} {k : ℤ} (h : suoN jd = k) (hk : |k| ≤ 100000) : |(ecFastAt o jd).jd - meanMoon k| ≤ 8 := by
  have e : ⌊(jd + 8) / 29.5306⌋ = k := h
  unfold ecFastAt
  simp only [e]
  rcases ecFast_jd ⟨ecMean (k * π * 2) * 36525, ecArg (ecMean (k * π * 2)), ecNew (k * π * 2) * 36525, o.mB (ecNew (k * π * 2)), o.mR (ecNew (k * π * 2)),
    o.sR (ecNew (k * π * 2)), o.vL (ecNew (k * π * 2)), o.vB (ecNew (k * π * 2)), o.vR (ecNew (k * π * 2))⟩ with h1 | h1
  · rw [h1]; exact (ecMean_near hk).1.trans (by norm_num)
  · rw [h1]; exact ecNew_near hk

theorem ecFastAt_congr (o : Orbit) {x y : ℝ} (h : suoN x = suoN y) : ecFastAt o x = ecFastAt o y := by
  have e : ⌊(x + 8) / 29.5306⌋ = ⌊(y + 8) / 29.5306⌋ := h
  unfold ecFastAt
  rw [e]

/-- what the search finds for the new moon number `k`: the quick result if it is certain, otherwise the features of the table of that lunation -/
noncomputable def found (o : Orbit) (e : Eph) (feat : RsTab → ℝ × ℝ × String) (fs : Bool) (k : ℤ) : ℝ × String :=
  if (ecFastAt o (meanMoon k)).ac then ((ecFastAt o (meanMoon k)).jd, (ecFastAt o (meanMoon k)).lx)
  else ((feat ⟨e.newMoon k, build e k (if fs then 7 else 2)⟩).1, (feat ⟨e.newMoon k, build e k (if fs then 7 else 2)⟩).2.2)

/-- what earlier computations may have left in the table: nothing, or the table of some lunation in range -/
def Kept (e : Eph) (s : RsTab) : Prop := s.Zs = [] ∨ ∃ k m, |k| ≤ 100000 ∧ s = ⟨e.newMoon k, build e k m⟩

theorem kept_init {e : Eph} (hN : ∀ k, |k| ≤ 100000 → |e.newMoon k - meanMoon k| ≤ 3) {s : RsTab} (h : Kept e s) {jd : ℝ} {k : ℤ} (hj : suoN jd = k)
    {n : ℕ} (hn : 0 < n) : s.init e jd n = ⟨e.newMoon k, build e k n⟩ := by
  unfold RsTab.init
  rw [hj]
  by_cases hit : k = suoN s.Zjd ∧ s.Zs.length = n * 9
  · rw [if_pos hit]
    rcases h with h | ⟨k', m, hk', rfl⟩
    · obtain ⟨-, h2⟩ := hit
      rw [h] at h2; simp at h2; omega
    · obtain ⟨h1, h2⟩ := hit
      have := suoN_near hk' ((hN k' hk').trans (by norm_num))
      simp only [this] at h1
      simp only [build_length] at h2
      have hm : m = n := by omega
      rw [h1, hm]
  · rw [if_neg hit]

theorem kept_after {e : Eph} {s : RsTab} (h : Kept e s) {jd : ℝ} {n : ℕ} (hk : |suoN jd| ≤ 100000) : Kept e (s.init e jd n) := by
  unfold RsTab.init
  split_ifs
  · exact h
  · exact Or.inr ⟨_, _, hk, rfl⟩

/-- one round: the eclipse of the lunation, and on to the next one -/
theorem round_ok (o : Orbit) {e : Eph} {feat : RsTab → ℝ × ℝ × String} (date : ℝ → List Char) (fs : Bool)
    (hN : ∀ k, |k| ≤ 100000 → |e.newMoon k - meanMoon k| ≤ 3)
    (hF : ∀ k, |k| ≤ 100000 → |(feat ⟨e.newMoon k, build e k (if fs then 7 else 2)⟩).1 - meanMoon k| ≤ 8)
    {s : SearchTab} {k : ℤ} (hj : suoN s.q.jd = k) (hk : |k| ≤ 100000) (hs : Kept e s.tab) :
    ∃ (q' : Search) (tab' : RsTab), roundTab o e feat date fs s = ⟨{ q' with jd := (found o e feat fs k).1 + 29.5306 }, tab'⟩ ∧ Kept e tab' ∧ suoN ((found o e feat fs k).1 + 29.5306) = k + 1 ∧
      q'.k = (if (found o e feat fs k).2 ≠ "N" then s.q.k + 1 else s.q.k) ∧
      q'.s2 ++ q'.s = s.q.s2 ++ s.q.s ++ (if (found o e feat fs k).2 ≠ "N" then
        date (found o e feat fs k).1 ++ (found o e feat fs k).2.toList ++ (if (s.q.k + 1) % 5 = 0 then ['\n'] else []) else []) := by
  have hNN : (ecFastAt o s.q.jd).lx ≠ "NN" := by
    intro h
    have h2 := c43_quick_types ⟨ecMean (⌊(s.q.jd + 8) / 29.5306⌋ * π * 2) * 36525, ecArg (ecMean (⌊(s.q.jd + 8) / 29.5306⌋ * π * 2)), ecNew (⌊(s.q.jd + 8) / 29.5306⌋ * π * 2) * 36525, o.mB (ecNew (⌊(s.q.jd + 8) / 29.5306⌋ * π * 2)), o.mR (ecNew (⌊(s.q.jd + 8) / 29.5306⌋ * π * 2)),
      o.sR (ecNew (⌊(s.q.jd + 8) / 29.5306⌋ * π * 2)), o.vL (ecNew (⌊(s.q.jd + 8) / 29.5306⌋ * π * 2)), o.vB (ecNew (⌊(s.q.jd + 8) / 29.5306⌋ * π * 2)), o.vR (ecNew (⌊(s.q.jd + 8) / 29.5306⌋ * π * 2))⟩
    rw [show (ecFast _).lx = "NN" from h] at h2
    simp at h2
  have hm : ecFastAt o s.q.jd = ecFastAt o (meanMoon k) := ecFastAt_congr o (by rw [hj, suoN_near hk (by simp)])
  obtain ⟨r, hr⟩ : ∃ r, r = found o e feat fs k := ⟨_, rfl⟩
  obtain ⟨tab', ht⟩ : ∃ tab', tab' = (if (ecFastAt o s.q.jd).ac then s.tab else s.tab.init e s.q.jd (if fs then 7 else 2)) := ⟨_, rfl⟩
  have hkept : Kept e tab' := by
    rw [ht]
    split_ifs
    · exact hs
    · exact kept_after hs (by rw [hj]; exact hk)
    · exact kept_after hs (by rw [hj]; exact hk)
  have hfound : |r.1 - meanMoon k| ≤ 8 := by
    rw [hr]; unfold found
    by_cases ha : (ecFastAt o (meanMoon k)).ac = true
    · rw [if_pos ha]; exact ecFastAt_near o (suoN_near hk (by simp)) hk
    · rw [if_neg ha]; exact hF k hk
  have hround : roundTab o e feat date fs s = ⟨{ (if r.2 ≠ "N" then
            (if (s.q.k + 1) % 100 = 0 then
              { s.q with k := s.q.k + 1, s := [], s2 := s.q.s2 ++ (if (s.q.k + 1) % 5 = 0 then s.q.s ++ date r.1 ++ r.2.toList ++ ['\n'] else s.q.s ++ date r.1 ++ r.2.toList) }
             else { s.q with k := s.q.k + 1, s := (if (s.q.k + 1) % 5 = 0 then s.q.s ++ date r.1 ++ r.2.toList ++ ['\n'] else s.q.s ++ date r.1 ++ r.2.toList) })
           else s.q : Search) with jd := r.1 + 29.5306 }, tab'⟩ := by
    unfold roundTab
    simp only []
    rw [if_neg hNN, hr, ht]
    unfold found
    rw [← hm]
    by_cases ha : (ecFastAt o s.q.jd).ac = true
    · simp only [if_pos ha]
    · have hi := kept_init hN hs hj (n := if fs then 7 else 2) (by split <;> omega)
      simp only [if_neg ha, hi]
  rw [← hr]
  refine ⟨_, tab', hround, hkept, suoN_next (suoN_near hk (hfound.trans (by norm_num))), ?_, ?_⟩
  · by_cases h1 : r.2 = "N"
    · rw [if_neg (by simpa using h1), if_neg (by simpa using h1)]
    · rw [if_pos h1, if_pos h1]
      by_cases h2 : (s.q.k + 1) % 100 = 0
      · rw [if_pos h2]
      · rw [if_neg h2]
  · by_cases h1 : r.2 = "N"
    · rw [if_neg (by simpa using h1), if_neg (by simpa using h1)]; simp
    · rw [if_pos h1, if_pos h1]
      by_cases h2 : (s.q.k + 1) % 100 = 0 <;> by_cases h3 : (s.q.k + 1) % 5 = 0 <;> simp [h2, h3]

theorem rounds_ok (o : Orbit) {e : Eph} {feat : RsTab → ℝ × ℝ × String} (date : ℝ → List Char) (fs : Bool)
    (hN : ∀ k, |k| ≤ 100000 → |e.newMoon k - meanMoon k| ≤ 3)
    (hF : ∀ k, |k| ≤ 100000 → |(feat ⟨e.newMoon k, build e k (if fs then 7 else 2)⟩).1 - meanMoon k| ≤ 8) :
    ∀ (n : ℕ) (s : SearchTab) (k : ℤ), suoN s.q.jd = k → -100000 ≤ k → k + n ≤ 100000 → Kept e s.tab →
      Kept e ((roundTab o e feat date fs)^[n] s).tab ∧
      ((roundTab o e feat date fs)^[n] s).q.s2 ++ ((roundTab o e feat date fs)^[n] s).q.s =
        s.q.s2 ++ s.q.s ++ table date s.q.k (((List.range n).map (fun i : ℕ => found o e feat fs (k + i))).filter (fun r => r.2 ≠ "N")) := by
  intro n
  induction n with
  | zero => intro s k _ _ _ h; exact ⟨h, by simp [table]⟩
  | succ n ih =>
    intro s k hj h1 h2 hs
    push_cast at h2
    obtain ⟨q', tab', g1, g2, g3, g4, g5⟩ := round_ok o date fs hN hF hj (abs_le.2 ⟨by omega, by omega⟩) hs
    rw [Function.iterate_succ_apply, g1]
    obtain ⟨i1, i2⟩ := ih ⟨{ q' with jd := (found o e feat fs k).1 + 29.5306 }, tab'⟩ (k + 1) g3 (by omega) (by omega) g2
    refine ⟨i1, ?_⟩
    rw [i2]
    simp only []
    rw [g5, g4, List.range_succ_eq_map, List.map_cons, List.map_map]
    have hfun : ((fun i : ℕ => found o e feat fs (k + i)) ∘ Nat.succ) = fun i : ℕ => found o e feat fs (k + 1 + i) := by
      funext i
      simp only [Function.comp]
      congr 1
      push_cast
      ring
    rw [hfun]
    have h0 : k + ((0 : ℕ) : ℤ) = k := by simp
    rw [h0]
    by_cases hn : (found o e feat fs k).2 = "N"
    · rw [if_neg (by simpa using hn), if_neg (by simpa using hn), List.filter_cons_of_neg (by simpa using hn)]
      simp
    · rw [if_pos hn, if_pos hn, List.filter_cons_of_pos (by simpa using hn)]
      simp [table]

/-- **C91.**  A search for `n` new moons from the instant `x` examines exactly the new moons number `k`, `k+1`, …, `k+n-1`, where `k` is the number of the new moon at `x`, each once and
in order, and prints, five to a line, date and type of those with an eclipse — whatever was searched before.  The three provisos: all of it within 100000 new moons (8000 years) of the year
2000; the approximate new moon within three days of the mean one, and the greatest eclipse within eight. -/
theorem c91_search (o : Orbit) (e : Eph) (feat : RsTab → ℝ × ℝ × String) (date : ℝ → List Char) (fs : Bool)
    (hN : ∀ k, |k| ≤ 100000 → |e.newMoon k - meanMoon k| ≤ 3)
    (hF : ∀ k, |k| ≤ 100000 → |(feat ⟨e.newMoon k, build e k (if fs then 7 else 2)⟩).1 - meanMoon k| ≤ 8)
    (tab : RsTab) (hs : Kept e tab) (x : ℝ) (n : ℕ) (h1 : -100000 ≤ suoN x) (h2 : suoN x + n ≤ 100000) :
    (rsSearchTab o e feat date tab x n fs).1
      = table date 0 (((List.range n).map (fun i : ℕ => found o e feat fs (suoN x + i))).filter (fun r => r.2 ≠ "N")) ∧
    Kept e (rsSearchTab o e feat date tab x n fs).2 := by
  have hk : |suoN x| ≤ 100000 := abs_le.2 ⟨h1, by omega⟩
  obtain ⟨g1, g2⟩ := rounds_ok o date fs hN hF n ⟨⟨e.newMoon (suoN x), 0, [], []⟩, tab⟩ (suoN x) (suoN_near hk ((hN _ hk).trans (by norm_num))) h1 h2 hs
  exact ⟨by rw [List.nil_append, List.nil_append] at g2; exact g2, g1⟩

/-- **C91 (none is missed).**  Every new moon after `x` has a number not below that of the first one examined: if the new moon number `k`, at an instant `y` within nine days of
the mean one, is not before `x`, `k` is at least the first number. -/
theorem c91_none_missed {x y : ℝ} {k : ℤ} (hk : |k| ≤ 100000) (hy : |y - meanMoon k| ≤ 9) (h : x ≤ y) : suoN x ≤ k := by
  have := suoN_near hk hy
  rw [← this]
  unfold suoN
  exact Int.floor_le_floor (by norm_num; linarith)

/-- **C91 (the first one).**  The first new moon examined is, as a mean one, at most 18 days before `x` and at most 15 days after it. -/
theorem c91_first {x : ℝ} (hk : |suoN x| ≤ 100000) : -18 ≤ meanMoon (suoN x) - x ∧ meanMoon (suoN x) - x ≤ 15 := by
  obtain ⟨k, hkk⟩ : ∃ k, k = suoN x := ⟨_, rfl⟩
  rw [← hkk] at hk ⊢
  have h := hkk.symm
  unfold suoN at h
  rw [Int.floor_eq_iff, le_div_iff₀ (by norm_num), div_lt_iff₀ (by norm_num)] at h
  obtain ⟨k1, k2⟩ := abs_le.1 hk
  have k1' : (-100000 : ℝ) ≤ k := by exact_mod_cast k1
  have k2' : (k : ℝ) ≤ 100000 := by exact_mod_cast k2
  unfold meanMoon
  norm_num at h ⊢
  constructor <;> linarith [h.1, h.2]

/-- **C91 (the quick and the full computation speak of the same new moon).** -/
theorem c91_same_moon (o : Orbit) {jd : ℝ} (hk : |suoN jd| ≤ 100000) : suoN (ecFastAt o jd).jd = suoN jd :=
  suoN_near hk ((ecFastAt_near o rfl hk).trans (by norm_num))

/-- the hypotheses are met: an ephemeris with mean new moons, the greatest eclipse half a day after each, a table left from the new moon number 7 -/
example (o : Orbit) (date : ℝ → List Char) : (rsSearchTab o demoEph (fun s => (s.Zjd + 0.5, s.Zjd, "P")) date (RsTab.init demoEph RsTab.fresh 215 7) 3000 60 true).1
    = table date 0 (((List.range 60).map (fun i : ℕ => found o demoEph (fun s => (s.Zjd + 0.5, s.Zjd, "P")) true (101 + i))).filter (fun r => r.2 ≠ "N")) := by
  have h : suoN 3000 = 101 := by
    unfold suoN
    rw [Int.floor_eq_iff]; norm_num
  have hN : ∀ k : ℤ, |k| ≤ 100000 → |demoEph.newMoon k - meanMoon k| ≤ 3 := fun k _ => by
    rw [show demoEph.newMoon k = meanMoon k from rfl]; norm_num
  have hF : ∀ k : ℤ, |k| ≤ 100000 → |((fun s : RsTab => (s.Zjd + 0.5, s.Zjd, "P")) ⟨demoEph.newMoon k, build demoEph k (if true then 7 else 2)⟩).1 - meanMoon k| ≤ 8 := fun k _ => by
    show |meanMoon k + 0.5 - meanMoon k| ≤ 8
    rw [add_sub_cancel_left]; norm_num
  have := (c91_search o demoEph (fun s => (s.Zjd + 0.5, s.Zjd, "P")) date true hN hF (RsTab.init demoEph RsTab.fresh 215 7)
    (kept_after (Or.inl rfl) (by
      have : suoN 215 = 7 := by
        unfold suoN; rw [Int.floor_eq_iff]; norm_num
      rw [this]; norm_num)) 3000 60 (by rw [h]; norm_num) (by rw [h]; norm_num)).1
  rw [h] at this
  exact this

end Verif.Geom
