import Verif.SolarLocal
import Verif.Props.SolarEclipse
import Verif.Props.RiseSet
import Mathlib.Analysis.Real.Pi.Bounds
import Mathlib.Tactic.LinearCombination

/-!
# C71: local circumstances of a solar eclipse (exact arithmetic)
-/

namespace Verif.Geom

open Real

/-! ## a body passing at uniform speed -/

/-- the velocity and the line decide the contact time, not the instant the extrapolation starts from -/
theorem lineT_shift (x y v u r t0 : ℝ) (hv : 0 < v) (n : Bool) :
    lineT (x + v * t0) (y + u * t0) t0 v u r n = lineT x y 0 v u r n := by
  unfold lineT
  simp only []
  rw [show (y + u * t0) * v - (x + v * t0) * u = y * v - x * u by ring]
  split_ifs
  · rfl
  · field_simp; ring
  · field_simp; ring

/-- the two solutions of `lineT` bound the time spent within the distance `r` -/
theorem lineT_passage {x y v u r tm : ℝ} (hv : 0 < v) (hr0 : 0 ≤ r) (d : ℝ → ℝ) (hd : ∀ t, d t = √((x + v * t) ^ 2 + (y + u * t) ^ 2))
    (htm0 : v * (x + v * tm) + u * (y + u * tm) = 0) (hle : d tm ≤ r) (t1 t2 : ℝ) (ht1 : t1 = lineT x y 0 v u r false)
    (ht2 : t2 = lineT x y 0 v u r true) :
    d t1 = r ∧ d t2 = r ∧ t1 ≤ tm ∧ tm ≤ t2 ∧ ∀ t, d t ≤ r ↔ t1 ≤ t ∧ t ≤ t2 := by
  have hvv : 0 < u * u + v * v := by nlinarith [mul_self_nonneg u]
  have hpos : ∀ t, 0 ≤ d t := fun t => by rw [hd]; exact sqrt_nonneg _
  have hsq : ∀ t, d t ^ 2 = (x + v * t) ^ 2 + (y + u * t) ^ 2 := fun t => by rw [hd, sq_sqrt (by positivity)]
  have hexp : ∀ t, d t ^ 2 = d tm ^ 2 + (t - tm) ^ 2 * (u * u + v * v) := by
    intro t
    rw [hsq, hsq]
    linear_combination (2 * (t - tm)) * htm0
  have hfar := c41_lineT x y 0 v u r hv (fun τ => d τ = r) (by
    intro τ
    rw [sub_zero]
    constructor
    · intro h
      have := hsq τ
      rw [h] at this
      rw [this]
    · intro h
      have h2 : d τ ^ 2 = r ^ 2 := by rw [hsq, ← h]
      exact (pow_left_inj₀ (hpos τ) hr0 (by norm_num)).1 h2)
  obtain ⟨k, hk0, hk⟩ : ∃ k : ℝ, 0 ≤ k ∧ k ^ 2 * (u * u + v * v) = r ^ 2 - d tm ^ 2 := by
    refine ⟨√((r ^ 2 - d tm ^ 2) / (u * u + v * v)), sqrt_nonneg _, ?_⟩
    rw [sq_sqrt (div_nonneg (by nlinarith [hpos tm]) hvv.le)]
    field_simp
  have hk1 : d (tm + k) = r := by
    have : d (tm + k) ^ 2 = r ^ 2 := by rw [hexp]; linear_combination hk
    exact (pow_left_inj₀ (hpos _) hr0 (by norm_num)).1 this
  have hk2 : d (tm - k) = r := by
    have : d (tm - k) ^ 2 = r ^ 2 := by rw [hexp]; linear_combination hk
    exact (pow_left_inj₀ (hpos _) hr0 (by norm_num)).1 this
  obtain ⟨a, b, cc, e⟩ := hfar.1 ⟨_, hk1⟩
  have only : ∀ t, d t = r → t = tm - k ∨ t = tm + k := by
    intro t ht
    have h2 : d t ^ 2 = r ^ 2 := by rw [ht]
    rw [hexp] at h2
    have h3 : ((t - tm) ^ 2 - k ^ 2) * (u * u + v * v) = 0 := by linear_combination h2 - hk
    have h4 : (t - tm - k) * (t - tm + k) = 0 := by
      rcases mul_eq_zero.1 h3 with h | h
      · linear_combination h
      · exact absurd h hvv.ne'
    rcases mul_eq_zero.1 h4 with h | h
    · right; linarith
    · left; linarith
  have e1 := e (tm - k) hk2
  have e2 := e (tm + k) hk1
  have a1 := only _ a
  have b1 := only _ b
  rw [← ht1] at a cc a1 e1 e2
  rw [← ht2] at b cc b1 e1 e2
  have f1 : t1 = tm - k := by
    rcases a1 with h | h
    · exact h
    · rcases e1 with g | g
      · rw [← g]
      · linarith
  have f2 : t2 = tm + k := by
    rcases b1 with h | h
    · rcases e2 with g | g
      · linarith
      · rw [← g]
    · exact h
  refine ⟨a, b, by linarith, by linarith, fun t => ?_⟩
  have hd1 : d t ≤ r ↔ (t - tm) ^ 2 ≤ k ^ 2 := by
    rw [← sq_le_sq₀ (hpos t) hr0, hexp t]
    constructor
    · intro h
      refine le_of_mul_le_mul_right (a := u * u + v * v) ?_ hvv
      linarith
    · intro h
      have := mul_le_mul_of_nonneg_right h hvv.le
      linarith
  rw [hd1, sq_le_sq, abs_of_nonneg hk0, abs_le, f1, f2]
  constructor
  · rintro ⟨h1, h2⟩; exact ⟨by linarith, by linarith⟩
  · rintro ⟨h1, h2⟩; exact ⟨by linarith, by linarith⟩

/-! ## Sunrise and sunset -/

/-- the hour angle at which the rough rise/set formula looks for the sun -/
noncomputable def horizonCos (fa D : ℝ) : ℝ := (sin (-50 * 60 / (180 * 3600 / π)) - sin fa * sin D) / (cos fa * cos D)

/-- With a sun of constant declination turning once a day: the result is 0 if the sun does not cross the altitude −50′, otherwise an
instant at which its hour angle is, up to full turns and one millionth of a radian, the one of that altitude (before or after the
meridian as asked), not more than half a day and a little from the noon of the site's day. -/
theorem c71_sunrise (sun : ℝ → SunPlace) (L fa θ δ jd sj H : ℝ) (hh : ∀ t, (sun t).gst + L - (sun t).A = θ + 2 * π * t)
    (hD : ∀ t, (sun t).D = δ) (hf : 0 < cos fa) (hδ : 0 < cos δ) (hH : H = arccos (horizonCos fa δ))
    (h1 : sj = 1 ∨ sj = -1) :
    (1 ≤ |horizonCos fa δ| → sunShengJ sun L fa jd sj = 0)
    ∧ (|horizonCos fa δ| < 1 → sinAlt fa δ (sj * H) = sin (-(50 / 60) * (π / 180)))
    ∧ (|horizonCos fa δ| < 1 → (∃ k : ℤ, |θ + 2 * π * sunShengJ sun L fa jd sj + 2 * π * k - sj * H| ≤ 1 / 1000000)
        ∧ |sunShengJ sun L fa jd sj - (⌊jd + 1 / 2⌋ - L / (2 * π))| ≤ 0.501) := by
  have hp1 := Real.pi_gt_d6
  have hp2 := Real.pi_lt_d6
  have hround : ∀ t, shengRound sun L fa sj t = if |horizonCos fa δ| ≥ 1 then none else some (t + rrad (sj * H - (θ + 2 * π * t)) / 6.28) := by
    intro t
    unfold shengRound
    simp only [hh, hD, hH]
    rfl
  refine ⟨fun h => ?_, fun h => ?_, fun h => ?_⟩
  · unfold sunShengJ
    simp only [hround, ge_iff_le, if_pos h]
  · have hc : cos (sj * H) = horizonCos fa δ := by
      have : cos H = horizonCos fa δ := by
        rw [hH]; exact cos_arccos (abs_lt.1 h).1.le (abs_lt.1 h).2.le
      rcases h1 with rfl | rfl
      · rw [one_mul, this]
      · rw [neg_one_mul, cos_neg, this]
    unfold sinAlt
    rw [hc, horizonCos, show -50 * 60 / (180 * 3600 / π) = -(50 / 60) * (π / 180) by field_simp; norm_num]
    field_simp
    ring
  · obtain ⟨t0, ht0⟩ : ∃ t0 : ℝ, t0 = ⌊jd + 1 / 2⌋ - L / (2 * π) := ⟨_, rfl⟩
    obtain ⟨a, ha⟩ : ∃ a, a = rrad (sj * H - (θ + 2 * π * t0)) := ⟨_, rfl⟩
    obtain ⟨a1, a2, k, hk⟩ := c36_rrad_real (sj * H - (θ + 2 * π * t0))
    rw [← ha] at a1 a2 hk
    obtain ⟨κ, hκ⟩ : ∃ κ : ℝ, κ = 1 - 2 * π / 6.28 := ⟨_, rfl⟩
    have hκ' : κ = 1 - π * (50 / 157) := by rw [hκ]; norm_num; ring
    have κ1 : -(508 / 1000000) ≤ κ := by rw [hκ']; norm_num at hp2 ⊢; linarith
    have κ2 : κ ≤ 0 := by rw [hκ']; norm_num at hp1 ⊢; linarith
    have haa : |a| ≤ π := abs_le.2 ⟨a1.le, a2⟩
    have hκa : |κ| ≤ 508 / 1000000 := abs_le.2 ⟨κ1, by linarith⟩
    obtain ⟨b, hb⟩ : ∃ b, b = κ * a := ⟨_, rfl⟩
    have hbb : |b| ≤ 1596 / 1000000 := by
      rw [hb, abs_mul]
      calc |κ| * |a| ≤ (508 / 1000000) * π := mul_le_mul hκa haa (abs_nonneg _) (by norm_num)
        _ ≤ _ := by linarith
    obtain ⟨b1, b2⟩ := abs_le.1 hbb
    obtain ⟨t1, ht1⟩ : ∃ t1, t1 = t0 + a / 6.28 := ⟨_, rfl⟩
    have hr1 : rrad (sj * H - (θ + 2 * π * t1)) = b := by
      refine c36_rrad_unique _ _ ⟨by linarith, by linarith⟩ k ?_
      rw [hb, hκ, ht1]
      have : sj * H - (θ + 2 * π * t0) = a - 2 * π * k := by linarith
      linear_combination -this
    have hres : sunShengJ sun L fa jd sj = t1 + b / 6.28 := by
      unfold sunShengJ
      rw [show (0.5 : ℝ) = 1 / 2 by norm_num]
      simp only [hround, ge_iff_le, if_neg (not_le.2 h), ← ht0, ← ha, ← ht1, hr1]
    rw [hres]
    refine ⟨⟨-k, ?_⟩, ?_⟩
    · have : θ + 2 * π * (t1 + b / 6.28) + 2 * π * ((-k : ℤ) : ℝ) - sj * H = -(κ * b) := by
        push_cast
        have e : sj * H - (θ + 2 * π * t0) = a - 2 * π * k := by linarith
        rw [ht1, hκ]
        have hb' := hb
        rw [hκ] at hb'
        linear_combination -e + hb'
      rw [this, abs_neg, abs_mul]
      calc |κ| * |b| ≤ (508 / 1000000) * (1596 / 1000000) := mul_le_mul hκa hbb (abs_nonneg _) (by norm_num)
        _ ≤ _ := by norm_num
    · rw [← ht0, ht1]
      have e : t0 + a / 6.28 + b / 6.28 - t0 = (a + b) / 6.28 := by ring
      rw [e, abs_le]
      constructor
      · rw [le_div_iff₀ (by norm_num)]; linarith
      · rw [div_le_iff₀ (by norm_num)]; linarith

/-! ## The instant of greatest eclipse -/

theorem probe_fold (e : PlEnv) (jd : ℝ) : ∀ (l : List ℤ) (m : ℝ × ℝ), (0 ≤ m.1 ∧ (m.1 = 0 ∨ m.1 = (e.secXY m.2).depth)) →
    ∃ m', m' = l.foldl (e.probe jd) m ∧ m.1 ≤ m'.1 ∧ (0 ≤ m'.1 ∧ (m'.1 = 0 ∨ m'.1 = (e.secXY m'.2).depth))
      ∧ (∀ i ∈ l, (e.secXY (jd + i / 86400)).depth ≤ m'.1) ∧ (m' = m ∨ (m.1 < m'.1 ∧ ∃ i ∈ l, m'.2 = jd + i / 86400)) := by
  intro l
  induction l with
  | nil => intro m hm; exact ⟨m, rfl, le_refl _, hm, by simp, Or.inl rfl⟩
  | cons i l ih =>
    intro m hm
    rw [List.foldl_cons]
    by_cases h : (e.secXY (jd + i / 86400)).depth > m.1
    · have hp : e.probe jd m i = ((e.secXY (jd + i / 86400)).depth, jd + i / 86400) := by
        unfold PlEnv.probe; simp only []; rw [if_pos h]
      rw [hp]
      obtain ⟨m', e1, e2, e3, e4, e5⟩ := ih ((e.secXY (jd + i / 86400)).depth, jd + i / 86400) ⟨by simp only []; linarith [hm.1], Or.inr rfl⟩
      simp only [] at e2
      refine ⟨m', e1, by linarith, e3, ?_, Or.inr ⟨by linarith, ?_⟩⟩
      · intro j hj
        rcases List.mem_cons.1 hj with rfl | hj
        · exact e2
        · exact e4 j hj
      · rcases e5 with e5 | ⟨-, j, hj, e5⟩
        · exact ⟨i, List.mem_cons_self, by rw [e5]⟩
        · exact ⟨j, List.mem_cons_of_mem _ hj, e5⟩
    · have hp : e.probe jd m i = m := by
        unfold PlEnv.probe; simp only []; rw [if_neg h]
      rw [hp]
      obtain ⟨m', e1, e2, e3, e4, e5⟩ := ih m hm
      refine ⟨m', e1, e2, e3, ?_, ?_⟩
      · intro j hj
        rcases List.mem_cons.1 hj with rfl | hj
        · exact (not_lt.1 h).trans e2
        · exact e4 j hj
      · rcases e5 with e5 | ⟨e5, j, hj, e6⟩
        · exact Or.inl e5
        · exact Or.inr ⟨e5, j, List.mem_cons_of_mem _ hj, e6⟩

/-- The instant `T` that `secMax` treats as greatest eclipse: no sampled instant — every 6 seconds in the half minute before and after
the estimate `T0`, then every second in the 5 seconds before and after the best of those, `T1` — shows a deeper eclipse (`depth` is the
covered part of the sun's diameter), and `T` is `T0` itself when no sample shows any. -/
theorem c71_instant (e : PlEnv) (jd T : ℝ) (hT : T = (e.greatest jd).2.2) :
    ∃ T0 T1, (∀ i : ℤ, -5 ≤ i → i < 5 → (e.secXY (T0 + i * 6 / 86400)).depth ≤ max 0 (e.secXY T).depth)
      ∧ (∀ i : ℤ, -5 ≤ i → i < 5 → (e.secXY (T1 + i / 86400)).depth ≤ max 0 (e.secXY T).depth)
      ∧ |T1 - T0| ≤ 30 / 86400 ∧ |T - T1| ≤ 5 / 86400 ∧ (T = T0 ∨ 0 < (e.secXY T).depth) := by
  obtain ⟨T0, hT0⟩ : ∃ T0, T0 = (e.approach (e.approach (e.near jd - (e.secXY (e.near jd)).x / 0.2128)).2.2).2.2 := ⟨_, rfl⟩
  obtain ⟨m, h1, h2, h3, h4, h5⟩ := probe_fold e T0 coarse (0, T0) ⟨le_refl _, Or.inl rfl⟩
  obtain ⟨n, k1, k2, k3, k4, k5⟩ := probe_fold e m.2 fine m h3
  have hTn : T = n.2 := by
    rw [hT, k1, h1, hT0]; rfl
  have hmax : n.1 ≤ max 0 (e.secXY T).depth := by
    rw [hTn]
    rcases k3.2 with h | h
    · rw [h]; exact le_max_left _ _
    · rw [h]; exact le_max_right _ _
  have c1 : |m.2 - T0| ≤ 30 / 86400 := by
    rcases h5 with h | ⟨-, i, hi, h⟩
    · rw [h]; norm_num
    · rw [h, add_sub_cancel_left]
      have : i ≤ 30 ∧ -30 ≤ i := by revert hi; unfold coarse; simp only [List.mem_cons, List.not_mem_nil, or_false]; omega
      have b1 : (i : ℝ) ≤ 30 := by exact_mod_cast this.1
      have b2 : (-30 : ℝ) ≤ i := by exact_mod_cast this.2
      rw [abs_le]; constructor
      · linarith
      · linarith
  have c2 : |T - m.2| ≤ 5 / 86400 := by
    rw [hTn]
    rcases k5 with h | ⟨-, i, hi, h⟩
    · rw [h]; norm_num
    · rw [h, add_sub_cancel_left]
      have : i ≤ 5 ∧ -5 ≤ i := by revert hi; unfold fine; simp only [List.mem_cons, List.not_mem_nil, or_false]; omega
      have b1 : (i : ℝ) ≤ 5 := by exact_mod_cast this.1
      have b2 : (-5 : ℝ) ≤ i := by exact_mod_cast this.2
      rw [abs_le]; constructor
      · linarith
      · linarith
  refine ⟨T0, m.2, ?_, ?_, c1, c2, ?_⟩
  · intro i hi1 hi2
    have hm : i * 6 ∈ coarse := by
      unfold coarse; simp only [List.mem_cons, List.not_mem_nil, or_false]; omega
    have := h4 _ hm
    push_cast at this
    exact (this.trans k2).trans hmax
  · intro i hi1 hi2
    have hm : i ∈ fine := by
      unfold fine; simp only [List.mem_cons, List.not_mem_nil, or_false]; omega
    exact (k4 _ hm).trans hmax
  · have pos : 0 < n.1 → 0 < (e.secXY T).depth := by
      intro h
      rw [hTn]
      rcases k3.2 with h' | h'
      · linarith
      · rw [← h']; exact h
    rcases k5 with h | ⟨h, -⟩
    · rcases h5 with h' | ⟨h', -⟩
      · left; rw [hTn, h, h']
      · right; apply pos; rw [h]; exact h'
    · right; exact pos (lt_of_le_of_lt h3.1 h)

/-! ## The result of `secMax` -/

variable {e : PlEnv} {jd : ℝ}

/-- the situation at greatest eclipse: instant, velocity, place, sunrise and sunset in dynamical time -/
structure Local (e : PlEnv) (jd : ℝ) where
  T : ℝ
  hT : T = (e.greatest jd).2.2
  u : ℝ
  hu : u = (e.greatest jd).1
  v : ℝ
  hv : v = (e.greatest jd).2.1
  G : Sec
  hG : G = e.secXY T
  r : ℝ
  hr : r = √(G.x * G.x + G.y * G.y)
  rise : ℝ
  hrise : rise = sunShengJ e.sun e.L e.fa (T - e.dtT T + e.L / (2 * π)) (-1) + e.dtT T
  set : ℝ
  hset : set = sunShengJ e.sun e.L e.fa (T - e.dtT T + e.L / (2 * π)) 1 + e.dtT T

theorem exists_local (e : PlEnv) (jd : ℝ) : Nonempty (Local e jd) :=
  ⟨⟨_, rfl, _, rfl, _, rfl, _, rfl, _, rfl, _, rfl, _, rfl⟩⟩

/-- the five times before those outside daylight are erased -/
noncomputable def Local.raw (S : Local e jd) : Fin 5 → ℝ := fun i => match i with
  | 0 => if S.r ≤ S.G.mr + S.G.sr then (e.contact3 S.G S.v S.u (fun g => g.mr + g.sr) false).1 else 0
  | 1 => if S.r ≤ S.G.mr + S.G.sr then S.T else 0
  | 2 => if S.r ≤ S.G.mr + S.G.sr then (e.contact3 S.G S.v S.u (fun g => g.mr + g.sr) true).1 else 0
  | 3 => if S.r ≤ S.G.sr - S.G.mr then e.contact1 S.G S.v S.u (fun g => g.sr - g.mr) false
         else if S.r ≤ S.G.mr - S.G.sr then e.contact1 S.G S.v S.u (fun g => g.mr - g.sr) false else 0
  | 4 => if S.r ≤ S.G.sr - S.G.mr then e.contact1 S.G S.v S.u (fun g => g.sr - g.mr) true
         else if S.r ≤ S.G.mr - S.G.sr then e.contact1 S.G S.v S.u (fun g => g.mr - g.sr) true else 0

theorem secMax_fields (S : Local e jd) (s R : Pl) (hR : R = secMax e s jd) :
    R.LX = (if S.r ≤ S.G.sr - S.G.mr then "环" else if S.r ≤ S.G.mr - S.G.sr then "全" else if S.r ≤ S.G.mr + S.G.sr then "偏" else "")
    ∧ (∀ i, R.sT i = if S.raw i < S.rise ∨ S.raw i > S.set then 0 else S.raw i)
    ∧ R.dur = S.raw 4 - S.raw 3
    ∧ R.b1 = (if S.r ≤ S.G.mr + S.G.sr then S.G.mr / S.G.sr else 1)
    ∧ R.sun_s = S.rise - e.dtT S.T ∧ R.sun_j = S.set - e.dtT S.T
    ∧ R.sf2 = (if S.r ≤ S.G.mr + S.G.sr then max 0 (e.secXY S.rise).depth else 0)
    ∧ R.sf3 = (if S.r ≤ S.G.mr + S.G.sr then max 0 (e.secXY S.set).depth else 0)
    ∧ (R.sf, R.sflx) = (if S.raw 1 > S.set ∧ R.sf3 > 0 then (R.sf3, "*") else if S.raw 1 < S.rise ∧ R.sf2 > 0 then (R.sf2, "#")
        else if S.r ≤ S.G.mr + S.G.sr then (S.G.depth, " ") else (0, " ")) := by
  obtain ⟨T, hT, u, hu, v, hv, G, hG, r, hr, rise, hrise, set, hset⟩ := S
  unfold secMax at hR
  simp only [← hT, ← hu, ← hv, ← hG, ← hr, ← hrise, ← hset] at hR
  obtain ⟨s0, hs0⟩ : ∃ s0 : Pl, s0 = { s.reset with sun_s := rise, sun_j := set } := ⟨_, rfl⟩
  rw [← hs0] at hR
  have hclamp : ∀ x : ℝ, (if x < 0 then 0 else x) = max 0 x := by
    intro x
    split_ifs with h
    · rw [max_eq_left h.le]
    · rw [max_eq_right (not_lt.1 h)]
  -- after the first block
  obtain ⟨s1, hs1⟩ : ∃ s1, s1 = e.partialStage G u v T r s0 := ⟨_, rfl⟩
  have p1 : s1.LX = (if r ≤ G.mr + G.sr then "偏" else "") ∧ s1.dur = 0 ∧ s1.b1 = (if r ≤ G.mr + G.sr then G.mr / G.sr else 1)
      ∧ s1.sun_s = rise ∧ s1.sun_j = set ∧ s1.sf2 = (if r ≤ G.mr + G.sr then max 0 (e.secXY rise).depth else 0)
      ∧ s1.sf3 = (if r ≤ G.mr + G.sr then max 0 (e.secXY set).depth else 0) ∧ s1.sf = (if r ≤ G.mr + G.sr then G.depth else 0)
      ∧ s1.sflx = " "
      ∧ (∀ i, s1.sT i = match i with
        | 0 => if r ≤ G.mr + G.sr then (e.contact3 G v u (fun g => g.mr + g.sr) false).1 else 0
        | 1 => if r ≤ G.mr + G.sr then T else 0
        | 2 => if r ≤ G.mr + G.sr then (e.contact3 G v u (fun g => g.mr + g.sr) true).1 else 0
        | 3 => 0
        | 4 => 0) := by
    rw [hs1, hs0]
    unfold PlEnv.partialStage
    by_cases h : r ≤ G.mr + G.sr
    · simp only [if_pos h]
      have hd : (G.mr + G.sr - r) / G.sr / 2 = G.depth := by rw [hr]; rfl
      by_cases h2 : (e.secXY rise).depth < 0 <;> by_cases h3 : (e.secXY set).depth < 0
      all_goals
        simp only [Pl.set, Pl.reset, h2, h3, if_true, if_false, ← hclamp, hd]
        refine ⟨trivial, trivial, trivial, trivial, trivial, trivial, trivial, trivial, trivial, fun i => ?_⟩
        fin_cases i <;> rfl
    · simp only [if_neg h, Pl.reset]
      refine ⟨trivial, trivial, trivial, trivial, trivial, trivial, trivial, trivial, trivial, fun i => ?_⟩
      fin_cases i <;> rfl
  rw [← hs1] at hR
  obtain ⟨p1, p2, p3, p4, p5, p6, p7, p8, p9, p10⟩ := p1
  -- after the second
  obtain ⟨s2, hs2⟩ : ∃ s2, s2 = e.totalStage G u v r s1 := ⟨_, rfl⟩
  rw [← hs2] at hR
  obtain ⟨s3, hs3⟩ : ∃ s3, s3 = e.ringStage G u v r s2 := ⟨_, rfl⟩
  rw [← hs3] at hR
  have q : s3.b1 = s1.b1 ∧ s3.sun_s = s1.sun_s ∧ s3.sun_j = s1.sun_j ∧ s3.sf2 = s1.sf2 ∧ s3.sf3 = s1.sf3 ∧ s3.sf = s1.sf
      ∧ s3.sflx = s1.sflx ∧ s3.sT 0 = s1.sT 0 ∧ s3.sT 1 = s1.sT 1 ∧ s3.sT 2 = s1.sT 2
      ∧ s3.LX = (if r ≤ G.sr - G.mr then "环" else if r ≤ G.mr - G.sr then "全" else s1.LX)
      ∧ s3.sT 3 = (if r ≤ G.sr - G.mr then e.contact1 G v u (fun g => g.sr - g.mr) false
         else if r ≤ G.mr - G.sr then e.contact1 G v u (fun g => g.mr - g.sr) false else s1.sT 3)
      ∧ s3.sT 4 = (if r ≤ G.sr - G.mr then e.contact1 G v u (fun g => g.sr - g.mr) true
         else if r ≤ G.mr - G.sr then e.contact1 G v u (fun g => g.mr - g.sr) true else s1.sT 4)
      ∧ s3.dur = (if r ≤ G.sr - G.mr ∨ r ≤ G.mr - G.sr then s3.sT 4 - s3.sT 3 else s1.dur) := by
    rw [hs3, hs2]
    unfold PlEnv.ringStage PlEnv.totalStage
    by_cases h1 : r ≤ G.sr - G.mr <;> by_cases h2 : r ≤ G.mr - G.sr <;>
      simp [h1, h2, Pl.set]
  obtain ⟨q1, q2, q3, q4, q5, q6, q7, q8, q9, q10, q11, q12, q13, q14⟩ := q
  rw [p3] at q1; rw [p4] at q2; rw [p5] at q3; rw [p6] at q4; rw [p7] at q5; rw [p8] at q6; rw [p9] at q7
  rw [p10] at q8 q9 q10 q12 q13
  rw [p1] at q11; rw [p2] at q14
  simp only [] at q8 q9 q10 q12 q13
  -- the end
  have z : R.LX = s3.LX ∧ R.dur = s3.dur ∧ R.b1 = s3.b1 ∧ R.sun_s = s3.sun_s - e.dtT T ∧ R.sun_j = s3.sun_j - e.dtT T ∧ R.sf2 = s3.sf2
      ∧ R.sf3 = s3.sf3 ∧ (∀ i, R.sT i = if s3.sT i < s3.sun_s ∨ s3.sT i > s3.sun_j then 0 else s3.sT i)
      ∧ (R.sf, R.sflx) = (if s3.sT 1 > s3.sun_j ∧ s3.sf3 > 0 then (s3.sf3, "*") else if s3.sT 1 < s3.sun_s ∧ s3.sf2 > 0 then (s3.sf2, "#")
          else (s3.sf, s3.sflx)) := by
    rw [hR]
    unfold PlEnv.finish
    by_cases h1 : s3.sT 1 < s3.sun_s ∧ s3.sf2 > 0 <;> by_cases h2 : s3.sT 1 > s3.sun_j ∧ s3.sf3 > 0 <;>
      simp only [if_pos, if_neg, h1, h2, and_self, implies_true, not_false_eq_true, if_true, if_false]
  obtain ⟨z1, z2, z3, z4, z5, z6, z7, z8, z9⟩ := z
  refine ⟨by rw [z1, q11], fun i => ?_, ?_, by rw [z3, q1], by rw [z4, q2], by rw [z5, q3], by rw [z6, q4], by rw [z7, q5], ?_⟩
  · have : s3.sT i = Local.raw ⟨T, hT, u, hu, v, hv, G, hG, r, hr, rise, hrise, set, hset⟩ i := by
      fin_cases i
      · exact q8
      · exact q9
      · exact q10
      · exact q12
      · exact q13
    rw [z8, this, q2, q3]
  · rw [z2, q14, q12, q13]
    unfold Local.raw
    simp only []
    by_cases h1 : r ≤ G.sr - G.mr <;> by_cases h2 : r ≤ G.mr - G.sr <;> simp [h1, h2]
  · rw [z9, z6, z7, q9, q2, q3, q6, q7]
    unfold Local.raw
    simp only []
    by_cases h : r ≤ G.mr + G.sr
    · simp only [if_pos h]
    · simp only [if_neg h]

/-- the centre of the moon's disc, the sun's being the origin -/
noncomputable def Sec.moon (g : Sec) : ℂ := ⟨g.x, g.y⟩

theorem Local.norm (S : Local e jd) : S.r = ‖S.G.moon‖ := by rw [S.hr, Sec.moon, norm_mk]

theorem depth_eq (g : Sec) : g.depth = (g.mr + g.sr - ‖g.moon‖) / g.sr / 2 := by unfold Sec.depth; rw [Sec.moon, norm_mk]

/-- C71, classification: for every ephemeris, site and history (former content `s`), `T` being the instant of `c71_instant` and `g` what
the site sees then: 环 exactly when the moon's disc lies within the sun's, 全 exactly when the sun's lies within the moon's and not
conversely, 偏 exactly when they only overlap, empty when they do not meet.  Without an eclipse every result has its neutral value, and
the two inner contacts and the duration are set for central phases only. -/
theorem c71_classification (e : PlEnv) (s R : Pl) (jd T : ℝ) (hT : T = (e.greatest jd).2.2) (hR : R = secMax e s jd) (g : Sec)
    (hg : g = e.secXY T) (hm : 0 < g.mr) (hs : 0 < g.sr) :
    (R.LX = "环" ↔ disc g.moon g.mr ⊆ disc 0 g.sr)
    ∧ (R.LX = "全" ↔ disc 0 g.sr ⊆ disc g.moon g.mr ∧ ¬ disc g.moon g.mr ⊆ disc 0 g.sr)
    ∧ (R.LX = "偏" ↔ (disc g.moon g.mr ∩ disc 0 g.sr).Nonempty ∧ ¬ disc 0 g.sr ⊆ disc g.moon g.mr ∧ ¬ disc g.moon g.mr ⊆ disc 0 g.sr)
    ∧ (R.LX = "" ↔ ¬ (disc g.moon g.mr ∩ disc 0 g.sr).Nonempty)
    ∧ (R.LX = "" → (∀ i, R.sT i = 0) ∧ R.sf = 0 ∧ R.sflx = " " ∧ R.b1 = 1 ∧ R.dur = 0 ∧ R.sf2 = 0 ∧ R.sf3 = 0)
    ∧ (R.LX ≠ "" → R.b1 = g.mr / g.sr)
    ∧ (R.LX ≠ "环" → R.LX ≠ "全" → R.sT 3 = 0 ∧ R.sT 4 = 0 ∧ R.dur = 0) := by
  obtain ⟨S⟩ := exists_local e jd
  obtain ⟨f1, f2, f3, f4, -, -, f7, f8, f9⟩ := secMax_fields S s R hR
  have hST : S.T = T := by rw [S.hT, hT]
  have hSG : S.G = g := by rw [S.hG, hST, hg]
  have hn := S.norm
  rw [hSG] at hn f1 f4 f7 f8 f9
  rw [disc_subset hm.le, disc_meet hm hs.le, disc_subset' hs.le, zero_sub, norm_neg, ← hn]
  rw [f7, f8] at f9
  by_cases hA : S.r ≤ g.mr + g.sr
  · by_cases h1 : S.r ≤ g.sr - g.mr
    · rw [if_pos h1] at f1
      simp [f1, h1, hA, f4]
    · by_cases h2 : S.r ≤ g.mr - g.sr
      · rw [if_neg h1, if_pos h2] at f1
        simp [f1, h1, h2, hA, f4]
      · rw [if_neg h1, if_neg h2, if_pos hA] at f1
        have r3 : S.raw 3 = 0 := by unfold Local.raw; rw [hSG]; simp [h1, h2]
        have r4 : S.raw 4 = 0 := by unfold Local.raw; rw [hSG]; simp [h1, h2]
        have g3 := f2 3
        have g4 := f2 4
        rw [r3] at g3; rw [r4] at g4
        simp [f1, h1, h2, hA, f4, f3, g3, g4, r3, r4]
  · have h1 : ¬ S.r ≤ g.sr - g.mr := fun h => hA (by linarith)
    have h2 : ¬ S.r ≤ g.mr - g.sr := fun h => hA (by linarith)
    rw [if_neg h1, if_neg h2, if_neg hA] at f1
    have hr0 : ∀ i, S.raw i = 0 := by
      intro i
      unfold Local.raw
      rw [hSG]
      fin_cases i <;> simp [hA, h1, h2]
    have hz : ∀ i, R.sT i = 0 := by
      intro i; rw [f2, hr0 i]; simp
    rw [if_neg hA, if_neg hA] at f9
    simp only [gt_iff_lt, lt_self_iff_false, and_false, if_false, if_neg hA, Prod.mk.injEq] at f9
    simp [f1, h1, h2, hA, hz, f3, f4, f7, f8, f9.1, f9.2, hr0]

/-- The covered part of the sun's diameter: the overlap of the two discs along the line of centres divided by the sun's diameter; it is
positive exactly when more than a point is covered, at least 1 exactly when the whole sun is. -/
theorem c71_depth (g : Sec) (hs : 0 < g.sr) : g.depth * (2 * g.sr) = g.mr + g.sr - ‖g.moon‖
    ∧ (0 ≤ g.depth ↔ ‖g.moon‖ ≤ g.mr + g.sr) ∧ (1 ≤ g.depth ↔ disc 0 g.sr ⊆ disc g.moon g.mr) := by
  have h : g.depth * (2 * g.sr) = g.mr + g.sr - ‖g.moon‖ := by rw [depth_eq]; field_simp
  refine ⟨h, ?_, ?_⟩
  · rw [depth_eq, div_div, le_div_iff₀ (by linarith)]
    constructor <;> intro h <;> linarith
  · rw [disc_subset' hs.le, zero_sub, norm_neg, depth_eq, div_div, le_div_iff₀ (by linarith)]
    constructor <;> intro h <;> linarith

/-- C71, what can be seen: in an eclipse, with `rise` and `set` sunrise and sunset (which are also returned, in universal time),

* no time outside daylight is ever returned, and the instant `T` of greatest eclipse is returned whenever it is in daylight;
* the magnitude is the covered part of the diameter at `T`, marked by a blank, except that a sun rising (setting) eclipsed after
  (before) greatest eclipse gives the magnitude at sunrise, marked `#` (at sunset, marked `*`);
* the magnitudes at sunrise and sunset are returned too, 0 standing for no eclipse then. -/
theorem c71_visible (e : PlEnv) (s R : Pl) (jd T : ℝ) (hT : T = (e.greatest jd).2.2) (hR : R = secMax e s jd) (rise set : ℝ)
    (hm : 0 < (e.secXY T).mr) (hs0 : 0 < (e.secXY T).sr) (hr : rise = R.sun_s + e.dtT T) (hs : set = R.sun_j + e.dtT T) :
    R.sun_s = sunShengJ e.sun e.L e.fa (T - e.dtT T + e.L / (2 * π)) (-1)
    ∧ R.sun_j = sunShengJ e.sun e.L e.fa (T - e.dtT T + e.L / (2 * π)) 1
    ∧ (∀ i, R.sT i ≠ 0 → rise ≤ R.sT i ∧ R.sT i ≤ set)
    ∧ (R.LX ≠ "" → R.sf2 = max 0 (e.secXY rise).depth ∧ R.sf3 = max 0 (e.secXY set).depth
      ∧ (rise ≤ T → T ≤ set → R.sT 1 = T ∧ R.sf = (e.secXY T).depth ∧ R.sflx = " ")
      ∧ (T < rise → rise ≤ set → R.sT 1 = 0
          ∧ (0 < (e.secXY rise).depth → R.sf = (e.secXY rise).depth ∧ R.sflx = "#")
          ∧ (¬ 0 < (e.secXY rise).depth → R.sf = (e.secXY T).depth ∧ R.sflx = " "))
      ∧ (set < T → rise ≤ set → R.sT 1 = 0
          ∧ (0 < (e.secXY set).depth → R.sf = (e.secXY set).depth ∧ R.sflx = "*")
          ∧ (¬ 0 < (e.secXY set).depth → R.sf = (e.secXY T).depth ∧ R.sflx = " "))) := by
  obtain ⟨S⟩ := exists_local e jd
  obtain ⟨f1, f2, f3, f4, f5, f6, f7, f8, f9⟩ := secMax_fields S s R hR
  have hST : S.T = T := by rw [S.hT, hT]
  have hSG : S.G = e.secXY T := by rw [S.hG, hST]
  have hri : S.rise = rise := by rw [hr, f5, hST]; ring
  have hse : S.set = set := by rw [hs, f6, hST]; ring
  refine ⟨?_, ?_, ?_, ?_⟩
  · rw [f5, S.hrise, hST]; ring
  · rw [f6, S.hset, hST]; ring
  · intro i hi
    have := f2 i
    by_cases h : S.raw i < S.rise ∨ S.raw i > S.set
    · rw [if_pos h] at this; exact absurd this hi
    · rw [if_neg h] at this
      push Not at h
      rw [this, ← hri, ← hse]; exact h
  · intro hL
    rw [← hSG] at hm hs0
    have hA : S.r ≤ S.G.mr + S.G.sr := by
      by_contra hc
      apply hL
      rw [f1, if_neg (fun h => hc (by linarith)), if_neg (fun h => hc (by linarith)), if_neg hc]
    have hraw : S.raw 1 = T := by unfold Local.raw; simp only [if_pos hA, hST]
    have g1 := f2 1
    rw [if_pos hA, hri] at f7
    rw [if_pos hA, hse] at f8
    rw [hraw, hri, hse] at g1
    rw [hraw, hri, hse, if_pos hA, f7, f8, hSG] at f9
    have hmax : ∀ x : ℝ, max 0 x > 0 ↔ 0 < x := fun x => by simp [gt_iff_lt, lt_max_iff]
    simp only [hmax] at f9
    refine ⟨f7, f8, fun a b => ?_, fun a b => ?_, fun a b => ?_⟩
    · rw [if_neg (by intro h; rcases h with h | h <;> linarith)] at g1
      rw [if_neg (fun h => by linarith [h.1]), if_neg (fun h => by linarith [h.1])] at f9
      exact ⟨g1, (Prod.mk.inj f9).1, (Prod.mk.inj f9).2⟩
    · rw [if_pos (Or.inl a)] at g1
      rw [if_neg (fun h => by linarith [h.1])] at f9
      refine ⟨g1, fun h => ?_, fun h => ?_⟩
      · rw [if_pos ⟨a, h⟩, max_eq_right h.le] at f9
        exact ⟨(Prod.mk.inj f9).1, (Prod.mk.inj f9).2⟩
      · rw [if_neg (fun h' => h h'.2)] at f9
        exact ⟨(Prod.mk.inj f9).1, (Prod.mk.inj f9).2⟩
    · rw [if_pos (Or.inr a)] at g1
      rw [if_neg (show ¬ (T < rise ∧ _) from fun h => by linarith [h.1])] at f9
      refine ⟨g1, fun h => ?_, fun h => ?_⟩
      · rw [if_pos ⟨a, h⟩, max_eq_right h.le] at f9
        exact ⟨(Prod.mk.inj f9).1, (Prod.mk.inj f9).2⟩
      · rw [if_neg (fun h' => h h'.2)] at f9
        exact ⟨(Prod.mk.inj f9).1, (Prod.mk.inj f9).2⟩

/-- The result does not depend on what an earlier computation left behind. -/
theorem c71_history (e : PlEnv) (s s' : Pl) (jd : ℝ) : secMax e s jd = secMax e s' jd := rfl

/-- Where the sun does not rise or set, `sunShengJ` answers 0 for both, and every time of the eclipse is erased (unless it happens to be
exactly ΔT): a polar site in permanent daylight gets no time at all for an eclipse it sees completely, although type, magnitude and
duration are given. -/
theorem c71_polar_times_lost (e : PlEnv) (s R : Pl) (jd T : ℝ) (hT : T = (e.greatest jd).2.2) (hR : R = secMax e s jd)
    (hd : ∀ t, 1 ≤ |horizonCos e.fa (e.sun t).D|) :
    R.sun_s = 0 ∧ R.sun_j = 0 ∧ ∀ i, R.sT i = 0 ∨ R.sT i = e.dtT T := by
  obtain ⟨S⟩ := exists_local e jd
  obtain ⟨f1, f2, f3, f4, f5, f6, f7, f8, f9⟩ := secMax_fields S s R hR
  have hST : S.T = T := by rw [S.hT, hT]
  have h0 : ∀ jd sj, sunShengJ e.sun e.L e.fa jd sj = 0 := by
    intro jd sj
    have : ∀ t, shengRound e.sun e.L e.fa sj t = none := by
      intro t
      unfold shengRound
      simp only []
      rw [if_pos]
      exact hd t
    unfold sunShengJ
    simp only [this]
  have hri : S.rise = e.dtT T := by rw [S.hrise, h0, hST]; ring
  have hse : S.set = e.dtT T := by rw [S.hset, h0, hST]; ring
  refine ⟨by rw [f5, hri, hST]; ring, by rw [f6, hse, hST]; ring, fun i => ?_⟩
  rw [f2 i, hri, hse]
  by_cases h : S.raw i < e.dtT T ∨ S.raw i > e.dtT T
  · left; rw [if_pos h]
  · right; rw [if_neg h]; push Not at h; linarith [h.1, h.2]

/-- For every motion of the sun (not only with a fixed declination): an answer other than 0 means that the sun, at the place it has at local noon and again at the place it has
at the first approximation, crosses the horizon; otherwise `sunShengJ` answers 0. -/
theorem c71_no_sunrise (sun : ℝ → SunPlace) (L fa jd sj t0 : ℝ) (h0 : t0 = ⌊jd + 1 / 2⌋ - L / (2 * π)) (h : sunShengJ sun L fa jd sj ≠ 0) :
    |horizonCos fa (sun t0).D| < 1 ∧ ∃ t1, t1 = t0 + rrad (sj * arccos (horizonCos fa (sun t0).D) - ((sun t0).gst + L - (sun t0).A)) / 6.28 ∧ |horizonCos fa (sun t1).D| < 1
      ∧ sunShengJ sun L fa jd sj = t1 + rrad (sj * arccos (horizonCos fa (sun t1).D) - ((sun t1).gst + L - (sun t1).A)) / 6.28 := by
  have e : ∀ t, shengRound sun L fa sj t = if |horizonCos fa (sun t).D| ≥ 1 then none
      else some (t + rrad (sj * arccos (horizonCos fa (sun t).D) - ((sun t).gst + L - (sun t).A)) / 6.28) := fun t => rfl
  have h5 : (⌊jd + 0.5⌋ : ℝ) - L / (2 * π) = t0 := by rw [h0]; norm_num
  unfold sunShengJ at h ⊢
  simp only [h5] at h ⊢
  by_cases c0 : |horizonCos fa (sun t0).D| ≥ 1
  · rw [e t0, if_pos c0] at h
    exact absurd rfl h
  · refine ⟨not_le.1 c0, _, rfl, ?_⟩
    rw [e t0, if_neg c0] at h ⊢
    simp only at h ⊢
    obtain ⟨t1, ht1⟩ : ∃ t1, t1 = t0 + rrad (sj * arccos (horizonCos fa (sun t0).D) - ((sun t0).gst + L - (sun t0).A)) / 6.28 := ⟨_, rfl⟩
    rw [← ht1] at h ⊢
    by_cases c1 : |horizonCos fa (sun t1).D| ≥ 1
    · rw [e t1, if_pos c1] at h
      exact absurd rfl h
    · refine ⟨not_le.1 c1, ?_⟩
      rw [e t1, if_neg c1]

/-! ## uniform motion -/

/-- as seen from the site, the moon passes the sun at uniform speed and the radii are constant -/
def UniformSec (e : PlEnv) (x y v u mr sr : ℝ) : Prop :=
  ∀ t, (e.secXY t).x = x + v * t ∧ (e.secXY t).y = y + u * t ∧ (e.secXY t).mr = mr ∧ (e.secXY t).sr = sr

theorem uniform_greatest (e : PlEnv) (x y v u mr sr jd : ℝ) (hv : 0 < v) (hs : 0 < sr) (hU : UniformSec e x y v u mr sr) :
    e.greatest jd = (u, v, -(y * u + x * v) / (u * u + v * v)) := by
  have hvv : 0 < u * u + v * v := by nlinarith [mul_self_nonneg u]
  obtain ⟨tm, htm⟩ : ∃ tm, tm = -(y * u + x * v) / (u * u + v * v) := ⟨_, rfl⟩
  have ha : ∀ t, e.approach t = (u, v, tm) := by
    intro t
    have eu : ((e.secXY (t + 60 / 86400)).y - (e.secXY t).y) / (60 / 86400) = u := by rw [(hU _).2.1, (hU _).2.1]; ring
    have ev : ((e.secXY (t + 60 / 86400)).x - (e.secXY t).x) / (60 / 86400) = v := by rw [(hU _).1, (hU _).1]; ring
    unfold PlEnv.approach
    simp only [eu, ev]
    rw [(hU t).1, (hU t).2.1, htm]
    simp only [Prod.mk.injEq, true_and]
    field_simp; ring
  -- every other instant is farther
  have hd : ∀ t, (e.secXY t).depth ≤ (e.secXY tm).depth := by
    intro t
    unfold Sec.depth
    rw [(hU t).1, (hU t).2.1, (hU t).2.2.1, (hU t).2.2.2, (hU tm).1, (hU tm).2.1, (hU tm).2.2.1, (hU tm).2.2.2]
    have := least x y v u hvv t
    rw [← htm] at this
    have h2 : √((x + v * tm) * (x + v * tm) + (y + u * tm) * (y + u * tm)) ≤ √((x + v * t) * (x + v * t) + (y + u * t) * (y + u * t)) := by
      apply sqrt_le_sqrt; nlinarith
    apply div_le_div_of_nonneg_right _ (by norm_num)
    apply div_le_div_of_nonneg_right _ hs.le
    linarith
  have hstrict : ∀ t, (e.secXY tm).depth ≤ (e.secXY t).depth → t = tm := by
    intro t h
    have h1 : (e.secXY t).depth = (e.secXY tm).depth := le_antisymm (hd t) h
    unfold Sec.depth at h1
    rw [(hU t).1, (hU t).2.1, (hU t).2.2.1, (hU t).2.2.2, (hU tm).1, (hU tm).2.1, (hU tm).2.2.1, (hU tm).2.2.2] at h1
    have h2 : √((x + v * tm) * (x + v * tm) + (y + u * tm) * (y + u * tm)) = √((x + v * t) * (x + v * t) + (y + u * t) * (y + u * t)) := by
      rw [div_left_inj' (by norm_num), div_left_inj' hs.ne'] at h1
      linarith
    rw [sqrt_inj (by nlinarith [mul_self_nonneg (x + v * tm), mul_self_nonneg (y + u * tm)])
      (by nlinarith [mul_self_nonneg (x + v * t), mul_self_nonneg (y + u * t)])] at h2
    have hq : tm * (u * u + v * v) = -(y * u + x * v) := by rw [htm, div_mul_cancel₀ _ hvv.ne']
    have h3 : (t - tm) * (t - tm) * (u * u + v * v) = 0 := by linear_combination -h2 - 2 * (t - tm) * hq
    rcases mul_eq_zero.1 h3 with h | h
    · have := mul_self_eq_zero.1 h; linarith
    · linarith
  have stay : ∀ (l : List ℤ) (m : ℝ × ℝ), 0 ∈ l → m.2 = tm → (0 ≤ m.1 ∧ (m.1 = 0 ∨ m.1 = (e.secXY m.2).depth)) →
      (l.foldl (e.probe tm) m).2 = tm := by
    intro l m h0 hm inv
    obtain ⟨m', h1, h2, h3, h4, h5⟩ := probe_fold e tm l m inv
    rw [← h1]
    rcases h5 with h5 | ⟨h5, -⟩
    · rw [h5, hm]
    · have h6 : m'.1 = (e.secXY m'.2).depth := by
        rcases h3.2 with h | h
        · linarith [inv.1]
        · exact h
      apply hstrict
      have := h4 0 h0
      rw [← h6]
      simpa using this
  obtain ⟨m, h1, h2, h3, h4, h5⟩ := probe_fold e tm coarse (0, tm) ⟨le_refl _, Or.inl rfl⟩
  have hm : m.2 = tm := by rw [h1]; exact stay coarse (0, tm) (by decide) rfl ⟨le_refl _, Or.inl rfl⟩
  unfold PlEnv.greatest
  simp only [ha, ← h1, hm, ← htm, Prod.mk.injEq, true_and]
  exact stay fine m (by decide) hm h3

/-- C71 with a moon passing the sun uniformly (`d t` is the distance of the centres): greatest eclipse is the instant of least distance,
the type tells exactly what happens during the passage, and as long as they are in daylight the five times are exact: the eclipse lasts
from the first to the third, greatest eclipse is the second, the central phase lasts from the fourth to the fifth; the duration is that of
the central phase even where the sun is down. -/
theorem c71_uniform (e : PlEnv) (s R : Pl) (jd x y v u mr sr : ℝ) (hv : 0 < v) (hm : 0 < mr) (hs : 0 < sr)
    (hU : UniformSec e x y v u mr sr) (hR : R = secMax e s jd) (d : ℝ → ℝ) (hd : ∀ t, d t = √((x + v * t) ^ 2 + (y + u * t) ^ 2)) :
    ∃ T t0 t2 t3 t4, (∀ t, d T ≤ d t) ∧ (R.LX = "" ↔ ∀ t, mr + sr < d t)
      ∧ (R.LX = "环" ↔ ∃ t, d t ≤ sr - mr) ∧ (R.LX = "全" ↔ mr ≠ sr ∧ ∃ t, d t ≤ mr - sr)
      ∧ (R.LX ≠ "" → (∀ t, d t ≤ mr + sr ↔ t0 ≤ t ∧ t ≤ t2) ∧ t0 ≤ T ∧ T ≤ t2)
      ∧ (R.LX = "环" ∨ R.LX = "全" → (∀ t, d t ≤ |mr - sr| ↔ t3 ≤ t ∧ t ≤ t4) ∧ t3 ≤ T ∧ T ≤ t4 ∧ R.dur = t4 - t3)
      ∧ (R.LX ≠ "" → ∀ (rise set : ℝ), rise = R.sun_s + e.dtT T → set = R.sun_j + e.dtT T →
          (R.sT 0 = if rise ≤ t0 ∧ t0 ≤ set then t0 else 0) ∧ (R.sT 1 = if rise ≤ T ∧ T ≤ set then T else 0)
          ∧ (R.sT 2 = if rise ≤ t2 ∧ t2 ≤ set then t2 else 0)
          ∧ (R.LX = "环" ∨ R.LX = "全" → (R.sT 3 = if rise ≤ t3 ∧ t3 ≤ set then t3 else 0)
              ∧ (R.sT 4 = if rise ≤ t4 ∧ t4 ≤ set then t4 else 0))) := by
  have hvv : 0 < u * u + v * v := by nlinarith [mul_self_nonneg u]
  obtain ⟨S⟩ := exists_local e jd
  obtain ⟨f1, f2, f3, -, f5, f6, -, -, -⟩ := secMax_fields S s R hR
  have hgr := uniform_greatest e x y v u mr sr jd hv hs hU
  obtain ⟨T, hT⟩ : ∃ T, T = S.T := ⟨_, rfl⟩
  have hTe : T = -(y * u + x * v) / (u * u + v * v) := by rw [hT, S.hT, hgr]
  have hSu : S.u = u := by rw [S.hu, hgr]
  have hSv : S.v = v := by rw [S.hv, hgr]
  obtain ⟨g1, g2, g3, g4⟩ := hU T
  have hSG : S.G = e.secXY T := by rw [S.hG, hT]
  have hGm : S.G.mr = mr := by rw [hSG, g3]
  have hGs : S.G.sr = sr := by rw [hSG, g4]
  have hr : S.r = d T := by rw [S.hr, hSG, g1, g2, hd]; congr 1; ring
  have hT0 : v * (x + v * T) + u * (y + u * T) = 0 := by
    have hq : T * (u * u + v * v) = -(y * u + x * v) := by rw [hTe, div_mul_cancel₀ _ hvv.ne']
    linear_combination hq
  have hmin : ∀ t, d T ≤ d t := by
    intro t
    rw [hd, hd]
    apply sqrt_le_sqrt
    have := least x y v u hvv t
    rw [← hTe] at this
    nlinarith
  have hline : ∀ (t r : ℝ) (n : Bool), (e.secXY t).line v u r n = lineT x y 0 v u r n := by
    intro t r n
    unfold Sec.line
    rw [(hU t).1, (hU t).2.1, e.time, lineT_shift x y v u r t hv n]
  have hc3 : ∀ n, (e.contact3 S.G S.v S.u (fun g => g.mr + g.sr) n).1 = lineT x y 0 v u (mr + sr) n := by
    intro n
    unfold PlEnv.contact3
    simp only [hSG, hSu, hSv, hline, (hU _).2.2.1, (hU _).2.2.2]
  have hc1 : ∀ n, e.contact1 S.G S.v S.u (fun g => g.mr - g.sr) n = lineT x y 0 v u (mr - sr) n := by
    intro n
    unfold PlEnv.contact1
    simp only [hSG, hSu, hSv, hline, (hU _).2.2.1, (hU _).2.2.2]
  have hc2 : ∀ n, e.contact1 S.G S.v S.u (fun g => g.sr - g.mr) n = lineT x y 0 v u (sr - mr) n := by
    intro n
    unfold PlEnv.contact1
    simp only [hSG, hSu, hSv, hline, (hU _).2.2.1, (hU _).2.2.2]
  have hsame : ∀ n, lineT x y 0 v u (sr - mr) n = lineT x y 0 v u |mr - sr| n := by
    intro n
    rcases abs_choice (mr - sr) with h | h
    · rw [h]
      unfold lineT
      rw [show (sr - mr) * (sr - mr) = (mr - sr) * (mr - sr) by ring]
    · rw [h]; congr 1; ring
  have hsame' : ∀ n, lineT x y 0 v u (mr - sr) n = lineT x y 0 v u |mr - sr| n := by
    intro n
    rw [← hsame n]
    unfold lineT
    rw [show (sr - mr) * (sr - mr) = (mr - sr) * (mr - sr) by ring]
  rw [hr, hGm, hGs] at f1
  have hdT : 0 ≤ d T := by rw [hd]; exact sqrt_nonneg _
  have raws : (d T ≤ mr + sr → S.raw 0 = lineT x y 0 v u (mr + sr) false ∧ S.raw 1 = T ∧ S.raw 2 = lineT x y 0 v u (mr + sr) true)
      ∧ (d T ≤ |mr - sr| → S.raw 3 = lineT x y 0 v u |mr - sr| false ∧ S.raw 4 = lineT x y 0 v u |mr - sr| true) := by
    unfold Local.raw
    simp only [hc1, hc2, hc3, hr, hGm, hGs, hsame, hsame', ← hT]
    refine ⟨fun h => ⟨if_pos h, if_pos h, if_pos h⟩, fun h => ?_⟩
    by_cases h1 : d T ≤ sr - mr
    · exact ⟨if_pos h1, if_pos h1⟩
    · have h2 : d T ≤ mr - sr := by
        rcases abs_choice (mr - sr) with h' | h'
        · rw [← h']; exact h
        · exact absurd (by rw [h'] at h; linarith) h1
      rw [if_neg h1, if_neg h1]
      exact ⟨if_pos h2, if_pos h2⟩
  have hout : R.LX ≠ "" → d T ≤ mr + sr := by
    intro h
    by_contra hc
    apply h
    rw [f1, if_neg (fun h => hc (by linarith)), if_neg (fun h => hc (by linarith)), if_neg hc]
  have hin : R.LX = "环" ∨ R.LX = "全" → d T ≤ |mr - sr| := by
    intro h
    by_contra hc
    have h1 : ¬ d T ≤ sr - mr := fun h' => hc (h'.trans (by rw [abs_sub_comm]; exact le_abs_self _))
    have h2 : ¬ d T ≤ mr - sr := fun h' => hc (h'.trans (le_abs_self _))
    rw [if_neg h1, if_neg h2] at f1
    rw [f1] at h
    split_ifs at h <;> simp at h
  have keep : ∀ i t, S.raw i = t → ∀ rise set, rise = R.sun_s + e.dtT T → set = R.sun_j + e.dtT T →
      R.sT i = if rise ≤ t ∧ t ≤ set then t else 0 := by
    intro i t ht rise set h1 h2
    have a1 : rise = S.rise := by rw [h1, f5, hT]; ring
    have a2 : set = S.set := by rw [h2, f6, hT]; ring
    rw [f2 i, ht, a1, a2]
    by_cases hc : t < S.rise ∨ t > S.set
    · rw [if_pos hc, if_neg]
      rintro ⟨b1, b2⟩
      rcases hc with hc | hc <;> linarith
    · rw [if_neg hc, if_pos]
      push Not at hc; exact hc
  refine ⟨T, lineT x y 0 v u (mr + sr) false, lineT x y 0 v u (mr + sr) true, lineT x y 0 v u |mr - sr| false,
    lineT x y 0 v u |mr - sr| true, hmin, ?_, ?_, ?_, ?_, ?_, ?_⟩
  · constructor
    · intro h t
      have : ¬ d T ≤ mr + sr := by
        intro hc
        rw [f1] at h
        split_ifs at h <;> simp at h
      exact lt_of_lt_of_le (not_le.1 this) (hmin t)
    · intro h
      by_contra hc
      exact absurd (hout hc) (not_le.2 (h T))
  · rw [f1]
    constructor
    · intro h
      refine ⟨T, ?_⟩
      by_contra hc
      rw [if_neg hc] at h
      split_ifs at h <;> simp at h
    · rintro ⟨t, ht⟩
      rw [if_pos ((hmin t).trans ht)]
  · rw [f1]
    constructor
    · intro h
      have h1 : ¬ d T ≤ sr - mr := fun hc => by rw [if_pos hc] at h; simp at h
      rw [if_neg h1] at h
      have h2 : d T ≤ mr - sr := by
        by_contra hc
        rw [if_neg hc] at h
        split_ifs at h <;> simp at h
      refine ⟨?_, T, h2⟩
      rintro rfl
      exact h1 (by linarith)
    · rintro ⟨hne, t, ht⟩
      have h2 : d T ≤ mr - sr := (hmin t).trans ht
      have h1 : ¬ d T ≤ sr - mr := fun hc => hne (by linarith)
      rw [if_neg h1, if_pos h2]
  · intro h
    obtain ⟨-, -, p3, p4, p5⟩ := lineT_passage hv (by linarith) d hd hT0 (hout h) _ _ rfl rfl
    exact ⟨p5, p3, p4⟩
  · intro h
    obtain ⟨-, -, p3, p4, p5⟩ := lineT_passage hv (abs_nonneg _) d hd hT0 (hin h) _ _ rfl rfl
    refine ⟨p5, p3, p4, ?_⟩
    rw [f3, (raws.2 (hin h)).1, (raws.2 (hin h)).2]
  · intro h rise set h1 h2
    obtain ⟨r0, r1, r2⟩ := raws.1 (hout h)
    refine ⟨keep 0 _ r0 rise set h1 h2, keep 1 _ r1 rise set h1 h2, keep 2 _ r2 rise set h1 h2, fun hc => ?_⟩
    obtain ⟨r3, r4⟩ := raws.2 (hin hc)
    exact ⟨keep 3 _ r3 rise set h1 h2, keep 4 _ r4 rise set h1 h2⟩

/-- C71: without an eclipse the directions of the contacts are 0. -/
theorem c71_no_angles (e : PlEnv) (s R : Pl) (jd : ℝ) (hR : R = secMax e s jd) (hL : R.LX = "") : R.P1 = 0 ∧ R.V1 = 0 ∧ R.P2 = 0 ∧ R.V2 = 0 := by
  obtain ⟨S⟩ := exists_local e jd
  obtain ⟨f1, -⟩ := secMax_fields S s R hR
  rw [hL] at f1
  have hA : ¬ S.r ≤ S.G.mr + S.G.sr := by
    intro hA
    rw [if_pos hA] at f1
    split_ifs at f1 <;> exact absurd f1 (by decide)
  obtain ⟨T, hT, u, hu, v, hv, G, hG, r, hr, rise, hrise, set, hset⟩ := S
  simp only [] at hA
  unfold secMax at hR
  simp only [← hT, ← hu, ← hv, ← hG, ← hr, ← hrise, ← hset] at hR
  have keep1 : ∀ s, (e.ringStage G u v r s).P1 = s.P1 ∧ (e.ringStage G u v r s).V1 = s.V1 ∧ (e.ringStage G u v r s).P2 = s.P2
      ∧ (e.ringStage G u v r s).V2 = s.V2 := by
    intro s; unfold PlEnv.ringStage; split_ifs <;> simp [Pl.set]
  have keep2 : ∀ s, (e.totalStage G u v r s).P1 = s.P1 ∧ (e.totalStage G u v r s).V1 = s.V1 ∧ (e.totalStage G u v r s).P2 = s.P2
      ∧ (e.totalStage G u v r s).V2 = s.V2 := by
    intro s; unfold PlEnv.totalStage; split_ifs <;> simp [Pl.set]
  have keep3 : ∀ s, (e.finish T s).P1 = s.P1 ∧ (e.finish T s).V1 = s.V1 ∧ (e.finish T s).P2 = s.P2 ∧ (e.finish T s).V2 = s.V2 := by
    intro s; unfold PlEnv.finish
    by_cases h1 : s.sT 1 < s.sun_s ∧ s.sf2 > 0 <;> by_cases h2 : s.sT 1 > s.sun_j ∧ s.sf3 > 0 <;> simp [h1, h2]
  rw [hR]
  simp only [(keep3 _).1, (keep3 _).2.1, (keep3 _).2.2.1, (keep3 _).2.2.2, (keep1 _).1, (keep1 _).2.1, (keep1 _).2.2.1, (keep1 _).2.2.2,
      (keep2 _).1, (keep2 _).2.1, (keep2 _).2.2.1, (keep2 _).2.2.2]
  unfold PlEnv.partialStage
  simp only [if_neg hA, Pl.reset]
  exact ⟨trivial, trivial, trivial, trivial⟩

theorem secMax_angles (S : Local e jd) (s R : Pl) (hR : R = secMax e s jd) (hA : S.r ≤ S.G.mr + S.G.sr) :
    (∃ c, c = e.contact3 S.G S.v S.u (fun g => g.mr + g.sr) false ∧ R.P1 = mrad (atan2 c.2.x c.2.y)
      ∧ R.V1 = mrad (R.P1 - e.viewJ c.1 c.2.sCJ c.2.sCW))
    ∧ (∃ c, c = e.contact3 S.G S.v S.u (fun g => g.mr + g.sr) true ∧ R.P2 = mrad (atan2 c.2.x c.2.y)
      ∧ R.V2 = mrad (R.P2 - e.viewJ c.1 c.2.sCJ c.2.sCW)) := by
  obtain ⟨T, hT, u, hu, v, hv, G, hG, r, hr, rise, hrise, set, hset⟩ := S
  simp only [] at hA
  unfold secMax at hR
  simp only [← hT, ← hu, ← hv, ← hG, ← hr, ← hrise, ← hset] at hR
  have keep1 : ∀ s, (e.ringStage G u v r s).P1 = s.P1 ∧ (e.ringStage G u v r s).V1 = s.V1 ∧ (e.ringStage G u v r s).P2 = s.P2
      ∧ (e.ringStage G u v r s).V2 = s.V2 := by
    intro s; unfold PlEnv.ringStage; split_ifs <;> simp [Pl.set]
  have keep2 : ∀ s, (e.totalStage G u v r s).P1 = s.P1 ∧ (e.totalStage G u v r s).V1 = s.V1 ∧ (e.totalStage G u v r s).P2 = s.P2
      ∧ (e.totalStage G u v r s).V2 = s.V2 := by
    intro s; unfold PlEnv.totalStage; split_ifs <;> simp [Pl.set]
  have keep3 : ∀ s, (e.finish T s).P1 = s.P1 ∧ (e.finish T s).V1 = s.V1 ∧ (e.finish T s).P2 = s.P2 ∧ (e.finish T s).V2 = s.V2 := by
    intro s; unfold PlEnv.finish
    by_cases h1 : s.sT 1 < s.sun_s ∧ s.sf2 > 0 <;> by_cases h2 : s.sT 1 > s.sun_j ∧ s.sf3 > 0 <;> simp [h1, h2]
  refine ⟨⟨_, rfl, ?_⟩, ⟨_, rfl, ?_⟩⟩
  all_goals
    rw [hR]
    simp only [(keep3 _).1, (keep3 _).2.1, (keep3 _).2.2.1, (keep3 _).2.2.2, (keep1 _).1, (keep1 _).2.1, (keep1 _).2.2.1, (keep1 _).2.2.2,
      (keep2 _).1, (keep2 _).2.1, (keep2 _).2.2.1, (keep2 _).2.2.2]
    unfold PlEnv.partialStage
    simp only [if_pos hA]
    by_cases h2 : (e.secXY rise).depth < 0 <;> by_cases h3 : (e.secXY set).depth < 0 <;>
      simp [Pl.set, h2, h3]

/-- C71, position angles (moon passing uniformly): at the first and at the last instant of the eclipse the moon's centre is seen from
the sun's in the direction `P1` (`P2`), counted from north towards increasing right ascension, and `V1` (`V2`) is that direction
counted from the zenith (`viewJ` is the parallactic angle at that instant); all are in `[0, 2π)`. -/
theorem c71_angles (e : PlEnv) (s R : Pl) (jd x y v u mr sr : ℝ) (hv : 0 < v) (hm : 0 < mr) (hs : 0 < sr)
    (hU : UniformSec e x y v u mr sr) (hR : R = secMax e s jd) (hL : R.LX ≠ "") (d : ℝ → ℝ)
    (hd : ∀ t, d t = √((x + v * t) ^ 2 + (y + u * t) ^ 2)) :
    ∃ t0 t2, (∀ t, d t ≤ mr + sr ↔ t0 ≤ t ∧ t ≤ t2)
      ∧ (x + v * t0 = (mr + sr) * sin R.P1 ∧ y + u * t0 = (mr + sr) * cos R.P1 ∧ 0 ≤ R.P1 ∧ R.P1 < 2 * π)
      ∧ (x + v * t2 = (mr + sr) * sin R.P2 ∧ y + u * t2 = (mr + sr) * cos R.P2 ∧ 0 ≤ R.P2 ∧ R.P2 < 2 * π)
      ∧ (0 ≤ R.V1 ∧ R.V1 < 2 * π ∧ ∃ k : ℤ, R.V1 = R.P1 - e.viewJ t0 (e.secXY t0).sCJ (e.secXY t0).sCW + 2 * π * k)
      ∧ (0 ≤ R.V2 ∧ R.V2 < 2 * π ∧ ∃ k : ℤ, R.V2 = R.P2 - e.viewJ t2 (e.secXY t2).sCJ (e.secXY t2).sCW + 2 * π * k) := by
  have hvv : 0 < u * u + v * v := by nlinarith [mul_self_nonneg u]
  obtain ⟨S⟩ := exists_local e jd
  obtain ⟨f1, -⟩ := secMax_fields S s R hR
  have hgr := uniform_greatest e x y v u mr sr jd hv hs hU
  obtain ⟨T, hT⟩ : ∃ T, T = S.T := ⟨_, rfl⟩
  have hTe : T = -(y * u + x * v) / (u * u + v * v) := by rw [hT, S.hT, hgr]
  have hSu : S.u = u := by rw [S.hu, hgr]
  have hSv : S.v = v := by rw [S.hv, hgr]
  obtain ⟨g1, g2, g3, g4⟩ := hU T
  have hSG : S.G = e.secXY T := by rw [S.hG, hT]
  have hGm : S.G.mr = mr := by rw [hSG, g3]
  have hGs : S.G.sr = sr := by rw [hSG, g4]
  have hr : S.r = d T := by rw [S.hr, hSG, g1, g2, hd]; congr 1; ring
  have hT0 : v * (x + v * T) + u * (y + u * T) = 0 := by
    have hq : T * (u * u + v * v) = -(y * u + x * v) := by rw [hTe, div_mul_cancel₀ _ hvv.ne']
    linear_combination hq
  have hA : S.r ≤ S.G.mr + S.G.sr := by
    by_contra hc
    apply hL
    rw [f1, if_neg (fun h => hc (by rw [hGm, hGs] at *; linarith)), if_neg (fun h => hc (by rw [hGm, hGs] at *; linarith)), if_neg hc]
  have hline : ∀ (t r : ℝ) (n : Bool), (e.secXY t).line v u r n = lineT x y 0 v u r n := by
    intro t r n
    unfold Sec.line
    rw [(hU t).1, (hU t).2.1, e.time, lineT_shift x y v u r t hv n]
  have hc3 : ∀ n, e.contact3 S.G S.v S.u (fun g => g.mr + g.sr) n = (lineT x y 0 v u (mr + sr) n, e.secXY (lineT x y 0 v u (mr + sr) n)) := by
    intro n
    unfold PlEnv.contact3
    simp only [hSG, hSu, hSv, hline, (hU _).2.2.1, (hU _).2.2.2]
  obtain ⟨⟨c1, h1, h2, h3⟩, ⟨c2, k1, k2, k3⟩⟩ := secMax_angles S s R hR hA
  rw [hc3] at h1 k1
  rw [hr, hGm, hGs] at hA
  obtain ⟨p1, p2, -, -, p5⟩ := lineT_passage hv (by linarith) d hd hT0 hA _ _ rfl rfl
  refine ⟨lineT x y 0 v u (mr + sr) false, lineT x y 0 v u (mr + sr) true, p5, ?_, ?_, ?_, ?_⟩
  · generalize lineT x y 0 v u (mr + sr) false = t at *
    subst h1
    simp only [(hU t).1, (hU t).2.1] at h2
    have a := atan2_cos (x + v * t) (y + u * t)
    have b := atan2_sin (x + v * t) (y + u * t)
    have hdt : √((y + u * t) * (y + u * t) + (x + v * t) * (x + v * t)) = mr + sr := by rw [← p1, hd]; congr 1; ring
    rw [hdt] at a b
    rw [h2, sin_mrad, cos_mrad, a, b]
    exact ⟨rfl, rfl, (c36_mrad_real _).1, (c36_mrad_real _).2.1⟩
  · generalize lineT x y 0 v u (mr + sr) true = t at *
    subst k1
    simp only [(hU t).1, (hU t).2.1] at k2
    have a := atan2_cos (x + v * t) (y + u * t)
    have b := atan2_sin (x + v * t) (y + u * t)
    have hdt : √((y + u * t) * (y + u * t) + (x + v * t) * (x + v * t)) = mr + sr := by rw [← p2, hd]; congr 1; ring
    rw [hdt] at a b
    rw [k2, sin_mrad, cos_mrad, a, b]
    exact ⟨rfl, rfl, (c36_mrad_real _).1, (c36_mrad_real _).2.1⟩
  · subst h1
    rw [h3]
    exact c36_mrad_real _
  · subst k1
    rw [k3]
    exact c36_mrad_real _

/-! ## examples -/

/-- a moon twice as large as the sun passing centrally, seen from latitude `fa`, the sun at declination `δ` turning once a day -/
noncomputable def demoSky (fa δ : ℝ) : PlEnv where
  near := fun t => t
  secXY := fun t => ⟨t, 0, 2, 1, 0, δ, t⟩
  time := fun _ => rfl
  dtT := fun _ => 0
  sun := fun t => ⟨2 * π * t, 0, δ⟩
  L := 0
  fa := fa
  viewJ := fun _ _ _ => 0

theorem demoSky_uniform (fa δ : ℝ) : UniformSec (demoSky fa δ) 0 0 1 0 2 1 := by
  intro t
  simp [demoSky]

/-- the hypotheses of `c71_uniform` and `c71_classification` are met, and the eclipse is total -/
theorem demoSky_total (fa δ : ℝ) (s : Pl) (jd : ℝ) : (secMax (demoSky fa δ) s jd).LX = "全" := by
  obtain ⟨T, t0, t2, t3, t4, -, -, -, h, -⟩ := c71_uniform (demoSky fa δ) s _ jd 0 0 1 0 2 1 (by norm_num) (by norm_num) (by norm_num)
    (demoSky_uniform fa δ) rfl (fun t => √((0 + 1 * t) ^ 2 + (0 + 0 * t) ^ 2)) (fun _ => rfl)
  rw [h]
  exact ⟨by norm_num, 0, by simp⟩

/-- a site (latitude 60°, declination 60°) where the sun never sets -/
theorem demoSky_polar : 1 ≤ |horizonCos (π / 3) (π / 3)| := by
  have h : sin (-50 * 60 / (180 * 3600 / π)) ≤ 0 := by
    have hp := pi_pos
    apply sin_nonpos_of_nonpos_of_neg_pi_le
    · rw [show -50 * 60 / (180 * 3600 / π) = -(π / 216) by field_simp; norm_num]; linarith
    · rw [show -50 * 60 / (180 * 3600 / π) = -(π / 216) by field_simp; norm_num]; linarith
  have h3 : sin (π / 3) * sin (π / 3) = 3 / 4 := by
    rw [sin_pi_div_three]
    have := Real.mul_self_sqrt (show (0 : ℝ) ≤ 3 by norm_num)
    linarith
  have h4 : cos (π / 3) * cos (π / 3) = 1 / 4 := by rw [cos_pi_div_three]; norm_num
  unfold horizonCos
  rw [h3, h4, le_abs]
  right
  linarith

/-- the defect on that concrete site: a total eclipse high in the sky, and not one time is reported -/
theorem c71_polar_example (s : Pl) (jd : ℝ) :
    (secMax (demoSky (π / 3) (π / 3)) s jd).LX = "全" ∧ ∀ i, (secMax (demoSky (π / 3) (π / 3)) s jd).sT i = 0 := by
  refine ⟨demoSky_total _ _ s jd, fun i => ?_⟩
  obtain ⟨-, -, h⟩ := c71_polar_times_lost (demoSky (π / 3) (π / 3)) s _ jd _ rfl rfl (fun _ => demoSky_polar)
  rcases h i with h | h
  · exact h
  · exact h

/-- and a site on the equator, where the sun rises and sets (`c71_sunrise`) -/
example : |horizonCos 0 0| < 1 := by
  have h1 : sin (-50 * 60 / (180 * 3600 / π)) = -sin (π / 216) := by
    rw [show -50 * 60 / (180 * 3600 / π) = -(π / 216) by field_simp; norm_num, sin_neg]
  unfold horizonCos
  rw [h1]
  simp only [sin_zero, mul_zero, sub_zero, cos_zero, mul_one, div_one, abs_neg]
  have hp := pi_pos
  have := pi_lt_d6
  have h2 : sin (π / 216) < π / 216 := sin_lt (by linarith)
  have h3 : 0 < sin (π / 216) := sin_pos_of_pos_of_lt_pi (by linarith) (by linarith)
  rw [abs_of_pos h3]
  norm_num at this
  linarith

end Verif.Geom
