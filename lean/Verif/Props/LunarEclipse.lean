import Verif.LunarEclipse
import Verif.Props.GeomCut
import Mathlib.Analysis.Normed.Group.Basic
import Mathlib.Topology.MetricSpace.Pseudo.Defs

/-!
# C42: lunar eclipse classification and contact times (exact arithmetic)
-/

namespace Verif.Geom

open Real

/-! ## Specification: discs in the plane (the plane is `ℂ`) -/

/-- the disc of centre `c` and radius `r` -/
def disc (c : ℂ) (r : ℝ) : Set ℂ := {p | ‖p - c‖ ≤ r}

theorem disc_subset {c : ℂ} {m e : ℝ} (hm : 0 ≤ m) : disc c m ⊆ disc 0 e ↔ ‖c‖ ≤ e - m := by
  constructor
  · intro h
    by_cases hc : c = 0
    · have : (m : ℂ) ∈ disc 0 e := h (by simp [disc, hc, abs_of_nonneg hm])
      simp only [disc, sub_zero, Set.mem_setOf_eq, Complex.norm_real, norm_eq_abs, abs_of_nonneg hm] at this
      rw [hc, norm_zero]; linarith
    · have hn : 0 < ‖c‖ := norm_pos_iff.2 hc
      have key : c + c * ((m / ‖c‖ : ℝ) : ℂ) ∈ disc c m := by
        simp only [disc, Set.mem_setOf_eq, add_sub_cancel_left, norm_mul, Complex.norm_real, norm_eq_abs]
        rw [abs_of_nonneg (by positivity)]
        field_simp
        exact le_refl _
      have := h key
      simp only [disc, sub_zero, Set.mem_setOf_eq] at this
      rw [show c + c * ((m / ‖c‖ : ℝ) : ℂ) = c * ((1 + m / ‖c‖ : ℝ) : ℂ) by push_cast; ring, norm_mul, Complex.norm_real, norm_eq_abs,
        abs_of_nonneg (by positivity), mul_add, mul_one, mul_div_cancel₀ _ hn.ne'] at this
      linarith
  · intro h p hp
    simp only [disc, Set.mem_setOf_eq, sub_zero] at hp ⊢
    have := norm_add_le (p - c) c
    rw [sub_add_cancel] at this
    linarith

theorem disc_meet {c : ℂ} {m e : ℝ} (hm : 0 < m) (he : 0 ≤ e) : (disc c m ∩ disc 0 e).Nonempty ↔ ‖c‖ ≤ m + e := by
  constructor
  · rintro ⟨p, hp1, hp2⟩
    simp only [disc, Set.mem_setOf_eq, sub_zero] at hp1 hp2
    have := norm_sub_le p (p - c)
    rw [sub_sub_cancel] at this
    linarith
  · intro h
    have hs : 0 < m + e := by linarith
    have h1 : ‖c‖ / (m + e) ≤ 1 := by rw [div_le_one hs]; exact h
    refine ⟨c * ((e / (m + e) : ℝ) : ℂ), ?_, ?_⟩
    · simp only [disc, Set.mem_setOf_eq]
      rw [show c * ((e / (m + e) : ℝ) : ℂ) - c = c * ((-(m / (m + e)) : ℝ) : ℂ) by
        rw [show (-(m / (m + e)) : ℝ) = e / (m + e) - 1 by field_simp; ring]; push_cast; ring]
      rw [norm_mul, Complex.norm_real, norm_eq_abs, abs_neg, abs_of_nonneg (by positivity)]
      rw [show ‖c‖ * (m / (m + e)) = m * (‖c‖ / (m + e)) by ring]
      nlinarith
    · simp only [disc, Set.mem_setOf_eq, sub_zero]
      rw [norm_mul, Complex.norm_real, norm_eq_abs, abs_of_nonneg (by positivity)]
      rw [show ‖c‖ * (e / (m + e)) = e * (‖c‖ / (m + e)) by ring]
      nlinarith

/-- the centre of the moon `s` days after `G`, moving with the velocity `(v, u)` -/
noncomputable def moonAt (G : Re0) (v u s : ℝ) : ℂ := ⟨G.x + s * v, G.y + s * u⟩

theorem least (x y v u : ℝ) (h : 0 < u * u + v * v) (s : ℝ) :
    (x + (-(y * u + x * v) / (u * u + v * v)) * v) ^ 2 + (y + (-(y * u + x * v) / (u * u + v * v)) * u) ^ 2
      ≤ (x + s * v) ^ 2 + (y + s * u) ^ 2 := by
  obtain ⟨w, hw⟩ : ∃ w, w = -(y * u + x * v) / (u * u + v * v) := ⟨_, rfl⟩
  rw [← hw]
  have hq : w * (u * u + v * v) = -(y * u + x * v) := by rw [hw, div_mul_cancel₀ _ h.ne']
  have : (x + s * v) ^ 2 + (y + s * u) ^ 2 - ((x + w * v) ^ 2 + (y + w * u) ^ 2) = (s - w) ^ 2 * (u * u + v * v) := by
    linear_combination (2 * (s - w)) * hq
  nlinarith [mul_nonneg (sq_nonneg (s - w)) h.le]

/-- the situation `lecMax` works with: position, velocity, time shift to the least distance -/
structure Setting (lecXY : ℝ → Re0) (near : ℝ → ℝ) (jd : ℝ) where
  G : Re0
  hG : G = lecXY (near jd)
  v : ℝ
  hv : v = ((lecXY (near jd + 60 / 86400)).x - G.x) / (60 / 86400)
  u : ℝ
  hu : u = ((lecXY (near jd + 60 / 86400)).y - G.y) / (60 / 86400)
  w : ℝ
  hw : w = -(G.y * u + G.x * v) / (u * u + v * v)

variable {lecXY : ℝ → Re0} {near : ℝ → ℝ} {jd : ℝ}

/-- the result, unfolded -/
theorem lecMax_eq (S : Setting lecXY near jd) (s : Ys) :
    lecMax lecXY near s jd =
      (let rmin := ‖moonAt S.G S.v S.u S.w‖
       let A := rmin ≤ S.G.mr + S.G.er
       let P := rmin ≤ S.G.mr + S.G.Er
       let T := rmin ≤ S.G.er - S.G.mr
       open Classical in
       { lT := fun i => match i with
          | 0 => if A then contact lecXY S.G S.v S.u (fun g => g.mr + g.er) false else 0
          | 1 => if A then near jd + S.w else 0
          | 2 => if A then contact lecXY S.G S.v S.u (fun g => g.mr + g.er) true else 0
          | 3 => if P then contact lecXY S.G S.v S.u (fun g => g.mr + g.Er) false else 0
          | 4 => if P then contact lecXY S.G S.v S.u (fun g => g.mr + g.Er) true else 0
          | 5 => if T then contact lecXY S.G S.v S.u (fun g => g.er - g.mr) false else 0
          | 6 => if T then contact lecXY S.G S.v S.u (fun g => g.er - g.mr) true else 0
         LX := if T then "全" else if A then "偏" else ""
         sf := if A then (S.G.mr + S.G.er - rmin) / S.G.mr / 2 else 0 }) := by
  obtain ⟨G, hG, v, hv, u, hu, w, hw⟩ := S
  have hr : √((G.x + w * v) * (G.x + w * v) + (G.y + w * u) * (G.y + w * u)) = ‖moonAt G v u w‖ := by
    rw [moonAt, norm_mk]
  unfold lecMax
  simp only [← hG, ← hv, ← hu, ← hw, hr]
  generalize ‖moonAt G v u w‖ = rmin
  by_cases hA : rmin ≤ G.mr + G.er <;> by_cases hP : rmin ≤ G.mr + G.Er <;> by_cases hT : rmin ≤ G.er - G.mr <;>
    simp only [hA, hP, hT, if_true, if_false, Ys.set] <;>
    congr 1 <;> funext i <;> fin_cases i <;> rfl

/-- C42: for every ephemeris and every history (any former content `s`): with a moon of positive radius and a moving one,

* the type is 全 exactly when, at the instant of least distance, the moon's disc is inside the umbra, 偏 exactly when it meets the
  umbra without being inside, and empty otherwise;
* the magnitude is 0 without umbral eclipse, else the immersed part of the moon's diameter, at least 1 exactly in a total eclipse;
* the first three times are set for umbral eclipses only (the middle one being the instant of least distance), the next two only if
  the disc meets the penumbra, the last two only in total eclipses. -/
theorem c42_classification (S : Setting lecXY near jd) (s : Ys) (hm : 0 < S.G.mr) (he : 0 ≤ S.G.er) (hE : 0 ≤ S.G.Er)
    (hV : S.u ≠ 0 ∨ S.v ≠ 0) (R : Ys) (hR : R = lecMax lecXY near s jd) (c : ℂ) (hc : c = moonAt S.G S.v S.u S.w) :
    (∀ τ, ‖c‖ ≤ ‖moonAt S.G S.v S.u τ‖)
    ∧ (R.LX = "全" ↔ disc c S.G.mr ⊆ disc 0 S.G.er)
    ∧ (R.LX = "偏" ↔ (disc c S.G.mr ∩ disc 0 S.G.er).Nonempty ∧ ¬ disc c S.G.mr ⊆ disc 0 S.G.er)
    ∧ (R.LX = "" ↔ ¬ (disc c S.G.mr ∩ disc 0 S.G.er).Nonempty)
    ∧ ((disc c S.G.mr ∩ disc 0 S.G.er).Nonempty → R.sf * (2 * S.G.mr) = S.G.mr + S.G.er - ‖c‖ ∧ 0 ≤ R.sf
        ∧ (1 ≤ R.sf ↔ disc c S.G.mr ⊆ disc 0 S.G.er) ∧ R.lT 1 = near jd + S.w)
    ∧ (¬ (disc c S.G.mr ∩ disc 0 S.G.er).Nonempty → R.sf = 0 ∧ R.lT 0 = 0 ∧ R.lT 1 = 0 ∧ R.lT 2 = 0)
    ∧ (¬ (disc c S.G.mr ∩ disc 0 S.G.Er).Nonempty → R.lT 3 = 0 ∧ R.lT 4 = 0)
    ∧ (¬ disc c S.G.mr ⊆ disc 0 S.G.er → R.lT 5 = 0 ∧ R.lT 6 = 0) := by
  have hvv : 0 < S.u * S.u + S.v * S.v := by
    rcases hV with h | h
    · nlinarith [mul_self_pos.2 h, mul_self_nonneg S.v]
    · nlinarith [mul_self_pos.2 h, mul_self_nonneg S.u]
  rw [disc_subset hm.le, disc_meet hm he, disc_meet hm hE]
  rw [lecMax_eq S s, ← hc] at hR
  subst hR
  simp only []
  have hTA : ‖c‖ ≤ S.G.er - S.G.mr → ‖c‖ ≤ S.G.mr + S.G.er := fun h => by linarith
  refine ⟨?_, ?_, ?_, ?_, ?_, ?_, ?_, ?_⟩
  · intro τ
    rw [hc, moonAt, moonAt, norm_mk, norm_mk]
    apply sqrt_le_sqrt
    have := least S.G.x S.G.y S.v S.u hvv τ
    rw [← S.hw] at this
    nlinarith
  · split_ifs with h1 h2 <;> simp_all
  · split_ifs with h1 h2 <;> simp_all
  · split_ifs with h1 h2 <;> simp_all
  · intro hA
    rw [if_pos hA, if_pos hA]
    refine ⟨by field_simp, div_nonneg (div_nonneg (by linarith) hm.le) (by norm_num), ?_, rfl⟩
    rw [le_div_iff₀ (by norm_num), le_div_iff₀ hm]
    constructor <;> intro h <;> linarith
  · intro hA; simp [hA]
  · intro hA; simp [hA]
  · intro hA; simp [hA]

/-- the result does not depend on what an earlier computation left behind -/
theorem c42_history (s s' : Ys) : lecMax lecXY near s jd = lecMax lecXY near s' jd := rfl

/-! ## contact times under uniform motion -/

/-- the moon moves uniformly past a shadow of constant radius -/
def Uniform (lecXY : ℝ → Re0) (x y v u mr er Er : ℝ) : Prop := ∀ t, lecXY t = ⟨x + v * t, y + u * t, mr, er, Er, t⟩

/-- With a uniformly moving moon and constant radii the times are exact and in order: first contact with the penumbra, with the
umbra, totality begins, greatest eclipse, totality ends, last contacts — each the first or last instant at which the discs touch. -/
theorem c42_contacts_partial (x y v u mr er Er : ℝ) (hv : 0 < v) (hm : 0 < mr) (he : mr ≤ er) (hE : er ≤ Er)
    (hU : Uniform lecXY x y v u mr er Er) (s : Ys) (R : Ys) (hR : R = lecMax lecXY near s jd) (d : ℝ → ℝ)
    (hd : ∀ t, d t = √((x + v * t) ^ 2 + (y + u * t) ^ 2)) :
    (R.LX ≠ "" → (d (R.lT 0) = mr + er ∧ d (R.lT 2) = mr + er ∧ R.lT 0 ≤ R.lT 1 ∧ R.lT 1 ≤ R.lT 2 ∧ ∀ t, d (R.lT 1) ≤ d t)
        ∧ (∀ t, d t ≤ mr + er ↔ R.lT 0 ≤ t ∧ t ≤ R.lT 2))
    ∧ ((∃ t, d t ≤ mr + Er) → ∀ t, d t ≤ mr + Er ↔ R.lT 3 ≤ t ∧ t ≤ R.lT 4)
    ∧ (R.LX = "全" → ∀ t, d t ≤ er - mr ↔ R.lT 5 ≤ t ∧ t ≤ R.lT 6) := by
  have hU' : ∀ t, lecXY t = ⟨x + v * t, y + u * t, mr, er, Er, t⟩ := hU
  -- the motion as the program measures it
  obtain ⟨S, hSG, hSv, hSu⟩ : ∃ S : Setting lecXY near jd, S.G = ⟨x + v * near jd, y + u * near jd, mr, er, Er, near jd⟩ ∧ S.v = v ∧ S.u = u := by
    refine ⟨⟨_, rfl, _, rfl, _, rfl, _, rfl⟩, hU _, ?_, ?_⟩ <;>
    · simp only [hU']; ring
  have hvv : 0 < u * u + v * v := by nlinarith [mul_self_nonneg u]
  have hw := S.hw
  rw [hSG, hSv, hSu] at hw
  simp only at hw
  -- the least distance is at `near jd + w`
  obtain ⟨tm, htm⟩ : ∃ tm, tm = near jd + S.w := ⟨_, rfl⟩
  have hnorm : ∀ τ, ‖moonAt S.G S.v S.u τ‖ = d (near jd + τ) := by
    intro τ
    rw [hSG, hSv, hSu, moonAt, norm_mk, hd]
    congr 1; simp only []; ring
  have hpos : ∀ t, 0 ≤ d t := fun t => by rw [hd]; exact sqrt_nonneg _
  have hsq : ∀ t, d t ^ 2 = (x + v * t) ^ 2 + (y + u * t) ^ 2 := fun t => by rw [hd, sq_sqrt (by positivity)]
  have htm0 : v * (x + v * tm) + u * (y + u * tm) = 0 := by
    have : S.w * (u * u + v * v) = -((y + u * near jd) * u + (x + v * near jd) * v) := by rw [hw, div_mul_cancel₀ _ hvv.ne']
    rw [htm]; linear_combination this
  have hexp : ∀ t, d t ^ 2 = d tm ^ 2 + (t - tm) ^ 2 * (u * u + v * v) := by
    intro t
    rw [hsq, hsq]
    linear_combination (2 * (t - tm)) * htm0
  have hmin : ∀ t, d tm ≤ d t := by
    intro t
    refine abs_le_of_sq_le_sq' ?_ (hpos t) |>.2
    rw [hexp t]
    nlinarith [mul_nonneg (sq_nonneg (t - tm)) hvv.le]
  -- one pair of contacts
  have pair : ∀ (rad : Re0 → ℝ) (r : ℝ), (∀ t, rad (lecXY t) = r) → 0 ≤ r → d tm ≤ r →
      ∃ t1 t2, contact lecXY S.G S.v S.u rad false = t1 ∧ contact lecXY S.G S.v S.u rad true = t2
        ∧ d t1 = r ∧ d t2 = r ∧ t1 ≤ tm ∧ tm ≤ t2 ∧ ∀ t, d t ≤ r ↔ t1 ≤ t ∧ t ≤ t2 := by
    intro rad r hrad hr0 hle
    have hGe : S.G = lecXY (near jd) := S.hG
    have hcon : ∀ n, contact lecXY S.G S.v S.u rad n = lineT (x + v * 0) (y + u * 0) 0 v u r n := by
      intro n
      -- `lineT` does not depend on which instant of the motion it starts from
      have hshift : ∀ t0, lineT (x + v * t0) (y + u * t0) t0 v u r n = lineT (x + v * 0) (y + u * 0) 0 v u r n := by
        intro t0
        unfold lineT
        simp only []
        rw [show (y + u * t0) * v - (x + v * t0) * u = (y + u * 0) * v - (x + v * 0) * u by ring]
        split_ifs
        · rfl
        · field_simp; ring
        · field_simp; ring
      unfold contact
      simp only []
      rw [hrad, hU, hSv, hSu]
      simp only []
      exact hshift _
    have hfar := c41_lineT (x + v * 0) (y + u * 0) 0 v u r hv (fun τ => d τ = r) (by
      intro τ
      constructor
      · intro h
        have := hsq τ
        rw [h] at this
        rw [this]; ring
      · intro h
        have h2 : d τ ^ 2 = r ^ 2 := by rw [hsq, ← h]; ring
        exact (pow_left_inj₀ (hpos τ) hr0 (by norm_num)).1 h2)
    -- there is a contact
    obtain ⟨k, hk0, hk⟩ : ∃ k : ℝ, 0 ≤ k ∧ k ^ 2 * (u * u + v * v) = r ^ 2 - d tm ^ 2 := by
      refine ⟨√((r ^ 2 - d tm ^ 2) / (u * u + v * v)), sqrt_nonneg _, ?_⟩
      rw [sq_sqrt (div_nonneg (by nlinarith [hpos tm]) hvv.le)]
      field_simp
    have hk1 : d (tm + k) = r := by
      have : d (tm + k) ^ 2 = r ^ 2 := by rw [hexp]; linear_combination hk
      exact (pow_left_inj₀ (hpos _) hr0 (by norm_num)).1 this
    have hk2 : d (tm - k) = r := by
      have : d (tm - k) ^ 2 = r ^ 2 := by rw [hexp]; linear_combination hk
      exact (pow_left_inj₀ (hpos _) hr0 (by norm_num)).1 this
    obtain ⟨a, b, cc, e⟩ := hfar.1 ⟨_, hk1⟩
    have only : ∀ t, d t = r → t = tm - k ∨ t = tm + k := by
      intro t ht
      have h2 : d t ^ 2 = r ^ 2 := by rw [ht]
      rw [hexp] at h2
      have h3 : ((t - tm) ^ 2 - k ^ 2) * (u * u + v * v) = 0 := by linear_combination h2 - hk
      have h4 : (t - tm - k) * (t - tm + k) = 0 := by
        rcases mul_eq_zero.1 h3 with h | h
        · linear_combination h
        · exact absurd h hvv.ne'
      rcases mul_eq_zero.1 h4 with h | h
      · right; linarith
      · left; linarith
    have e1 := e (tm - k) hk2
    have e2 := e (tm + k) hk1
    have a1 := only _ a
    have b1 := only _ b
    obtain ⟨t1, ht1⟩ : ∃ t1, t1 = lineT (x + v * 0) (y + u * 0) 0 v u r false := ⟨_, rfl⟩
    obtain ⟨t2, ht2⟩ : ∃ t2, t2 = lineT (x + v * 0) (y + u * 0) 0 v u r true := ⟨_, rfl⟩
    rw [← ht1] at a cc a1 e1 e2
    rw [← ht2] at b cc b1 e1 e2
    have f1 : t1 = tm - k := by
      rcases a1 with h | h
      · exact h
      · rcases e1 with g | g
        · rw [← g]
        · linarith
    have f2 : t2 = tm + k := by
      rcases b1 with h | h
      · rcases e2 with g | g
        · linarith
        · rw [← g]
      · exact h
    refine ⟨t1, t2, by rw [hcon, ht1], by rw [hcon, ht2], a, b, by linarith, by linarith, fun t => ?_⟩
    have hd1 : d t ≤ r ↔ (t - tm) ^ 2 ≤ k ^ 2 := by
      rw [← sq_le_sq₀ (hpos t) hr0, hexp t]
      constructor
      · intro h
        refine le_of_mul_le_mul_right (a := u * u + v * v) ?_ hvv
        linarith
      · intro h
        have := mul_le_mul_of_nonneg_right h hvv.le
        linarith
    rw [hd1, sq_le_sq, abs_of_nonneg hk0, abs_le, f1, f2]
    constructor
    · rintro ⟨h1, h2⟩; exact ⟨by linarith, by linarith⟩
    · rintro ⟨h1, h2⟩; exact ⟨by linarith, by linarith⟩
  have hmr : S.G.mr = mr := by rw [hSG]
  have her : S.G.er = er := by rw [hSG]
  have hEr : S.G.Er = Er := by rw [hSG]
  have hrm : ‖moonAt S.G S.v S.u S.w‖ = d tm := by rw [hnorm, htm]
  rw [lecMax_eq S s, hrm, hmr, her, hEr] at hR
  subst hR
  simp only []
  refine ⟨?_, ?_, ?_⟩
  · intro hLX
    have hA : d tm ≤ mr + er := by
      by_contra hc
      apply hLX
      rw [if_neg (by intro h; linarith), if_neg hc]
    obtain ⟨t1, t2, h1, h2, h3, h4, h5, h6, h7⟩ := pair (fun g => g.mr + g.er) (mr + er) (fun t => by rw [hU]) (by linarith) hA
    rw [if_pos hA, if_pos hA, if_pos hA, h1, h2, ← htm]
    exact ⟨⟨h3, h4, h5, h6, hmin⟩, h7⟩
  · rintro ⟨t, ht⟩
    have hP : d tm ≤ mr + Er := (hmin t).trans ht
    obtain ⟨t1, t2, h1, h2, h3, h4, h5, h6, h7⟩ := pair (fun g => g.mr + g.Er) (mr + Er) (fun t => by rw [hU]) (by linarith) hP
    rw [if_pos hP, if_pos hP, h1, h2]
    exact h7
  · intro hLX
    have hT : d tm ≤ er - mr := by
      by_contra hc
      rw [if_neg hc] at hLX
      split_ifs at hLX <;> simp at hLX
    obtain ⟨t1, t2, h1, h2, h3, h4, h5, h6, h7⟩ := pair (fun g => g.er - g.mr) (er - mr) (fun t => by rw [hU]) (by linarith) hT
    rw [if_pos hT, if_pos hT, h1, h2]
    exact h7

/-- a central total eclipse meets the hypotheses -/
example : ∃ S : Setting (fun t => ⟨t, 0, 1, 3, 6, t⟩) (fun t => t) 0, 0 < S.G.mr ∧ 0 ≤ S.G.er ∧ (S.u ≠ 0 ∨ S.v ≠ 0) :=
  ⟨⟨_, rfl, _, rfl, _, rfl, _, rfl⟩, by norm_num, by norm_num, Or.inr (by norm_num)⟩

example : Uniform (fun t => ⟨0 + 1 * t, 0 + 0 * t, 1, 3, 6, t⟩) 0 0 1 0 1 3 6 := fun _ => rfl

end Verif.Geom
