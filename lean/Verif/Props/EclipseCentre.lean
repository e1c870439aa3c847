import Verif.EclipseLimits
import Verif.Props.SkyPanel
import Mathlib.Tactic.LinearCombination

/-!
# C84 the centre and the limits of a solar eclipse at an instant
-/

namespace Verif.Geom

open Real Verif.Precession

/-! ## Specification -/

/-- square of the distance of the point `c` from the line through `v` of direction `n` (not zero) -/
noncomputable def lineDist2 (v n c : V3) : ℝ :=
  ((((c.y - v.y) * n.z - (c.z - v.z) * n.y) ^ 2 + ((c.z - v.z) * n.x - (c.x - v.x) * n.z) ^ 2 + ((c.x - v.x) * n.y - (c.y - v.y) * n.x) ^ 2)
    / (n.x ^ 2 + n.y ^ 2 + n.z ^ 2))

/-- the radius of the sun in kilometres: 959.63 seconds of arc at one astronomical unit -/
noncomputable def sunRadius : ℝ := 959.63 / arcsec * AU
/-- the radius of the moon in kilometres -/
noncomputable def moonRadius : ℝ := 0.2725076 * rEar * 1.0000036

theorem arcsec_pos : 0 < arcsec := by unfold arcsec; positivity
theorem sunRadius_pos : 0 < sunRadius := by
  have := arcsec_pos
  unfold sunRadius AU; positivity
theorem moonRadius_pos : 0 < moonRadius := by unfold moonRadius rEar; norm_num

theorem sMoon_eq : sMoon = moonRadius * arcsec := rfl

theorem ratio_eq : radiusRatio = sunRadius / moonRadius := by
  have h1 := arcsec_pos
  have h2 := moonRadius_pos
  unfold radiusRatio sunRadius
  rw [sMoon_eq]
  field_simp

theorem ratio_big : 300 < radiusRatio := by
  have h1 := arcsec_pos
  have h2 := moonRadius_pos
  rw [ratio_eq, lt_div_iff₀ h2]
  unfold sunRadius moonRadius arcsec rEar AU
  have hp := pi_gt_three
  rw [div_div_eq_mul_div, div_mul_eq_mul_div, lt_div_iff₀ (by norm_num)]
  nlinarith

/-! ## The vertices of the cones -/

theorem centre_of (S M V : V3) (k : ℝ) (hx : S.x - V.x = k * (M.x - V.x)) (hy : S.y - V.y = k * (M.y - V.y)) (hz : S.z - V.z = k * (M.z - V.z)) (n : V3) :
    lineDist2 V n S = k ^ 2 * lineDist2 V n M := by
  unfold lineDist2
  rw [hx, hy, hz, ← mul_div_assoc]
  congr 1
  ring

/-- **C84 (cones).**  The two vertices prepared for an instant are the vertices of the cones that touch the spheres of the moon and of the sun: a line through either vertex touches the sun
exactly when it touches the moon.  The vertex of the umbra is on the far side of the moon, that of the penumbra between moon and sun. -/
theorem c84_cones (sun moon : ℝ → V3) (dt E : ℝ) (zd : ℝ × ℝ) (jd : ℝ) (z : Zb0) (hz : z = zb0 sun moon dt E zd jd)
    (S M : V3) (hS : S = llr2xyz (sun jd)) (hM : M = llr2xyz (moon jd)) :
    (llr2xyz z.A ≠ ⟨0, 0, 0⟩ → (∀ n : V3, lineDist2 (llr2xyz z.A) n S = sunRadius ^ 2 ↔ lineDist2 (llr2xyz z.A) n M = moonRadius ^ 2)
        ∧ ∃ a : ℝ, 1 < a ∧ S.x - (llr2xyz z.A).x = a * (M.x - (llr2xyz z.A).x) ∧ S.y - (llr2xyz z.A).y = a * (M.y - (llr2xyz z.A).y) ∧ S.z - (llr2xyz z.A).z = a * (M.z - (llr2xyz z.A).z))
    ∧ (llr2xyz z.B ≠ ⟨0, 0, 0⟩ → (∀ n : V3, lineDist2 (llr2xyz z.B) n S = sunRadius ^ 2 ↔ lineDist2 (llr2xyz z.B) n M = moonRadius ^ 2)
        ∧ ∃ a : ℝ, a < 0 ∧ S.x - (llr2xyz z.B).x = a * (M.x - (llr2xyz z.B).x) ∧ S.y - (llr2xyz z.B).y = a * (M.y - (llr2xyz z.B).y) ∧ S.z - (llr2xyz z.B).z = a * (M.z - (llr2xyz z.B).z)) := by
  have hk := ratio_big
  obtain ⟨k, hkd⟩ : ∃ k, k = radiusRatio := ⟨_, rfl⟩
  rw [← hkd] at hk
  have hm := moonRadius_pos
  have hkm : k * moonRadius = sunRadius := by rw [hkd, ratio_eq]; field_simp
  have hA : z.A = xyz2llr ⟨(S.x - M.x) / (1 - k) + M.x, (S.y - M.y) / (1 - k) + M.y, (S.z - M.z) / (1 - k) + M.z⟩ := by
    rw [hz, hS, hM, hkd]; rfl
  have hB : z.B = xyz2llr ⟨(S.x - M.x) / (1 + k) + M.x, (S.y - M.y) / (1 + k) + M.y, (S.z - M.z) / (1 + k) + M.z⟩ := by
    rw [hz, hS, hM, hkd]; rfl
  have hback : ∀ v : V3, llr2xyz (xyz2llr v) ≠ ⟨0, 0, 0⟩ → llr2xyz (xyz2llr v) = v := by
    intro v hv
    by_cases h : v.x ≠ 0 ∨ v.y ≠ 0 ∨ v.z ≠ 0
    · exact c37_xyz_llr_xyz v h
    · push Not at h
      exfalso
      apply hv
      have hv0 : v = ⟨0, 0, 0⟩ := v3_ext h.1 h.2.1 h.2.2
      rw [hv0]
      simp [xyz2llr, llr2xyz]
  have htouch : ∀ (V : V3) (a : ℝ), a ^ 2 = k ^ 2 → S.x - V.x = a * (M.x - V.x) → S.y - V.y = a * (M.y - V.y) → S.z - V.z = a * (M.z - V.z) →
      ∀ n : V3, lineDist2 V n S = sunRadius ^ 2 ↔ lineDist2 V n M = moonRadius ^ 2 := by
    intro V a ha hx hy hz n
    rw [centre_of S M V a hx hy hz n, ha, ← hkm, mul_pow]
    constructor
    · intro h; exact mul_left_cancel₀ (by positivity) h
    · intro h; rw [h]
  have h1k : (1 - k) ≠ 0 := by linarith
  have h2k : (1 + k) ≠ 0 := by linarith
  constructor
  · intro hne
    rw [hA] at hne
    have e := hback _ hne
    rw [hA, e]
    refine ⟨htouch _ k rfl ?_ ?_ ?_, k, by linarith, ?_, ?_, ?_⟩ <;> (simp only []; field_simp; ring)
  · intro hne
    rw [hB] at hne
    have e := hback _ hne
    rw [hB, e]
    refine ⟨htouch _ (-k) (by ring) ?_ ?_ ?_, -k, by linarith, ?_, ?_, ?_⟩ <;> (simp only []; field_simp; ring)

/-! ## The centre -/

theorem xyz2llr_scale (v : V3) (l : ℝ) (hl : 0 < l) : (xyz2llr ⟨l * v.x, l * v.y, l * v.z⟩).x = (xyz2llr v).x ∧ (xyz2llr ⟨l * v.x, l * v.y, l * v.z⟩).y = (xyz2llr v).y := by
  unfold xyz2llr
  simp only []
  constructor
  · congr 1
    unfold atan2
    have : (⟨l * v.x, l * v.y⟩ : ℂ) = (l : ℝ) * ⟨v.x, v.y⟩ := by
      apply Complex.ext <;> simp
    rw [this, Complex.arg_real_mul _ hl]
  · have : √(l * v.x * (l * v.x) + l * v.y * (l * v.y) + l * v.z * (l * v.z)) = l * √(v.x * v.x + v.y * v.y + v.z * v.z) := by
      rw [show l * v.x * (l * v.x) + l * v.y * (l * v.y) + l * v.z * (l * v.z) = l ^ 2 * (v.x * v.x + v.y * v.y + v.z * v.z) by ring,
        sqrt_mul (sq_nonneg l), sqrt_sq hl.le]
    rw [this, mul_div_mul_left _ _ hl.ne']

theorem parallax_far (z : V3) (H fa : ℝ) (hz : 500 ≤ z.z) (b s : V3) (hb : b = llr2xyz z) (hs : s = site (z.x + H) fa 0) :
    parallax z H fa 0 = xyz2llr ⟨b.x - s.x, b.y - s.y, b.z - s.z⟩ := by
  have hn : ¬ z.z < 500 := by linarith
  rw [hb, hs]
  unfold parallax site
  have e : rEar * sin (arctan (ba * tan fa)) * ba = rEar * ba * sin (arctan (ba * tan fa)) := by ring
  simp only [if_neg hn, mul_one, div_one, zero_mul, add_zero, e]

/-- **C84 (centre).**  The centre reported for an instant: without a point of the Earth on the line through moon and sun the place is marked 100, 100 and no kind is given; otherwise the
place is the point of the Earth on that line nearest to the moon, where the centres of sun and moon appear exactly in the same direction (when the way from the moon to the sun does not
pass through the Earth), and the eclipse is reported annular exactly when the sun appears larger than the moon there, and total otherwise. -/
theorem c84_centre (sun moon : ℝ → V3) (dt E : ℝ) (zd : ℝ × ℝ) (jd : ℝ) (z : Zb0) (hz : z = zb0 sun moon dt E zd jd)
    (S M : V3) (hS : S = llr2xyz (sun jd)) (hM : M = llr2xyz (moon jd)) (hSM : M.x ≠ S.x ∨ M.y ≠ S.y ∨ M.z ≠ S.z)
    (J W : ℝ) (kind : String) (hp : ((J, W), kind) = pp0 z) :
    ((∀ t, ¬ OnEll ba rEar (onLine M S t)) → J = 100 ∧ W = 100 ∧ kind = "")
    ∧ ((∃ t, OnEll ba rEar (onLine M S t)) → ∃ c : V3, (∃ t, c = onLine M S t) ∧ OnEll ba rEar c
        ∧ (∀ t, OnEll ba rEar (onLine M S t) → dist3 c M ≤ dist3 (onLine M S t) M)
        ∧ -π < J ∧ J ≤ π ∧ -(π / 2) < W ∧ W < π / 2 ∧ (kind = "环" ∨ kind = "全")
        ∧ ((c.x ≠ 0 ∨ c.y ≠ 0) → site (J + z.P.g) W 0 = c
            ∧ ((∀ t, 0 ≤ t → ¬ OnEll ba rEar (onLine M S t)) → 500 ≤ (sun jd).z → 500 ≤ (moon jd).z →
                (zbXY z.P J W).x = 0 ∧ (zbXY z.P J W).y = 0
                ∧ (kind = "环" ↔ moonRadius / dist3 M c < sunRadius / dist3 S c)))) := by
  have hPM : z.P.M = moon jd := by rw [hz]; rfl
  have hPS : z.P.S = sun jd := by rw [hz]; rfl
  obtain ⟨pp, hpp⟩ : ∃ pp, pp = (lineEar z.P.M z.P.S z.P.g).2 := ⟨_, rfl⟩
  have hpp0 : pp0 z = if pp.2 = 100 then (pp, "") else (pp, if (zbXY z.P pp.1 pp.2).sr > (zbXY z.P pp.1 pp.2).mr then "环" else "全") := by
    rw [hpp]; rfl
  have hJW : (J, W) = pp := by
    have : (pp0 z).1 = pp := by rw [hpp0]; split_ifs <;> rfl
    rw [← this, ← hp]
  have hJ : pp.1 = J := by rw [← hJW]
  have hW : pp.2 = W := by rw [← hJW]
  obtain ⟨l1, l2⟩ := c72_line z.P.M z.P.S z.P.g M S (by rw [hPM]; exact hM) (by rw [hPS]; exact hS) hSM J W (by rw [hJW, hpp])
  constructor
  · intro h
    obtain ⟨e1, e2⟩ := l1 h
    refine ⟨e1, e2, ?_⟩
    rw [hpp0, if_pos (by rw [hW, e2])] at hp
    exact (Prod.mk.inj hp).2
  · intro h
    obtain ⟨c, ⟨t, hc⟩, ho, hn, j1, j2, w1, w2, hsite⟩ := l2 h
    have hWn : ¬ pp.2 = 100 := by
      rw [hW]; intro h100; rw [h100] at w2; linarith [pi_lt_d6]
    rw [hpp0, if_neg hWn, hJ, hW] at hp
    have hkind := (Prod.mk.inj hp).2
    refine ⟨c, ⟨t, hc⟩, ho, hn, j1, j2, w1, w2, ?_, fun hpole => ⟨hsite hpole, fun hray hs5 hm5 => ?_⟩⟩
    · rw [hkind]; split_ifs
      · exact Or.inl rfl
      · exact Or.inr rfl
    · have ht : t < 0 := by
        by_contra hcon
        push Not at hcon
        exact hray t hcon (by rw [← hc]; exact ho)
      -- the two topocentric vectors
      have hs := parallax_far z.P.S (z.P.g + J - z.P.S.x) W (by rw [hPS]; exact hs5) S c (by rw [hPS]; exact hS)
        (by rw [show z.P.S.x + (z.P.g + J - z.P.S.x) = J + z.P.g by ring]; exact (hsite hpole).symm)
      have hm := parallax_far z.P.M (z.P.g + J - z.P.M.x) W (by rw [hPM]; exact hm5) M c (by rw [hPM]; exact hM)
        (by rw [show z.P.M.x + (z.P.g + J - z.P.M.x) = J + z.P.g by ring]; exact (hsite hpole).symm)
      obtain ⟨l, hl⟩ : ∃ l, l = -t / (1 - t) := ⟨_, rfl⟩
      have hl0 : 0 < l := by rw [hl]; exact div_pos (by linarith) (by linarith)
      have h1t : (1 - t) ≠ 0 := by linarith
      have hvec : (⟨M.x - c.x, M.y - c.y, M.z - c.z⟩ : V3) = ⟨l * (S.x - c.x), l * (S.y - c.y), l * (S.z - c.z)⟩ := by
        rw [hc, hl]
        unfold onLine
        refine v3_ext ?_ ?_ ?_ <;> (simp only []; field_simp; ring)
      obtain ⟨v, hv⟩ : ∃ v : V3, v = ⟨S.x - c.x, S.y - c.y, S.z - c.z⟩ := ⟨_, rfl⟩
      have hsc := xyz2llr_scale v l hl0
      rw [← hv] at hs
      have hm' : parallax z.P.M (z.P.g + J - z.P.M.x) W 0 = xyz2llr ⟨l * v.x, l * v.y, l * v.z⟩ := by rw [hm, hvec, hv]
      have hds : (xyz2llr v).z = dist3 S c := by
        rw [hv]; unfold xyz2llr dist3; simp only []; congr 1; ring
      have hdm : (parallax z.P.M (z.P.g + J - z.P.M.x) W 0).z = dist3 M c := by
        rw [hm]; unfold xyz2llr dist3; simp only []; congr 1; ring
      have hx : (zbXY z.P J W).x = rrad ((parallax z.P.M (z.P.g + J - z.P.M.x) W 0).x - (parallax z.P.S (z.P.g + J - z.P.S.x) W 0).x)
          * cos (((parallax z.P.M (z.P.g + J - z.P.M.x) W 0).y + (parallax z.P.S (z.P.g + J - z.P.S.x) W 0).y) / 2) := rfl
      have hy : (zbXY z.P J W).y = (parallax z.P.M (z.P.g + J - z.P.M.x) W 0).y - (parallax z.P.S (z.P.g + J - z.P.S.x) W 0).y := rfl
      have hmr : (zbXY z.P J W).mr = moonRadius / dist3 M c := by
        show sMoon / (parallax z.P.M (z.P.g + J - z.P.M.x) W 0).z / arcsec = _
        have := arcsec_pos
        rw [hdm, sMoon_eq, div_right_comm, mul_div_cancel_right₀ _ this.ne']
      have hsr : (zbXY z.P J W).sr = sunRadius / dist3 S c := by
        show 959.63 / (parallax z.P.S (z.P.g + J - z.P.S.x) W 0).z / arcsec * AU = _
        rw [hs, hds]; unfold sunRadius
        ring
      refine ⟨?_, ?_, ?_⟩
      · rw [hx, hm', hs, hsc.1, sub_self]
        rw [c36_rrad_id 0 ⟨by linarith [pi_pos], by linarith [pi_pos]⟩, zero_mul]
      · rw [hy, hm', hs, hsc.2, sub_self]
      · rw [hkind, hmr, hsr]
        constructor
        · intro hk
          by_contra hcon
          rw [if_neg hcon] at hk
          exact absurd hk (by decide)
        · intro hk
          rw [if_pos hk]

/-- an annular eclipse with the axis through the centre of the Earth: all conditions of `c84_centre` hold -/
theorem centre_demo (dt E : ℝ) (zd : ℝ × ℝ) (jd : ℝ) :
    (pp0 (zb0 (fun _ => ⟨0, 0, 150000000⟩) (fun _ => ⟨0, 0, 400000⟩) dt E zd jd)).2 = "环" := by
  obtain ⟨z, hz⟩ : ∃ z, z = zb0 (fun _ => ⟨0, 0, 150000000⟩) (fun _ => ⟨0, 0, 400000⟩) dt E zd jd := ⟨_, rfl⟩
  have hS : llr2xyz ⟨0, 0, 150000000⟩ = ⟨150000000, 0, 0⟩ := by unfold llr2xyz; simp
  have hM : llr2xyz ⟨0, 0, 400000⟩ = ⟨400000, 0, 0⟩ := by unfold llr2xyz; simp
  have hr : rEar = 6378.1366 := rfl
  have hon : ∀ t, OnEll ba rEar (onLine ⟨400000, 0, 0⟩ ⟨150000000, 0, 0⟩ t) ↔ (400000 + 149600000 * t) ^ 2 = rEar ^ 2 := by
    intro t
    unfold OnEll onLine
    norm_num
  have hdist : ∀ a b : ℝ, dist3 ⟨a, 0, 0⟩ ⟨b, 0, 0⟩ = |a - b| := by
    intro a b
    unfold dist3
    rw [← sqrt_sq_eq_abs]; congr 1; simp
  obtain ⟨-, h2⟩ := c84_centre _ _ dt E zd jd z hz _ _ hS.symm hM.symm (Or.inl (by norm_num)) (pp0 z).1.1 (pp0 z).1.2 (pp0 z).2 rfl
  obtain ⟨c, ⟨t, hc⟩, ho, hn, -, -, -, -, -, h3⟩ := h2 ⟨(rEar - 400000) / 149600000, by rw [hon]; congr 1; ring⟩
  have hcx : c = ⟨400000 + 149600000 * t, 0, 0⟩ := by
    rw [hc]; unfold onLine; refine v3_ext ?_ ?_ ?_ <;> norm_num
  rw [hc, hon, sq_eq_sq_iff_eq_or_eq_neg] at ho
  have hcr : c = ⟨rEar, 0, 0⟩ := by
    rcases ho with ho | ho
    · rw [hcx, ho]
    · exfalso
      have := hn ((rEar - 400000) / 149600000) (by rw [hon]; congr 1; ring)
      have e : onLine ⟨400000, 0, 0⟩ ⟨150000000, 0, 0⟩ ((rEar - 400000) / 149600000) = ⟨rEar, 0, 0⟩ := by
        unfold onLine; refine v3_ext ?_ ?_ ?_
        · simp only []; ring
        · norm_num
        · norm_num
      rw [e, hcx, ho, hdist, hdist, hr] at this
      norm_num [abs_of_neg] at this
  obtain ⟨-, h4⟩ := h3 (by left; rw [hcr, hr]; norm_num)
  obtain ⟨-, -, h5⟩ := h4 (by
    intro t ht h
    rw [hon, hr] at h
    nlinarith) (by norm_num) (by norm_num)
  rw [← hz, h5, hcr, hdist, hdist, hr, abs_of_pos (by norm_num), abs_of_pos (by norm_num), div_lt_div_iff₀ (by norm_num) (by norm_num)]
  unfold moonRadius sunRadius arcsec AU
  rw [hr, div_div_eq_mul_div, div_mul_eq_mul_div, div_mul_eq_mul_div, lt_div_iff₀ (by norm_num)]
  linarith [pi_gt_d6]

/-! ## The limits -/

/-- **C84 (one round of a limit).**  From an observer at `L`, `fa`, the next estimate of a limit: the point of the sun's edge seen at the sun's apparent radius from the centre of the sun, square to the
relative motion `(v, u)` of the moon in one minute, on the side given by the sign; the new place is the point of the Earth on the line through that point of the sun's edge and the vertex
of the cone nearest to the sun, or the markers 100, 100. -/
theorem c84_limit (z : Zb0) (L fa : ℝ) (fAB : Bool) (f : ℝ) (hf : f = 1 ∨ f = -1) (u v : ℝ)
    (hu : u = (zbXY z.Q L fa).y - (zbXY z.P L fa).y) (hv : v = (zbXY z.Q L fa).x - (zbXY z.P L fa).x) (huv : u ≠ 0 ∨ v ≠ 0)
    (r : ℝ) (hr : r = sunRadius / z.P.S.z) (hr0 : 0 < z.P.S.z) :
    ∃ ξ η W J : ℝ, ξ ^ 2 + η ^ 2 = r ^ 2 ∧ ξ * v + η * u = 0 ∧ 0 < f * (η * v - ξ * u) ∧ W = z.P.S.y + η ∧ (cos ((W + z.P.S.y) / 2) ≠ 0 → (J - z.P.S.x) * cos ((W + z.P.S.y) / 2) = ξ)
      ∧ p2p z L fa fAB f = (lineEar ⟨J, W, z.P.S.z⟩ (if fAB then z.A else z.B) z.P.g).2 := by
  have hpos : 0 < u * u + v * v := by
    rcases huv with h | h
    · nlinarith [mul_self_pos.2 h, mul_self_nonneg v]
    · nlinarith [mul_self_pos.2 h, mul_self_nonneg u]
  obtain ⟨a, ha⟩ : ∃ a, a = √(u * u + v * v) := ⟨_, rfl⟩
  have ha0 : 0 < a := by rw [ha]; exact sqrt_pos.2 hpos
  have ha2 : a * a = u * u + v * v := by rw [ha]; exact mul_self_sqrt hpos.le
  have hf2 : f * f = 1 := by rcases hf with rfl | rfl <;> norm_num
  have hrp : 0 < r := by rw [hr]; exact div_pos sunRadius_pos hr0
  have hr' : 959.63 / z.P.S.z / arcsec * AU = r := by rw [hr]; unfold sunRadius; ring
  refine ⟨-(f * r * u / a), f * r * v / a, z.P.S.y + f * r * v / a, z.P.S.x - f * r * u / a / cos ((z.P.S.y + f * r * v / a + z.P.S.y) / 2), ?_, ?_, ?_, rfl, ?_, ?_⟩
  · field_simp
    linear_combination (u ^ 2 + v ^ 2) * hf2 - ha2
  · field_simp; ring
  · have e : f * (f * r * v / a * v - -(f * r * u / a) * u) = (f * f) * r * ((u * u + v * v) / a) := by ring
    rw [e, hf2, ← ha2]
    have : 0 < a * a / a := by positivity
    positivity
  · intro hc
    rw [sub_sub_cancel_left, neg_mul, div_mul_cancel₀ _ hc]
  · show (lineEar ⟨z.P.S.x - f * (959.63 / z.P.S.z / arcsec * AU) * ((zbXY z.Q L fa).y - (zbXY z.P L fa).y) / √(((zbXY z.Q L fa).y - (zbXY z.P L fa).y) * ((zbXY z.Q L fa).y - (zbXY z.P L fa).y) + ((zbXY z.Q L fa).x - (zbXY z.P L fa).x) * ((zbXY z.Q L fa).x - (zbXY z.P L fa).x))
          / cos ((z.P.S.y + f * (959.63 / z.P.S.z / arcsec * AU) * ((zbXY z.Q L fa).x - (zbXY z.P L fa).x) / √(((zbXY z.Q L fa).y - (zbXY z.P L fa).y) * ((zbXY z.Q L fa).y - (zbXY z.P L fa).y) + ((zbXY z.Q L fa).x - (zbXY z.P L fa).x) * ((zbXY z.Q L fa).x - (zbXY z.P L fa).x)) + z.P.S.y) / 2),
        z.P.S.y + f * (959.63 / z.P.S.z / arcsec * AU) * ((zbXY z.Q L fa).x - (zbXY z.P L fa).x) / √(((zbXY z.Q L fa).y - (zbXY z.P L fa).y) * ((zbXY z.Q L fa).y - (zbXY z.P L fa).y) + ((zbXY z.Q L fa).x - (zbXY z.P L fa).x) * ((zbXY z.Q L fa).x - (zbXY z.P L fa).x)), z.P.S.z⟩
        (if fAB then z.A else z.B) z.P.g).2 = _
    rw [hr', ← hu, ← hv, ← ha]

/-- **C84 (report).**  The centre and its kind are those of the axis; each limit of the umbra is the second round of estimates starting from longitude 0 on the equator (`f = 1` for the first,
`-1` for the second), each limit of the penumbra the third (`-1`, then `1`); the width is given exactly when both limits of the umbra exist, as the chord of the two places on a sphere of the mean
radius. -/
theorem c84_report (z : Zb0) (km : ℝ → List Char) (N : Nbj) (hN : N = nbj z km) :
    (N.centre, N.Vc) = pp0 z
    ∧ (∃ p, p = p2p z 0 0 true 1 ∧ N.umbraN = p2p z p.1 p.2 true 1) ∧ (∃ p, p = p2p z 0 0 true (-1) ∧ N.umbraS = p2p z p.1 p.2 true (-1))
    ∧ (∃ p q, p = p2p z 0 0 false (-1) ∧ q = p2p z p.1 p.2 false (-1) ∧ N.penumbraN = p2p z q.1 q.2 false (-1))
    ∧ (∃ p q, p = p2p z 0 0 false 1 ∧ q = p2p z p.1 p.2 false 1 ∧ N.penumbraS = p2p z q.1 q.2 false 1)
    ∧ (N.Vb = [] ↔ N.umbraN.2 = 100 ∨ N.umbraS.2 = 100)
    ∧ (N.umbraN.2 ≠ 100 → N.umbraS.2 ≠ 100 → N.Vb =
        km (rEarA * √(((N.umbraN.1 - N.umbraS.1) * cos ((N.umbraN.2 + N.umbraS.2) / 2)) ^ 2 + (N.umbraN.2 - N.umbraS.2) ^ 2)) ++ "千米".toList) := by
  have hVb : N.Vb = if N.umbraN.2 ≠ 100 ∧ N.umbraS.2 ≠ 100 then
      km (rEarA * √((N.umbraN.1 - N.umbraS.1) * cos ((N.umbraN.2 + N.umbraS.2) / 2) * ((N.umbraN.1 - N.umbraS.1) * cos ((N.umbraN.2 + N.umbraS.2) / 2))
        + (N.umbraN.2 - N.umbraS.2) * (N.umbraN.2 - N.umbraS.2))) ++ "千米".toList else [] := by
    rw [hN]; rfl
  refine ⟨by rw [hN]; rfl, ⟨_, rfl, by rw [hN]; rfl⟩, ⟨_, rfl, by rw [hN]; rfl⟩, ⟨_, _, rfl, rfl, by rw [hN]; rfl⟩, ⟨_, _, rfl, rfl, by rw [hN]; rfl⟩, ?_, ?_⟩
  · rw [hVb]
    by_cases h : N.umbraN.2 ≠ 100 ∧ N.umbraS.2 ≠ 100
    · rw [if_pos h]
      constructor
      · intro h'
        simp at h'
      · rintro (h' | h')
        · exact absurd h' h.1
        · exact absurd h' h.2
    · rw [if_neg h]
      constructor
      · intro _
        by_contra hc
        push Not at hc
        exact h hc
      · intro _; rfl
  · intro h1 h2
    rw [hVb, if_pos ⟨h1, h2⟩, sq, sq]

end Verif.Geom
