import Verif.Props.SunTimes

/-!
# C82: sunrise, sunset, twilight and noon of the built-in sun — the property
-/

namespace Verif.SunTimes

open Real Verif.Series Verif.Geom Verif.Longitude Verif.EphTab Verif.EqTime Verif.DeltaT

/-! ## Specification -/

/-- `t` is an instant of the morning (the half day before the local mean noon `noon`) at which the body stands at the altitude `a` over a site of latitude `fa` -/
def Morning (B : Body) (fa a noon t : ℝ) : Prop := noon - 1 / 2 ≤ t ∧ t ≤ noon ∧ sinAlt fa (B.dec t) (B.H t) = sin a
/-- … of the evening -/
def Evening (B : Body) (fa a noon t : ℝ) : Prop := noon ≤ t ∧ t ≤ noon + 1 / 2 ∧ sinAlt fa (B.dec t) (B.H t) = sin a
/-- exactly one instant has the property, and `x` is within `ε` days of it -/
def Found (ε x : ℝ) (P : ℝ → Prop) : Prop := ∃ t, P t ∧ (∀ t', P t' → t' = t) ∧ |x - t| ≤ ε

/-! ## Lemmas -/

theorem alt_iff {fa a s H : ℝ} (hf : 0 < cos fa) (hs : |s| < 1) : sinAlt fa (arcsin s) H = sin a ↔ cos H = cosH fa a s := by
  have hp : 0 < 1 - s ^ 2 := by
    have := sq_lt_one_iff_abs_lt_one s |>.mpr hs
    linarith
  have hq := sqrt_pos.mpr hp
  unfold sinAlt cosH
  rw [sin_arcsin (abs_le.mp hs.le).1 (abs_le.mp hs.le).2, cos_arcsin, div_div, eq_div_iff (mul_pos hf hq).ne']
  constructor <;> intro h <;> linarith

theorem arccos_in {c : ℝ} (h : |c| ≤ 0.93) : 0.35 ≤ arccos c ∧ arccos c ≤ π - 0.35 := by
  have hp := pi_gt_three
  have k : (0.93 : ℝ) ≤ cos 0.35 := by
    have := one_sub_sq_div_two_le_cos (x := 0.35)
    norm_num at *
    linarith
  have h1 := abs_le.mp h
  have e : arccos (cos 0.35) = 0.35 := arccos_cos (by norm_num) (by norm_num; linarith)
  have a1 : ∀ x : ℝ, x ≤ 0.93 → 0.35 ≤ arccos x := fun x hx => by
    rw [← e]
    exact antitone_arccos (hx.trans k)
  refine ⟨a1 c h1.2, ?_⟩
  have := a1 (-c) (by linarith [h1.1])
  rw [arccos_neg] at this
  linarith

theorem same_angle {u v : ℝ} (h : cos u = cos v) (u1 : -0.15 ≤ u) (u2 : u ≤ π + 0.15) (v1 : 0.35 ≤ v) (v2 : v ≤ π - 0.35) : u = v := by
  have hp := pi_gt_three
  have q1 : ∀ k : ℤ, (1 : ℝ) ≤ k → 2 * π ≤ 2 * k * π := fun k hk => by
    have := mul_le_mul_of_nonneg_left hk (by linarith : (0 : ℝ) ≤ 2 * π)
    linarith
  have q2 : ∀ k : ℤ, (k : ℝ) ≤ -1 → 2 * k * π ≤ -(2 * π) := fun k hk => by
    have := mul_le_mul_of_nonneg_left hk (by linarith : (0 : ℝ) ≤ 2 * π)
    linarith
  norm_num at u1 u2 v1 v2
  obtain ⟨k, hk | hk⟩ := cos_eq_cos_iff.mp h
  · rcases lt_trichotomy k 0 with c | c | c
    · have := q2 k (by exact_mod_cast (by omega : k ≤ -1))
      linarith
    · rw [c] at hk
      push_cast at hk
      linarith
    · have := q1 k (by exact_mod_cast (by omega : 1 ≤ k))
      linarith
  · rcases lt_trichotomy k 0 with c | c | c
    · have := q2 k (by exact_mod_cast (by omega : k ≤ -1))
      linarith
    · rw [c] at hk
      push_cast at hk
      linarith
    · have := q1 k (by exact_mod_cast (by omega : 1 ≤ k))
      linarith

/-- what the surroundings of a local mean noon provide -/
structure Day (b : Tab) (L dt E noon : ℝ) : Prop where
  tab : Builtin b
  obl : 0.9133 ≤ cos E
  obls : |sin E| ≤ 0.406
  dts : |dt| ≤ 3.5
  range : ∀ t, |t - noon| ≤ 1 → |cent dt t| ≤ 30
  noon : ∃ n : ℤ, noon + L / (2 * π) = n

variable {b : Tab} {L dt E noon : ℝ}

/-- the hour angle followed through the day -/
noncomputable def hS (dt E noon t : ℝ) : ℝ := 2 * π * (t - noon) + eqt dt E t

theorem Day.turn (d : Day b L dt E noon) (t : ℝ) : ∃ k : ℤ, (sunBody b L dt E).H t = hS dt E noon t + 2 * π * k := by
  obtain ⟨k, hk⟩ := sun_H b d.tab L dt E t (by have := d.obl; norm_num at *; linarith)
  obtain ⟨n, hn⟩ := d.noon
  refine ⟨k + n, ?_⟩
  have hp := pi_pos
  have : L = 2 * π * n - 2 * π * noon := by
    rw [← hn]
    field_simp
    ring
  rw [hk, this]
  unfold hS
  push_cast
  ring

theorem Day.rate (d : Day b L dt E noon) (s t : ℝ) (hs : |s - noon| ≤ 1) (ht : |t - noon| ≤ 1) : |hS dt E noon t - hS dt E noon s - 2 * π * (t - s)| ≤ 0.0026 * |t - s| := by
  have := eqt_lip d.obl (d.range s hs) (d.range t ht)
  rw [show hS dt E noon t - hS dt E noon s - 2 * π * (t - s) = eqt dt E t - eqt dt E s by unfold hS; ring]
  exact this

theorem self_near (x : ℝ) : |x - x| ≤ 1 := by rw [sub_self, abs_zero]; norm_num

theorem Day.small (d : Day b L dt E noon) {t : ℝ} (ht : |t - noon| ≤ 1) : |eqt dt E t| ≤ 0.15 := eqt_bd d.obl (d.range t ht) d.dts

theorem Day.start (d : Day b L dt E noon) : rrad ((sunBody b L dt E).H noon) = hS dt E noon noon := by
  obtain ⟨k, hk⟩ := d.turn noon
  have h := abs_le.mp (d.small (self_near noon))
  have e : hS dt E noon noon = eqt dt E noon := by unfold hS; ring
  have hp := pi_gt_three
  refine c36_rrad_unique _ _ ⟨?_, ?_⟩ (-k) ?_
  · rw [e]; norm_num at *; linarith [h.1]
  · rw [e]; norm_num at *; linarith [h.2]
  · rw [hk]; push_cast; ring

/-- the numbers that describe an altitude over a latitude -/
structure Site (fa a C D M : ℝ) : Prop where
  hf : 0 < cos fa
  hC : C ≤ 0.93
  hD : 0 < D
  hDC : D ^ 2 ≤ 1 - C ^ 2
  h : |sin a| + |sin fa| * 0.406 ≤ C * (cos fa * 0.9138)
  hM : |sin a| * 0.406 + |sin fa| ≤ M * (cos fa * 0.9138 ^ 3 * D)
  hM0 : 0 ≤ M
  hM1 : M ≤ 4.5

section
variable {fa a C D M : ℝ}

theorem Site.cosH (s : Site fa a C D M) {x : ℝ} (hx : |x| ≤ 0.406) : |cosH fa a x| ≤ 0.93 :=
  (cosH_bd s.hf (by norm_num) (by norm_num) hx s.h).trans s.hC

theorem Site.hour (s : Site fa a C D M) (d : Day b L dt E noon) (t : ℝ) :
    getH fa a ((sunBody b L dt E).dec t) = arccos (Geom.cosH fa a (sin E * sin (lonS (cent dt t)))) := by
  rw [sun_dec b d.tab]
  have h := sdec_bd (x := lonS (cent dt t)) d.obls
  exact getH_arcsin ((s.cosH h).trans (by norm_num)) (h.trans (by norm_num))

theorem Site.hour_in (s : Site fa a C D M) (d : Day b L dt E noon) (t : ℝ) :
    0.35 ≤ getH fa a ((sunBody b L dt E).dec t) ∧ getH fa a ((sunBody b L dt E).dec t) ≤ π - 0.35 := by
  rw [s.hour d]
  exact arccos_in (s.cosH (sdec_bd d.obls))

theorem Site.hour_lip (s : Site fa a C D M) (d : Day b L dt E noon) (x y : ℝ) (hx : |x - noon| ≤ 1) (hy : |y - noon| ≤ 1) :
    |getH fa a ((sunBody b L dt E).dec y) - getH fa a ((sunBody b L dt E).dec x)| ≤ M * 0.0073 * |y - x| := by
  rw [sun_dec b d.tab, sun_dec b d.tab]
  refine (getH_lip s.hf (by norm_num) (by norm_num) (lt_of_le_of_lt s.hC (by norm_num)) s.hD s.hDC s.h s.hM (sdec_bd d.obls) (sdec_bd d.obls)).trans ?_
  rw [mul_assoc]
  exact mul_le_mul_of_nonneg_left (sdec_lip d.obls (d.range x hx) (d.range y hy)) s.hM0

theorem Site.alt (s : Site fa a C D M) (d : Day b L dt E noon) (t : ℝ) :
    sinAlt fa ((sunBody b L dt E).dec t) ((sunBody b L dt E).H t) = sin a ↔ cos (hS dt E noon t) = cos (getH fa a ((sunBody b L dt E).dec t)) := by
  have h := sdec_bd (x := lonS (cent dt t)) d.obls
  have hc := abs_le.mp ((s.cosH h).trans (by norm_num : (0.93 : ℝ) ≤ 1))
  obtain ⟨k, hk⟩ := d.turn t
  rw [s.hour d, cos_arccos hc.1 hc.2, sun_dec b d.tab, alt_iff s.hf (lt_of_le_of_lt h (by norm_num)), hk]
  rw [show hS dt E noon t + 2 * π * k = hS dt E noon t + k * (2 * π) by ring, cos_add_int_mul_two_pi]

/-- one crossing: found, unique, and on the proper side of the meridian -/
theorem crossing (d : Day b L dt E noon) (s : Site fa a C D M) {η : ℝ} (hη1 : η ≤ 1 / 10)
    (hη : (0.0026 + M * 0.0073) ^ 2 * 2.9416 ≤ 39.478 * (6.283 - (0.0026 + M * 0.0073)) * η) {sgn : ℝ} (hsgn : sgn = 1 ∨ sgn = -1) :
    ∃ t, 0 < sgn * (t - noon) ∧ |t - noon| ≤ 1 / 2 ∧ sinAlt fa ((sunBody b L dt E).dec t) ((sunBody b L dt E).H t) = sin a
      ∧ 0 < sgn * sin ((sunBody b L dt E).H t)
      ∧ |refine (sunBody b L dt E) (2 * π) noon (fun t => getH fa a ((sunBody b L dt E).dec t)) sgn - t| ≤ η
      ∧ ∀ t', 0 ≤ sgn * (t' - noon) → |t' - noon| ≤ 1 / 2 → sinAlt fa ((sunBody b L dt E).dec t') ((sunBody b L dt E).H t') = sin a → t' = t := by
  obtain ⟨Hx, hHx⟩ : ∃ Hx : ℝ → ℝ, Hx = fun t => getH fa a ((sunBody b L dt E).dec t) := ⟨_, rfl⟩
  have hin : ∀ t, 0.35 ≤ Hx t ∧ Hx t ≤ π - 0.35 := fun t => by rw [hHx]; exact s.hour_in d t
  have hlip : ∀ x y, |x - noon| ≤ 1 → |y - noon| ≤ 1 → |Hx y - Hx x| ≤ M * 0.0073 * |y - x| := fun x y hx hy => by rw [hHx]; exact s.hour_lip d x y hx hy
  have halt : ∀ t, sinAlt fa ((sunBody b L dt E).dec t) ((sunBody b L dt E).H t) = sin a ↔ cos (hS dt E noon t) = cos (Hx t) := fun t => by rw [hHx]; exact s.alt d t
  rw [← hHx]
  have p1 := pi_gt_d6
  have p2 := pi_lt_d6
  have hM0 := s.hM0
  have hM1 := s.hM1
  have s1 : |sgn| ≤ 1 := by rcases hsgn with h | h <;> rw [h] <;> norm_num
  have ss : sgn * sgn = 1 := by rcases hsgn with h | h <;> rw [h] <;> norm_num
  obtain ⟨K, hK⟩ : ∃ K, K = 0.0026 + M * 0.0073 := ⟨_, rfl⟩
  rw [← hK] at hη
  have K0 : 0 ≤ K := by rw [hK]; norm_num at *; linarith
  have K1 : K ≤ 0.0355 := by rw [hK]; norm_num at *; linarith
  have side : ∀ t, |t - noon| ≤ 1 → |sgn * eqt dt E t| ≤ 0.15 := fun t ht => by
    rw [abs_mul]
    have := mul_le_mul s1 (d.small ht) (abs_nonneg _) (by norm_num)
    linarith
  have hη0 : 0 ≤ η := by
    have : 0 ≤ 39.478 * (6.283 - K) * η := le_trans (by positivity) hη
    exact nonneg_of_mul_nonneg_right this (by norm_num at *; linarith)
  have A : |sgn * Hx noon - hS dt E noon noon| ≤ 2.9416 := by
    have e : hS dt E noon noon = eqt dt E noon := by unfold hS; ring
    rw [e]
    refine (abs_sub _ _).trans ?_
    rw [abs_mul]
    have h1 := hin noon
    have h2 : |Hx noon| ≤ π - 0.35 := by rw [abs_of_nonneg (by norm_num at *; linarith)]; exact h1.2
    have h3 := mul_le_mul s1 h2 (abs_nonneg _) (by norm_num)
    have h4 := d.small (self_near noon)
    norm_num at *
    linarith
  have hd : (2.9416 : ℝ) / (2 * π) ≤ 0.47 := by
    rw [div_le_iff₀ (by linarith)]
    norm_num at *
    linarith
  have hd0 : (0 : ℝ) ≤ 2.9416 / (2 * π) := by positivity
  have hq : K * (2.9416 / (2 * π)) ≤ 0.02 := (mul_le_mul K1 hd hd0 (by norm_num)).trans (by norm_num)
  have hq2 : K * (2.9416 / (2 * π)) / (2 * π) ≤ 0.01 := by
    rw [div_le_iff₀ (by linarith)]
    norm_num at *
    linarith
  obtain ⟨t, t1, t2, t3⟩ := refine_near (b := sunBody b L dt E) (h := hS dt E noon) (Hx := Hx) (sv := 2 * π) (K₁ := 0.0026) (K₂ := M * 0.0073) (m := noon) (r := 1) (A := 2.9416) (η := η)
    (sgn := sgn) s1 (by linarith) (by norm_num) (by positivity) (by rw [← hK]; norm_num at *; linarith) (fun t _ => d.turn t) d.start d.rate hlip A
    (by rw [← hK]; norm_num at *; linarith)
    (by
      rw [← hK]
      rw [show K * (K * (2.9416 / (2 * π))) / (2 * π) = K ^ 2 * 2.9416 / ((2 * π) * (2 * π)) by field_simp, div_le_iff₀ (by positivity)]
      refine hη.trans ?_
      have e1 : (39.478 : ℝ) ≤ (2 * π) * (2 * π) := by
        have := mul_le_mul (by linarith : (6.283184 : ℝ) ≤ 2 * π) (by linarith : (6.283184 : ℝ) ≤ 2 * π) (by norm_num) (by linarith)
        refine le_trans ?_ this
        norm_num
      have e2 : (6.283 - K) * η ≤ (2 * π - K) * η := mul_le_mul_of_nonneg_right (by norm_num at *; linarith) hη0
      have e3 := mul_le_mul e2 e1 (by norm_num) (mul_nonneg (by norm_num at *; linarith) hη0)
      linarith)
    (by rw [← hK]; norm_num at *; linarith)
  have loc : 2 * π * (sgn * (t - noon)) = Hx t - sgn * eqt dt E t := by
    have : sgn * (sgn * Hx t) = sgn * hS dt E noon t := by rw [t3]
    unfold hS at this
    rw [← mul_assoc, ss, one_mul] at this
    rw [this]
    ring
  have l1 := hin t
  have l2 := abs_le.mp (side t t1)
  have pos : 0 < sgn * (t - noon) := by
    have : 0 < 2 * π * (sgn * (t - noon)) := by rw [loc]; norm_num at *; linarith [l2.2]
    exact pos_of_mul_pos_right this (by linarith)
  have lim : sgn * (t - noon) ≤ 1 / 2 := by
    have : 2 * π * (sgn * (t - noon)) ≤ 2 * π * (1 / 2) := by rw [loc]; norm_num at *; linarith [l2.1]
    exact le_of_mul_le_mul_left this (by linarith)
  have half : |t - noon| ≤ 1 / 2 := by
    rcases hsgn with h | h <;> rw [h] at pos lim <;> rw [abs_le] <;> constructor <;> linarith
  refine ⟨t, pos, half, ?_, ?_, t2, ?_⟩
  · rw [halt, ← t3]
    rcases hsgn with h | h <;> rw [h]
    · rw [one_mul]
    · rw [neg_one_mul, cos_neg]
  · obtain ⟨k, hk⟩ := d.turn t
    rw [hk, show hS dt E noon t + 2 * π * k = hS dt E noon t + k * (2 * π) by ring, sin_add_int_mul_two_pi, ← t3]
    have : 0 < sin (Hx t) := sin_pos_of_pos_of_lt_pi (by norm_num at *; linarith) (by norm_num at *; linarith)
    rcases hsgn with h | h <;> rw [h]
    · rw [one_mul, one_mul]; exact this
    · rw [neg_one_mul, neg_one_mul, sin_neg, neg_neg]; exact this
  · intro t' h1 h2 h3
    have n' : |t' - noon| ≤ 1 := h2.trans (by norm_num)
    rw [halt] at h3
    have m1 := hin t'
    have m2 := abs_le.mp (side t' n')
    have up : sgn * (t' - noon) ≤ 1 / 2 := by
      have := abs_le.mp h2
      rcases hsgn with h | h <;> rw [h] <;> linarith [this.1, this.2]
    obtain ⟨u, hu⟩ : ∃ u, u = sgn * hS dt E noon t' := ⟨_, rfl⟩
    have ue : u = 2 * π * (sgn * (t' - noon)) + sgn * eqt dt E t' := by rw [hu]; unfold hS; ring
    have u1 : -0.15 ≤ u := by
      have := mul_nonneg (by linarith : (0 : ℝ) ≤ 2 * π) h1
      rw [ue]; linarith [m2.1]
    have u2 : u ≤ π + 0.15 := by
      have := mul_le_mul_of_nonneg_left up (by linarith : (0 : ℝ) ≤ 2 * π)
      rw [ue]; linarith [m2.2]
    have cu : cos u = cos (Hx t') := by
      rw [← h3, hu]
      rcases hsgn with h | h <;> rw [h]
      · rw [one_mul]
      · rw [neg_one_mul, cos_neg]
    have eq : u = Hx t' := same_angle cu u1 u2 m1.1 m1.2
    have t3' : sgn * Hx t' = hS dt E noon t' := by rw [← eq, hu, ← mul_assoc, ss, one_mul]
    have r1 := d.rate t t' t1 n'
    have r2 := hlip t t' t1 n'
    rw [← t3, ← t3'] at r1
    have r3 : |sgn * Hx t' - sgn * Hx t| ≤ M * 0.0073 * |t' - t| := by
      rw [← mul_sub, abs_mul]
      have := mul_le_mul s1 r2 (abs_nonneg _) (by norm_num)
      linarith
    have r4 : |2 * π * (t' - t)| ≤ K * |t' - t| := by
      rw [show 2 * π * (t' - t) = (sgn * Hx t' - sgn * Hx t) - (sgn * Hx t' - sgn * Hx t - 2 * π * (t' - t)) by ring]
      refine (abs_sub _ _).trans ?_
      rw [hK, add_mul]
      linarith
    rw [abs_mul, abs_of_pos (by linarith : 0 < 2 * π)] at r4
    by_contra hne
    have hp : 0 < |t' - t| := abs_pos.mpr (sub_ne_zero.mpr hne)
    have := le_of_mul_le_mul_right r4 hp
    norm_num at *
    linarith

end

end Verif.SunTimes
