import Verif.Props.LunarContact

/-!
# C88: the reported times against the discs of moon and shadow
-/

namespace Verif.Geom

open Real Verif.Contact

variable {lecXY : ℝ → Re0} {near : ℝ → ℝ} {jd : ℝ}

/-- the centre of the moon at an instant, relative to the centre of the shadow -/
noncomputable def centre (lecXY : ℝ → Re0) (t : ℝ) : ℂ := ⟨(lecXY t).x, (lecXY t).y⟩

/-- the speed the program measures over one minute -/
noncomputable def Setting.speed (S : Setting lecXY near jd) : ℝ := √(S.u * S.u + S.v * S.v)

/-- the time the moon takes for the radius `r` -/
noncomputable def Setting.span (S : Setting lecXY near jd) (r : ℝ) : ℝ := r / S.speed

/-- the instants considered: 1.2 times the time the moon takes for the radius `r`, before and after the start -/
def Setting.window (S : Setting lecXY near jd) (r : ℝ) : Set ℝ := Set.Icc (near jd - 6 / 5 * S.span r) (near jd + 6 / 5 * S.span r)

/-- The moon crosses the circle whose radius is `rad` of the circumstances: eastward, at most nine tenths of the radius from its centre, the first approximation being within a tenth of the
radius of the closest point, while its velocity changes by at most `e` and the radius by at most `b` a day, together at most a hundredth of the speed. -/
structure Crossing (S : Setting lecXY near jd) (rad : Re0 → ℝ) (e b : ℝ) : Prop where
  stamp : ∀ t, (lecXY t).t = t
  forward : 0 < S.v
  pos : 0 < rad S.G
  minute : 60 / 86400 ≤ 6 / 5 * S.span (rad S.G)
  steady : Steady (fun t => (lecXY t).x) (fun t => (lecXY t).y) (near jd - 6 / 5 * S.span (rad S.G)) (near jd + 6 / 5 * S.span (rad S.G)) e
  slow : Slow (fun t => rad (lecXY t)) (near jd - 6 / 5 * S.span (rad S.G)) (near jd + 6 / 5 * S.span (rad S.G)) b
  he : 0 ≤ e
  hb : 0 ≤ b
  little : e + b ≤ S.speed / 100
  deep : ‖moonAt S.G S.v S.u S.w‖ ≤ 9 / 10 * rad S.G
  close : |S.w| ≤ 1 / 10 * S.span (rad S.G)

/-- how far a contact time may be off -/
noncomputable def Setting.tolerance (S : Setting lecXY near jd) (r e b : ℝ) : ℝ := 14 * ((e + b) / S.speed) ^ 2 * S.span r

section
variable {S : Setting lecXY near jd} {rad : Re0 → ℝ} {e b : ℝ}

theorem Crossing.speed_pos (C : Crossing S rad e b) : 0 < S.speed := by
  unfold Setting.speed
  have := C.forward
  have := mul_self_nonneg S.u
  exact sqrt_pos.2 (by nlinarith)

theorem Crossing.speed_sq (_C : Crossing S rad e b) : S.speed ^ 2 = S.u * S.u + S.v * S.v := by
  unfold Setting.speed
  exact sq_sqrt (by nlinarith [mul_self_nonneg S.u, mul_self_nonneg S.v])

theorem Crossing.along (C : Crossing S rad e b) : (S.v * S.G.x + S.u * S.G.y) / S.speed = -(S.w * S.speed) := by
  have hW := C.speed_pos
  have hWW := C.speed_sq
  rw [div_eq_iff hW.ne', S.hw]
  have : 0 < S.u * S.u + S.v * S.v := by rw [← hWW]; positivity
  rw [show -(-(S.G.y * S.u + S.G.x * S.v) / (S.u * S.u + S.v * S.v) * S.speed) * S.speed = (S.G.y * S.u + S.G.x * S.v) / (S.u * S.u + S.v * S.v) * S.speed ^ 2 by ring,
    hWW, div_mul_cancel₀ _ this.ne']
  ring

theorem Crossing.across (C : Crossing S rad e b) : |(S.u * S.G.x - S.v * S.G.y) / S.speed| = ‖moonAt S.G S.v S.u S.w‖ := by
  have hW := C.speed_pos
  have hWW := C.speed_sq
  have hal := C.along
  rw [div_eq_iff hW.ne'] at hal
  rw [moonAt, norm_mk, ← sqrt_sq_eq_abs]
  congr 1
  rw [div_pow, div_eq_iff (by positivity)]
  have h2 : S.v * S.G.x + S.u * S.G.y = -(S.w * S.speed ^ 2) := by rw [hal]; ring
  have h3 : (S.u * S.G.x - S.v * S.G.y) ^ 2 = (S.u * S.u + S.v * S.v) * (S.G.x ^ 2 + S.G.y ^ 2) - (S.v * S.G.x + S.u * S.G.y) ^ 2 := by ring
  rw [h3, h2, hWW]
  rw [hWW] at h2
  linear_combination (-2 * S.w * (S.u * S.u + S.v * S.v)) * h2

theorem Crossing.contacts (C : Crossing S rad e b) :
    ∃ T1 T2, |contact lecXY S.G S.v S.u rad false - T1| ≤ S.tolerance (rad S.G) e b ∧ |contact lecXY S.G S.v S.u rad true - T2| ≤ S.tolerance (rad S.G) e b
      ∧ T1 < T2 ∧ T1 ∈ S.window (rad S.G) ∧ T2 ∈ S.window (rad S.G)
      ∧ ∀ t ∈ S.window (rad S.G), (‖centre lecXY t‖ ≤ rad (lecXY t) ↔ T1 ≤ t ∧ t ≤ T2) := by
  have hW := C.speed_pos
  have hWW := C.speed_sq
  have hG := S.hG
  have hal := C.along
  have hac := C.across
  have hdeep := C.deep
  have hst := C.steady
  have hsl := C.slow
  have hmin := C.minute
  have hcl := C.close
  have hlit := C.little
  unfold Setting.window Setting.tolerance
  unfold Setting.span at *
  obtain ⟨T1, T2, h1, h2, h3, h4, h5, h6⟩ := contacts_near lecXY C.stamp (near jd) S.v S.u S.speed (rad S.G) e b rad C.forward hW hWW C.pos (by rw [hG]) hmin
    (by rw [← hG]; exact S.hv) (by rw [← hG]; exact S.hu) hst hsl C.he C.hb hlit (by rw [← hG, hac]; exact hdeep)
    (by
      rw [← hG, hal, abs_neg, abs_mul, abs_of_pos hW]
      calc |S.w| * S.speed ≤ 1 / 10 * (rad S.G / S.speed) * S.speed := mul_le_mul_of_nonneg_right hcl hW.le
        _ = 1 / 10 * rad S.G := by rw [mul_assoc, div_mul_cancel₀ _ hW.ne'])
  rw [← hG] at h1 h2
  refine ⟨T1, T2, h1, h2, h3, ⟨h4, by linarith⟩, ⟨by linarith, h5⟩, fun t ht => ?_⟩
  rw [centre, norm_mk, ← h6 t ht.1 ht.2, pow_two, pow_two]

end

/-- **C88 (umbral phases).**  For every ephemeris under which the moon crosses the umbra with a nearly steady velocity (`Crossing`), whatever was computed before: there are two instants such that,
within the window, the moon's disc meets the umbra exactly between them, and 初亏 and 复圆 differ from them by at most the tolerance. -/
theorem c88_umbra (S : Setting lecXY near jd) (s : Ys) (e b : ℝ) (C : Crossing S (fun g => g.mr + g.er) e b)
    (hm : ∀ t ∈ S.window (S.G.mr + S.G.er), 0 < (lecXY t).mr ∧ 0 ≤ (lecXY t).er) (R : Ys) (hR : R = lecMax lecXY near s jd) :
    ∃ T1 T2, |R.lT 0 - T1| ≤ S.tolerance (S.G.mr + S.G.er) e b ∧ |R.lT 2 - T2| ≤ S.tolerance (S.G.mr + S.G.er) e b
      ∧ T1 < T2 ∧ T1 ∈ S.window (S.G.mr + S.G.er) ∧ T2 ∈ S.window (S.G.mr + S.G.er)
      ∧ ∀ t ∈ S.window (S.G.mr + S.G.er), ((disc (centre lecXY t) (lecXY t).mr ∩ disc 0 (lecXY t).er).Nonempty ↔ T1 ≤ t ∧ t ≤ T2) := by
  obtain ⟨T1, T2, h1, h2, h3, h4, h5, h6⟩ := C.contacts
  have hA : ‖moonAt S.G S.v S.u S.w‖ ≤ S.G.mr + S.G.er := by
    have := C.deep
    have := C.pos
    linarith
  rw [lecMax_eq S s] at hR
  subst hR
  refine ⟨T1, T2, ?_, ?_, h3, h4, h5, fun t ht => ?_⟩
  · simp only [if_pos hA]; exact h1
  · simp only [if_pos hA]; exact h2
  · rw [disc_meet (hm t ht).1 (hm t ht).2]; exact h6 t ht

/-- **C88 (penumbral phases).** -/
theorem c88_penumbra (S : Setting lecXY near jd) (s : Ys) (e b : ℝ) (C : Crossing S (fun g => g.mr + g.Er) e b)
    (hm : ∀ t ∈ S.window (S.G.mr + S.G.Er), 0 < (lecXY t).mr ∧ 0 ≤ (lecXY t).Er) (R : Ys) (hR : R = lecMax lecXY near s jd) :
    ∃ T1 T2, |R.lT 3 - T1| ≤ S.tolerance (S.G.mr + S.G.Er) e b ∧ |R.lT 4 - T2| ≤ S.tolerance (S.G.mr + S.G.Er) e b
      ∧ T1 < T2 ∧ T1 ∈ S.window (S.G.mr + S.G.Er) ∧ T2 ∈ S.window (S.G.mr + S.G.Er)
      ∧ ∀ t ∈ S.window (S.G.mr + S.G.Er), ((disc (centre lecXY t) (lecXY t).mr ∩ disc 0 (lecXY t).Er).Nonempty ↔ T1 ≤ t ∧ t ≤ T2) := by
  obtain ⟨T1, T2, h1, h2, h3, h4, h5, h6⟩ := C.contacts
  have hA : ‖moonAt S.G S.v S.u S.w‖ ≤ S.G.mr + S.G.Er := by
    have := C.deep
    have := C.pos
    linarith
  rw [lecMax_eq S s] at hR
  subst hR
  refine ⟨T1, T2, ?_, ?_, h3, h4, h5, fun t ht => ?_⟩
  · simp only [if_pos hA]; exact h1
  · simp only [if_pos hA]; exact h2
  · rw [disc_meet (hm t ht).1 (hm t ht).2]; exact h6 t ht

/-- **C88 (totality).** -/
theorem c88_total (S : Setting lecXY near jd) (s : Ys) (e b : ℝ) (C : Crossing S (fun g => g.er - g.mr) e b)
    (hm : ∀ t ∈ S.window (S.G.er - S.G.mr), 0 ≤ (lecXY t).mr) (R : Ys) (hR : R = lecMax lecXY near s jd) :
    ∃ T1 T2, |R.lT 5 - T1| ≤ S.tolerance (S.G.er - S.G.mr) e b ∧ |R.lT 6 - T2| ≤ S.tolerance (S.G.er - S.G.mr) e b
      ∧ T1 < T2 ∧ T1 ∈ S.window (S.G.er - S.G.mr) ∧ T2 ∈ S.window (S.G.er - S.G.mr)
      ∧ ∀ t ∈ S.window (S.G.er - S.G.mr), (disc (centre lecXY t) (lecXY t).mr ⊆ disc 0 (lecXY t).er ↔ T1 ≤ t ∧ t ≤ T2) := by
  obtain ⟨T1, T2, h1, h2, h3, h4, h5, h6⟩ := C.contacts
  have hA : ‖moonAt S.G S.v S.u S.w‖ ≤ S.G.er - S.G.mr := by
    have := C.deep
    have := C.pos
    linarith
  rw [lecMax_eq S s] at hR
  subst hR
  refine ⟨T1, T2, ?_, ?_, h3, h4, h5, fun t ht => ?_⟩
  · simp only [if_pos hA]; exact h1
  · simp only [if_pos hA]; exact h2
  · rw [disc_subset (hm t ht)]; exact h6 t ht

/-- **C88 (greatest eclipse).**  食甚 differs by at most `1.05 e/speed` times the crossing time of the radius from any instant of the window at which the moon is closest to the centre of the shadow. -/
theorem c88_greatest (S : Setting lecXY near jd) (s : Ys) (e b : ℝ) (C : Crossing S (fun g => g.mr + g.er) e b) (R : Ys) (hR : R = lecMax lecXY near s jd)
    (T : ℝ) (hT : T ∈ S.window (S.G.mr + S.G.er)) (hmin : ∀ t ∈ S.window (S.G.mr + S.G.er), ‖centre lecXY T‖ ≤ ‖centre lecXY t‖) :
    |R.lT 1 - T| ≤ 105 / 100 * (e / S.speed) * S.span (S.G.mr + S.G.er) := by
  have hA : ‖moonAt S.G S.v S.u S.w‖ ≤ S.G.mr + S.G.er := by
    have := C.deep
    have := C.pos
    linarith
  have hW := C.speed_pos
  have hWW := C.speed_sq
  have hG := S.hG
  have hal := C.along
  have hac := C.across
  have hdeep := C.deep
  have hst := C.steady
  have hsl := C.slow
  have hmn := C.minute
  have hcl := C.close
  have hpos := C.pos
  obtain ⟨r0, hr0⟩ : ∃ r0, r0 = S.G.mr + S.G.er := ⟨_, rfl⟩
  simp only [← hr0] at hA hdeep hst hsl hmn hcl hpos hT hmin ⊢
  unfold Setting.window at hT hmin
  have hN := near_path (fun t => (lecXY t).x) (fun t => (lecXY t).y) (fun t => (lecXY t).mr + (lecXY t).er) (near jd) S.v S.u S.speed r0 e b hW hWW hpos
    (by simp only [← hG, hr0]) (by unfold Setting.span at hmn; linarith)
    (by simp only [← hG]; exact S.hv) (by simp only [← hG]; exact S.hu) hst hsl C.he C.hb C.little (by simp only [← hG]; rw [hac]; exact hdeep)
    (by
      simp only [← hG]
      rw [hal, abs_neg, abs_mul, abs_of_pos hW]
      calc |S.w| * S.speed ≤ 1 / 10 * (r0 / S.speed) * S.speed := mul_le_mul_of_nonneg_right (by unfold Setting.span at hcl; exact hcl) hW.le
        _ = 1 / 10 * r0 := by rw [mul_assoc, div_mul_cancel₀ _ hW.ne'])
  unfold Setting.span at hT hmin ⊢
  obtain ⟨k, hk⟩ : ∃ k, k = r0 / S.speed := ⟨_, rfl⟩
  have hk0 : 0 < k := by rw [hk]; positivity
  have hkW : k * S.speed = r0 := by rw [hk, div_mul_cancel₀ _ hW.ne']
  rw [← hk] at hN hT hmin ⊢
  obtain ⟨m, hm⟩ : ∃ m, m = (T - near jd) / k := ⟨_, rfl⟩
  have hmT : near jd + k * m = T := by rw [hm, mul_div_cancel₀ _ hk0.ne']; ring
  have hma : |m| ≤ 6 / 5 := by
    rw [hm, abs_div, abs_of_pos hk0, div_le_iff₀ hk0]
    exact abs_le.2 ⟨by linarith [hT.1], by linarith [hT.2]⟩
  have hsum : ∀ θ, ((S.v * (lecXY (near jd + k * θ)).x + S.u * (lecXY (near jd + k * θ)).y) / S.speed / r0) ^ 2
      + ((S.u * (lecXY (near jd + k * θ)).x - S.v * (lecXY (near jd + k * θ)).y) / S.speed / r0) ^ 2 = ‖centre lecXY (near jd + k * θ)‖ ^ 2 / r0 ^ 2 := by
    intro θ
    rw [centre, norm_mk, sq_sqrt (by nlinarith [mul_self_nonneg (lecXY (near jd + k * θ)).x, mul_self_nonneg (lecXY (near jd + k * θ)).y])]
    rw [div_pow, div_pow, div_pow, div_pow, ← add_div, ← add_div, hWW]
    congr 1
    have : S.u * S.u + S.v * S.v ≠ 0 := by rw [← hWW]; positivity
    rw [div_eq_iff this]
    ring
  have hmid := middle_near hN hma (by
    intro t ht
    rw [hsum, hsum, hmT]
    have ht' := abs_le.1 ht
    have h1 := hmin (near jd + k * t) ⟨by nlinarith [ht'.1], by nlinarith [ht'.2]⟩
    exact div_le_div_of_nonneg_right (pow_le_pow_left₀ (norm_nonneg _) h1 2) (by positivity))
  simp only [mul_zero, add_zero] at hmid
  rw [← hG, hal] at hmid
  have hw : -(-(S.w * S.speed) / r0) = S.w / k := by rw [← hkW]; field_simp
  rw [hw] at hmid
  rw [lecMax_eq S s] at hR
  subst hR
  simp only [← hr0, if_pos hA]
  rw [show near jd + S.w - T = -(k * (m - S.w / k)) by rw [← hmT, mul_sub, mul_div_cancel₀ _ hk0.ne']; ring, abs_neg, abs_mul, abs_of_pos hk0]
  calc k * |m - S.w / k| ≤ k * (105 / 100 * (e / S.speed)) := mul_le_mul_of_nonneg_left hmid hk0.le
    _ = _ := by ring

/-! ## A concrete case: a moon that gains speed, and an umbra of constant size -/

/-- 0.21 rad a day, accelerating by 0.006 rad a day and day, 0.005 rad off the centre -/
noncomputable def demoMoon (t : ℝ) : Re0 := ⟨21 / 100 * t + 3 / 1000 * t ^ 2, 1 / 200, 9 / 2000, 1 / 80, 27 / 1000, t⟩

noncomputable def demoSetting : Setting demoMoon (fun _ => 0) 0 := ⟨_, rfl, _, rfl, _, rfl, _, rfl⟩

theorem demo_speed : demoSetting.v = 21 / 100 + 3 / 1000 * (60 / 86400) ∧ demoSetting.u = 0 ∧ demoSetting.w = 0 ∧ demoSetting.speed = 21 / 100 + 3 / 1000 * (60 / 86400) := by
  have hv : demoSetting.v = 21 / 100 + 3 / 1000 * (60 / 86400) := by
    simp only [demoSetting, demoMoon]; norm_num
  have hu : demoSetting.u = 0 := by
    simp only [demoSetting, demoMoon]; norm_num
  have hw : demoSetting.w = 0 := by
    rw [demoSetting.hw, hu]
    simp only [demoSetting, demoMoon]; norm_num
  refine ⟨hv, hu, hw, ?_⟩
  unfold Setting.speed
  rw [hu, hv, mul_zero, zero_add, sqrt_mul_self (by norm_num)]

/-- the hypotheses of `c88_umbra` and `c88_greatest` hold with `e = 0.0012`, `b = 0`: the tolerance is 3.3 seconds -/
theorem contact_demo : Crossing demoSetting (fun g => g.mr + g.er) (12 / 10000) 0 ∧ demoSetting.tolerance (demoSetting.G.mr + demoSetting.G.er) (12 / 10000) 0 * 86400 ≤ 33 / 10 := by
  obtain ⟨hv, hu, hw, hsp⟩ := demo_speed
  have hG : demoSetting.G = demoMoon 0 := rfl
  have hr : (demoMoon 0).mr + (demoMoon 0).er = 17 / 1000 := by simp only [demoMoon]; norm_num
  have hspan : demoSetting.span (17 / 1000) ≤ 81 / 1000 ∧ 8 / 100 ≤ demoSetting.span (17 / 1000) := by
    unfold Setting.span; rw [hsp]; norm_num
  have hstamp : ∀ t, (demoMoon t).t = t := fun t => rfl
  have hdeep : ‖moonAt demoSetting.G demoSetting.v demoSetting.u demoSetting.w‖ ≤ 9 / 10 * (17 / 1000) := by
    rw [hw, moonAt, norm_mk, hG]
    simp only [demoMoon]
    rw [sqrt_le_left (by norm_num)]
    norm_num
  have hsteady : Steady (fun t => (demoMoon t).x) (fun t => (demoMoon t).y) (0 - 6 / 5 * demoSetting.span (17 / 1000)) (0 + 6 / 5 * demoSetting.span (17 / 1000)) (12 / 10000) := by
    obtain ⟨k, hk⟩ : ∃ k, k = demoSetting.span (17 / 1000) := ⟨_, rfl⟩
    rw [← hk] at hspan ⊢
    intro t t' p p' ht ht' hp hp' h1 h2
    have h1' := sub_ne_zero.2 h1
    have h2' := sub_ne_zero.2 h2
    have e1 : ∀ a c : ℝ, a - c ≠ 0 → ((demoMoon a).x - (demoMoon c).x) / (a - c) = 21 / 100 + 3 / 1000 * (a + c) := by
      intro a c h
      rw [div_eq_iff h]; simp only [demoMoon]; ring
    have e2 : ∀ a c : ℝ, ((demoMoon a).y - (demoMoon c).y) / (a - c) = 0 := fun a c => by simp only [demoMoon]; simp
    simp only [e1 t t' h1', e1 p p' h2', e2]
    rw [sub_zero, zero_pow (by norm_num), add_zero, sqrt_sq_eq_abs]
    refine abs_le.2 ⟨?_, ?_⟩ <;> linarith [ht.1, ht.2, ht'.1, ht'.2, hp.1, hp.2, hp'.1, hp'.2, hspan.1]
  have hslow : Slow (fun t => (demoMoon t).mr + (demoMoon t).er) (0 - 6 / 5 * demoSetting.span (17 / 1000)) (0 + 6 / 5 * demoSetting.span (17 / 1000)) 0 := by
    intro t t' _ _
    simp only [demoMoon]; simp
  refine ⟨⟨hstamp, by rw [hv]; norm_num, by rw [hG, hr]; norm_num, ?_, ?_, ?_, by norm_num, le_rfl, by rw [hsp]; norm_num, ?_, ?_⟩, ?_⟩
  · rw [hG, hr]; linarith [hspan.2]
  · rw [hG, hr]; exact hsteady
  · rw [hG, hr]; exact hslow
  · rw [hG, hr]; rw [hG] at hdeep; exact hdeep
  · rw [hG, hr, hw, abs_zero]; linarith [hspan.2]
  · rw [hG, hr]
    unfold Setting.tolerance
    have h1 : ((12 / 10000 + 0) / demoSetting.speed) ^ 2 ≤ 33 / 1000000 := by rw [hsp]; norm_num
    have h2 : 14 * ((12 / 10000 + 0) / demoSetting.speed) ^ 2 * demoSetting.span (17 / 1000) ≤ 14 * (33 / 1000000) * (81 / 1000) :=
      mul_le_mul (by linarith) hspan.1 (by linarith [hspan.2]) (by norm_num)
    linarith

/-! ## A defect: the second round may find nothing -/

/-- a moon moving uniformly at 0.2 rad a day past an umbra that shrinks by 0.0002 rad a day, just touching it -/
noncomputable def grazingMoon (t : ℝ) : Re0 := ⟨1 / 5 * t, 7 / 400 * (3999999 / 4000001), 1 / 200, 1 / 80 - 1 / 5000 * t, 27 / 1000, t⟩

/-- **C88 (defect: grazing eclipses).**  If the moon only just touches the umbra, the second round of the computation may find no contact, and then the time of last contact is reported as 0 although
the eclipse is listed as partial: here the discs meet at the instant 0 and 复圆 is 0 because the second `lineT` returned its marker, not a time (the first round had found 7.5 seconds). -/
theorem c88_grazing_zero (s : Ys) : (lecMax grazingMoon (fun _ => 0) s 0).LX = "偏"
    ∧ (lecMax grazingMoon (fun _ => 0) s 0).lT 2 = 0
    ∧ lineT (grazingMoon 0).x (grazingMoon 0).y 0 (1 / 5) 0 ((grazingMoon 0).mr + (grazingMoon 0).er) true = 350 / 4000001
    ∧ (∀ τ, ((grazingMoon (350 / 4000001)).x + 1 / 5 * (τ - 350 / 4000001)) ^ 2 + (grazingMoon (350 / 4000001)).y ^ 2
        ≠ ((grazingMoon (350 / 4000001)).mr + (grazingMoon (350 / 4000001)).er) ^ 2) := by
  obtain ⟨S, hS⟩ : ∃ S : Setting grazingMoon (fun _ => 0) 0, True := ⟨⟨_, rfl, _, rfl, _, rfl, _, rfl⟩, trivial⟩
  have hG : S.G = grazingMoon 0 := S.hG
  have hv : S.v = 1 / 5 := by rw [S.hv, hG]; simp only [grazingMoon]; norm_num
  have hu : S.u = 0 := by rw [S.hu, hG]; simp only [grazingMoon]; norm_num
  have hw : S.w = 0 := by rw [S.hw, hG, hu]; simp only [grazingMoon]; norm_num
  have hr : (grazingMoon 0).mr + (grazingMoon 0).er = 7 / 400 := by simp only [grazingMoon]; norm_num
  have hrm : ‖moonAt S.G S.v S.u S.w‖ = 7 / 400 * (3999999 / 4000001) := by
    rw [hw, moonAt, norm_mk, hG]
    simp only [grazingMoon]
    rw [show (1 / 5 * 0 + 0 * S.v) * (1 / 5 * 0 + 0 * S.v) + (7 / 400 * (3999999 / 4000001) + 0 * S.u) * (7 / 400 * (3999999 / 4000001) + 0 * S.u)
      = (7 / 400 * (3999999 / 4000001) : ℝ) * (7 / 400 * (3999999 / 4000001)) by ring]
    exact sqrt_mul_self (by norm_num)
  have hA : ‖moonAt S.G S.v S.u S.w‖ ≤ S.G.mr + S.G.er := by rw [hrm, hG, hr]; norm_num
  have hT : ¬ ‖moonAt S.G S.v S.u S.w‖ ≤ S.G.er - S.G.mr := by
    rw [hrm, hG]; simp only [grazingMoon]; norm_num
  have hsq : (7 / 400 : ℝ) ^ 2 - ((0 * (1 / 5 * 0) - 1 / 5 * (7 / 400 * (3999999 / 4000001))) / (1 / 5)) ^ 2 = (70 / 4000001) ^ 2 := by norm_num
  have h1 : lineT (grazingMoon 0).x (grazingMoon 0).y 0 (1 / 5) 0 ((grazingMoon 0).mr + (grazingMoon 0).er) true = 350 / 4000001 := by
    rw [hr]
    simp only [grazingMoon]
    have := (lineT_rot (1 / 5 * 0) (7 / 400 * (3999999 / 4000001)) 0 (1 / 5) 0 (7 / 400) (1 / 5) (by norm_num) (by norm_num) (by norm_num) (by rw [hsq]; positivity)).1
    rw [hsq, sqrt_sq (by norm_num)] at this
    rw [this]; norm_num
  have h2 : lineT (grazingMoon (350 / 4000001)).x (grazingMoon (350 / 4000001)).y (350 / 4000001) (1 / 5) 0
      ((grazingMoon (350 / 4000001)).mr + (grazingMoon (350 / 4000001)).er) true = 0 := by
    unfold lineT
    simp only [grazingMoon]
    rw [if_pos (by norm_num)]
  rw [lecMax_eq S s]
  refine ⟨?_, ?_, h1, ?_⟩
  · simp only [if_neg hT, if_pos hA]
  · simp only [if_pos hA]
    unfold contact
    simp only []
    rw [hG, hv, hu, show (grazingMoon 0).t = 0 from rfl, h1, show (grazingMoon (350 / 4000001)).t = 350 / 4000001 from rfl, h2]
  · intro τ h
    have h3 := sq_nonneg ((grazingMoon (350 / 4000001)).x + 1 / 5 * (τ - 350 / 4000001))
    have h4 : ((grazingMoon (350 / 4000001)).mr + (grazingMoon (350 / 4000001)).er) ^ 2 < (grazingMoon (350 / 4000001)).y ^ 2 := by
      simp only [grazingMoon]; norm_num
    linarith

end Verif.Geom
