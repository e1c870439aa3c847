import Verif.Props.HighTime
import Verif.Props.LonMonth
import Verif.Props.DeltaTReal

/-!
# C78: a lunar month has 29 or 30 days
-/

namespace Verif.Longitude

open Real

/-- the correction changes by at most `c` seconds in 200 days and stays within 4 days, from 30 centuries before 2000 to 10 after it; it is nowhere below minus a century -/
structure SlowDt (dtT : ℝ → ℝ) (c : ℝ) : Prop where
  low : ∀ x, -36525 ≤ dtT x
  size : ∀ x, -1100000 ≤ x → x ≤ 365000 → |dtT x| ≤ 4
  slow : ∀ x y, -1100000 ≤ x → x ≤ 365000 → -1100000 ≤ y → y ≤ 365000 → |y - x| ≤ 200 → |dtT y - dtT x| * 86400 ≤ c

/-- the instants of two angles a turn apart (up to 10⁻⁴ rad) -/
theorem turn_apart {z z' : ℝ} (hz : |z| ≤ 29.999) (hz' : |z'| ≤ 29.999) (h : |fS (-1) (-1) z' - fS (-1) (-1) z - 2 * π| ≤ 0.0001) :
    0.00079409081 < z' - z ∧ z' - z < 0.00082124115 := by
  have a30 : |z| ≤ 30 := hz.trans (by norm_num)
  have b30 : |z'| ≤ 30 := hz'.trans (by norm_num)
  rw [abs_le] at hz hz' h
  have c1 : |z + 0.00079409081| ≤ 30 := by rw [abs_le]; norm_num at *; constructor <;> linarith
  have c2 : |z + 0.00082124115| ≤ 30 := by rw [abs_le]; norm_num at *; constructor <;> linarith
  have k1 := fS_29' a30 c1
  have k2 := fS_30 a30 c2
  constructor
  · by_contra hc
    push Not at hc
    rcases lt_or_eq_of_le (show z' ≤ z + 0.00079409081 by linarith) with hl | hl
    · have := fS_strictMono b30 c1 hl; linarith [h.1]
    · rw [← hl] at k1; linarith [h.1]
  · by_contra hc
    push Not at hc
    rcases lt_or_eq_of_le (show z + 0.00082124115 ≤ z' by linarith) with hl | hl
    · have := fS_strictMono c2 b30 hl; linarith [h.2]
    · rw [hl] at k2; linarith [h.2]

/-- **C78 (instants).**  With the built-in tables, from the year -1000 to 3000 two consecutive new moons (or other equal phases) are more than
29 days 6 minutes and less than 29 days 23 hours 54 minutes apart, and the instants returned by `MS_aLon_t` more than 29 and less than 30 days. -/
theorem c78_instants (b : Tab) (hb : Builtin b) (W : ℝ) (h1 : -233100 ≤ W) (h2 : W ≤ 77690) :
    ∃ z z' p p', -30 ≤ z ∧ z' ≤ 10 ∧ msALon b z (-1) (-1) = some W ∧ msALon b z' (-1) (-1) = some (W + 2 * π)
      ∧ 29 + 6 / 1440 < (z' - z) * 36525 ∧ (z' - z) * 36525 < 30 - 6 / 1440
      ∧ msALonT b W = some p ∧ msALonT b (W + 2 * π) = some p' ∧ 29 < (p' - p) * 36525 ∧ (p' - p) * 36525 < 30 := by
  have p1 := pi_gt_d6
  have p2 := pi_lt_d6
  obtain ⟨z, hz, hz10, hzW⟩ := fS_ivt (W := W) h1 (by linarith)
  obtain ⟨z', hz', hz10', hzW'⟩ := fS_ivt (W := W + 2 * π) (by linarith) (by norm_num at p2; linarith)
  obtain ⟨p, hp, he⟩ := msALonT_near30 b hb hz hz10
  obtain ⟨p', hp', he'⟩ := msALonT_near30 b hb hz' hz10'
  obtain ⟨t1, t2⟩ := turn_apart hz hz' (by rw [hzW, hzW']; norm_num)
  rw [hzW] at hp
  rw [hzW'] at hp'
  have hz1 := (abs_le.1 hz).1
  refine ⟨z, z', p, p', ?_, ?_, ?_, ?_, ?_, ?_, hp, hp', ?_, ?_⟩
  · norm_num at hz1; linarith
  · norm_num at hz10'; linarith
  · rw [msALon_fS b hb (by norm_num at hz10; linarith) (-1) (-1) (by norm_num) (by norm_num) (by norm_num), hzW]
  · rw [msALon_fS b hb (by norm_num at hz10'; linarith) (-1) (-1) (by norm_num) (by norm_num) (by norm_num), hzW']
  all_goals
    rw [abs_le] at he he'
    norm_num at *
    linarith

theorem day_step {x y : ℝ} (h1 : 29 ≤ y - x) (h2 : y - x ≤ 30) : dayOf y = dayOf x + 29 ∨ dayOf y = dayOf x + 30 := by
  unfold dayOf
  have a1 := Int.floor_le (x + 1 / 2)
  have a2 := Int.lt_floor_add_one (x + 1 / 2)
  by_cases h : y + 1 / 2 < ⌊x + 1 / 2⌋ + 30
  · left
    rw [Int.floor_eq_iff]
    push_cast
    constructor <;> linarith
  · right
    rw [Int.floor_eq_iff]
    push_cast
    constructor <;> linarith

/-- the days of two angles a turn apart -/
theorem so_step (b : Tab) (hb : Builtin b) (dtT : ℝ → ℝ) (hdt : SlowDt dtT 150) (W W' : ℝ) (h1 : -233100 ≤ W) (h2 : W' ≤ 31080) (hW : |W' - W - 2 * π| ≤ 0.0001) :
    ∃ r r', soHigh b dtT W = some r ∧ soHigh b dtT W' = some r' ∧ (dayOf r' = dayOf r + 29 ∨ dayOf r' = dayOf r + 30) := by
  have p1 := pi_gt_d6
  have p2 := pi_lt_d6
  have hW' := abs_le.1 hW
  have g1 : -233100 ≤ W' := by norm_num at *; linarith
  have g2 : W ≤ 31080 := by norm_num at *; linarith
  obtain ⟨z, hz, hz10, hzW⟩ := fS_ivt (W := W) h1 (by linarith)
  obtain ⟨z', hz', hz10', hzW'⟩ := fS_ivt (W := W') g1 (by linarith)
  obtain ⟨P, hP, he⟩ := msALonT_near30 b hb hz hz10
  obtain ⟨P', hP', he'⟩ := msALonT_near30 b hb hz' hz10'
  obtain ⟨Q, hQ, hf⟩ := msALonT2_near30 b hb hz hz10
  obtain ⟨Q', hQ', hf'⟩ := msALonT2_near30 b hb hz' hz10'
  obtain ⟨t1, t2⟩ := turn_apart hz hz' (by rw [hzW, hzW']; exact hW)
  obtain ⟨q, p, r, lag, k1, k2, k3, k4, k5⟩ := c77_day b hb dtT hdt.low W h1 g2
  obtain ⟨q', p', r', lag', k1', k2', k3', k4', k5'⟩ := c77_day b hb dtT hdt.low W' g1 h2
  rw [hzW] at hP hQ
  rw [hzW'] at hP' hQ'
  have eP := Option.some.inj (hP.symm.trans k2)
  have eP' := Option.some.inj (hP'.symm.trans k2')
  have eQ := Option.some.inj (hQ.symm.trans k1)
  have eQ' := Option.some.inj (hQ'.symm.trans k1')
  subst eP eP' eQ eQ'
  refine ⟨r, r', k3, k3', ?_⟩
  rw [k5, k5']
  have m := fS_mean30 z (hz.trans (by norm_num))
  have m' := fS_mean30 z' (hz'.trans (by norm_num))
  simp only at m m'
  rw [hzW, abs_le] at m
  rw [hzW', abs_le] at m'
  have z5 : z ≤ 5 := by norm_num at m; linarith
  have z5' : z' ≤ 5 := by norm_num at m'; linarith
  rw [abs_le] at he he' hf hf' hz hz'
  norm_num at he he' hf hf' hz hz' hz10 hz10' t1 t2
  have bq1 : -1096000 ≤ Q * 36525 := by linarith
  have bq2 : Q * 36525 ≤ 364990 := by linarith
  have bq1' : -1096000 ≤ Q' * 36525 := by linarith
  have bq2' : Q' * 36525 ≤ 364990 := by linarith
  have s1 := hdt.size (Q * 36525) (by linarith) (by linarith)
  have s1' := hdt.size (Q' * 36525) (by linarith) (by linarith)
  rw [abs_le] at s1 s1'
  have L : ∃ x, -1100000 ≤ x ∧ x ≤ 365000 ∧ lag = dtT x ∧ |x - Q * 36525| ≤ 5 := by
    rcases k4 with h | h
    · exact ⟨_, by linarith, by linarith, h, by simp⟩
    · refine ⟨_, ?_, ?_, h, ?_⟩ <;> unfold beijing
      · linarith
      · linarith
      · rw [abs_le]; constructor <;> linarith
  have L' : ∃ x, -1100000 ≤ x ∧ x ≤ 365000 ∧ lag' = dtT x ∧ |x - Q' * 36525| ≤ 5 := by
    rcases k4' with h | h
    · exact ⟨_, by linarith, by linarith, h, by simp⟩
    · refine ⟨_, ?_, ?_, h, ?_⟩ <;> unfold beijing
      · linarith
      · linarith
      · rw [abs_le]; constructor <;> linarith
  obtain ⟨x, x1, x2, x3, x4⟩ := L
  obtain ⟨y, y1, y2, y3, y4⟩ := L'
  rw [abs_le] at x4 y4
  have sl := hdt.slow x y x1 x2 y1 y2 (by rw [abs_le]; constructor <;> linarith)
  rw [← x3, ← y3] at sl
  have sl' : |lag' - lag| ≤ 150 / 86400 := by rw [le_div_iff₀ (by norm_num)]; exact sl
  rw [abs_le] at sl'
  refine day_step ?_ ?_ <;> unfold beijing
  · norm_num at sl' ⊢; linarith
  · norm_num at sl' ⊢; linarith

/-- **C78.**  With the built-in tables, from the year -1000 to 2400, two consecutive new moons fall by `so_high` on Beijing days that are 29 or 30 days apart, for every
slow-down of the Earth's rotation that changes by at most 150 s in 200 days. -/
theorem c78_days (b : Tab) (hb : Builtin b) (dtT : ℝ → ℝ) (hdt : SlowDt dtT 150) (W : ℝ) (h1 : -233100 ≤ W) (h2 : W ≤ 31070) :
    ∃ r r', soHigh b dtT W = some r ∧ soHigh b dtT (W + 2 * π) = some r' ∧ (dayOf r' = dayOf r + 29 ∨ dayOf r' = dayOf r + 30) := by
  have p2 := pi_lt_d6
  exact so_step b hb dtT hdt W _ h1 (by norm_num at p2; linarith) (by norm_num)

/-- the built-in slow-down is such -/
theorem dtDays_SlowDt : SlowDt DeltaT.dtDays 150 :=
  ⟨DeltaT.dtDays_low, fun _ h1 h2 => (DeltaT.dtDays_size h1 h2).trans (by norm_num), fun _ _ a1 a2 a3 a4 a5 => (DeltaT.dtDays_slow a1 a2 a3 a4 a5).trans (by norm_num)⟩

/-- the same with the built-in `dt_T`: no reading outside its table, and the months have 29 or 30 days -/
theorem c78_builtin (b : Tab) (hb : Builtin b) (W : ℝ) (h1 : -233100 ≤ W) (h2 : W ≤ 31070) :
    ∃ dtT : ℝ → ℝ, (∀ t, DeltaT.dtTR t = some (dtT t)) ∧ ∃ r r', soHigh b dtT W = some r ∧ soHigh b dtT (W + 2 * π) = some r'
      ∧ (dayOf r' = dayOf r + 29 ∨ dayOf r' = dayOf r + 30) :=
  ⟨_, DeltaT.dtTR_days, c78_days b hb _ dtDays_SlowDt W h1 h2⟩

/-- the new moons 300 and 301 months after that of January 2000 -/
example : ∃ r r', soHigh builtinTab DeltaT.dtDays (300 * 2 * π) = some r ∧ soHigh builtinTab DeltaT.dtDays (300 * 2 * π + 2 * π) = some r'
    ∧ (dayOf r' = dayOf r + 29 ∨ dayOf r' = dayOf r + 30) := by
  have p1 := pi_gt_d6
  have p2 := pi_lt_d6
  exact c78_days builtinTab builtinTab_ok _ dtDays_SlowDt _ (by linarith) (by norm_num at p2; linarith)

end Verif.Longitude
