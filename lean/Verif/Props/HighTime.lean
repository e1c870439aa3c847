import Verif.HighTime
import Verif.Props.LonFastMoon

/-!
# C76, C77: the quick estimates never change the day of a solar term or new moon
-/

namespace Verif.Longitude

open Real

/-- the instant `x` (Julian centuries of dynamical time) in Beijing time, in days from noon of 2000-01-01, when the rotation of the Earth lags by `lag` days -/
noncomputable def beijing (x lag : ℝ) : ℝ := x * 36525 - lag + 8 / 24

/-- the calendar day (counted from 2000-01-01) of a time in days from noon of 2000-01-01: days change at midnight -/
noncomputable def dayOf (t : ℝ) : ℤ := ⌊t + 1 / 2⌋

theorem fmod1_bds {x l : ℝ} (hl : 0 ≤ l) (h1 : ¬ fmod1 x * 86400 < l) (h2 : ¬ fmod1 x * 86400 > 86400 - l) (h0 : 0 < l) :
    0 ≤ x ∧ l ≤ Int.fract x * 86400 ∧ Int.fract x * 86400 ≤ 86400 - l := by
  unfold fmod1 at h1 h2
  push Not at h1 h2
  by_cases h : 0 ≤ x
  · rw [if_pos h] at h1 h2
    exact ⟨h, h1, h2⟩
  · rw [if_neg h] at h1
    have := Int.fract_nonneg (-x)
    linarith

/-- what both functions do with a quick estimate `q` and a precise instant `p` -/
theorem day_kept {q p l : ℝ} (dtT : ℝ → ℝ) (hl : 0 < l) (hqp : 0 ≤ q * 36525 - dtT (q * 36525) + 8.0 / 24 + 0.5 → |q - p| * 36525 * 86400 < l)
    (h : ¬ (fmod1 (q * 36525 - dtT (q * 36525) + 8.0 / 24 + 0.5) * 86400 < l ∨ fmod1 (q * 36525 - dtT (q * 36525) + 8.0 / 24 + 0.5) * 86400 > 86400 - l)) :
    dayOf (q * 36525 - dtT (q * 36525) + 8.0 / 24) = dayOf (beijing p (dtT (q * 36525))) := by
  push Not at h
  obtain ⟨h0, f1, f2⟩ := fmod1_bds hl.le (not_lt.2 h.1) (not_lt.2 h.2) hl
  have hd := hqp h0
  obtain ⟨x, hx⟩ : ∃ x, x = q * 36525 - dtT (q * 36525) + 8.0 / 24 + 0.5 := ⟨_, rfl⟩
  rw [← hx] at f1 f2
  have e1 : q * 36525 - dtT (q * 36525) + 8.0 / 24 + 1 / 2 = x := by rw [hx]; norm_num
  have e2 : beijing p (dtT (q * 36525)) + 1 / 2 = x - (q - p) * 36525 := by
    rw [hx, show (8.0 : ℝ) = 8 by norm_num, show (0.5 : ℝ) = 1 / 2 by norm_num]; unfold beijing; ring
  unfold dayOf
  rw [e1, e2]
  have hb : |(q - p) * 36525| * 86400 < l := by rw [abs_mul, abs_of_pos (by norm_num : (0 : ℝ) < 36525)]; exact hd
  obtain ⟨y, hy⟩ : ∃ y, y = (q - p) * 36525 := ⟨_, rfl⟩
  rw [← hy] at hb ⊢
  have hf := Int.self_sub_floor x
  have a := abs_lt.1 (show |y| < l / 86400 by rw [lt_div_iff₀ (by norm_num)]; exact hb)
  symm
  rw [Int.floor_eq_iff]
  have g1 : l / 86400 ≤ Int.fract x := by rw [div_le_iff₀ (by norm_num)]; exact f1
  have g2 : Int.fract x ≤ 1 - l / 86400 := by
    rw [le_sub_iff_add_le, ← sub_nonneg]
    have : 1 - (Int.fract x + l / 86400) = (86400 - l - Int.fract x * 86400) / 86400 := by ring
    rw [this]
    exact div_nonneg (by linarith) (by norm_num)
  constructor <;> linarith [a.1, a.2]

/-! ## The quick estimate -/

theorem sALonT2_near9 (b : Tab) (hb : Builtin b) {z : ℝ} (hz : |z| ≤ 8.999) : ∃ r, sALonT2 b (sR (-1) z) = some r ∧ |r - z| ≤ 0.000000375 := by
  refine sALonT2_core b hb (R := 9) (D := 0.0000585) (e1 := 0.00000282) (by norm_num) (by norm_num) ?_ (sR_approx (by norm_num) (by norm_num))
    (gS_sR (by norm_num) (by norm_num)) ?_ ?_ ?_ ?_ ?_
  · norm_num at *; linarith
  all_goals norm_num

theorem sALonT2_near30 (b : Tab) (hb : Builtin b) {z : ℝ} (hz : |z| ≤ 29.94) : ∃ r, sALonT2 b (sR (-1) z) = some r ∧ |r - z| ≤ 0.000000583 := by
  refine sALonT2_core b hb (R := 30) (D := 0.0000743) (e1 := 0.00000561) (by norm_num) (by norm_num) ?_ (sR_approx (by norm_num) (by norm_num))
    (gS_sR (by norm_num) (by norm_num)) ?_ ?_ ?_ ?_ ?_
  · norm_num at *; linarith
  all_goals norm_num

/-- **C76 (the estimate).**  `S_aLon_t2(W)` is within 1840 s of the instant at which the sun's longitude is `W`, and within 1184 s up to 9 centuries
from 2000. -/
theorem c76_fast (b : Tab) (hb : Builtin b) (W : ℝ) (hW : |W| ≤ 18800) :
    ∃ z q, |z| ≤ 30 ∧ sALon b z (-1) = some W ∧ sALonT2 b W = some q ∧ |q - z| * 36525 * 86400 ≤ 1840
      ∧ (|W| ≤ 5640 → |q - z| * 36525 * 86400 ≤ 1184) := by
  obtain ⟨z, hz, hzW⟩ := sR_ivt hW
  obtain ⟨q, hq, he⟩ := sALonT2_near30 b hb hz
  have hz30 : |z| ≤ 30 := hz.trans (by norm_num)
  refine ⟨z, q, hz30, by rw [sALon_sR b hb z (-1) (by norm_num), hzW], by rw [← hzW]; exact hq, ?_, fun h => ?_⟩
  · norm_num at *; linarith
  · have m := sR_mean_all z hz30
    simp only at m
    rw [hzW] at m
    have p1 := pi_gt_d6
    have p2 := pi_lt_d6
    have h9 : |z| ≤ 8.999 := by
      rw [abs_le] at m h ⊢
      norm_num at m h ⊢
      constructor <;> linarith
    obtain ⟨q', hq', he'⟩ := sALonT2_near9 b hb h9
    have : q' = q := Option.some.inj (hq'.symm.trans hq)
    subst this
    norm_num at he' ⊢; linarith

/-- **C76.**  With the built-in tables, for every longitude `W` from the year -992 to 2896 (-18800 ≤ W ≤ 5640) and whatever the slow-down `dt_T` of the
Earth's rotation returns (not below minus a century), the day on which `qi_high` puts the solar term is the day of the precisely computed instant: leaving
out the precise computation when the estimate is not within 20 minutes of midnight never changes the day. -/
theorem c76_day (b : Tab) (hb : Builtin b) (dtT : ℝ → ℝ) (hdt : ∀ x, -36525 ≤ dtT x) (W : ℝ) (h1 : -18800 ≤ W) (h2 : W ≤ 5640) :
    ∃ q p r lag, sALonT2 b W = some q ∧ sALonT b W = some p ∧ qiHigh b dtT W = some r
      ∧ (lag = dtT (q * 36525) ∨ lag = dtT (beijing q (dtT (q * 36525)))) ∧ dayOf r = dayOf (beijing p lag) := by
  obtain ⟨z, hz, hzW⟩ := sR_ivt (W := W) (abs_le.2 ⟨h1, by linarith⟩)
  have hz30 : |z| ≤ 30 := hz.trans (by norm_num)
  obtain ⟨q, hq, he⟩ := sALonT2_near30 b hb hz
  obtain ⟨p, hp, hpe⟩ := sALonT_near b hb hz hzW
  rw [hzW] at hq
  have e8 : (8.0 : ℝ) / 24 = 8 / 24 := by norm_num
  by_cases hv : fmod1 (q * 36525 - dtT (q * 36525) + 8.0 / 24 + 0.5) * 86400 < 1200 ∨ fmod1 (q * 36525 - dtT (q * 36525) + 8.0 / 24 + 0.5) * 86400 > 86400 - 1200
  · refine ⟨q, p, p * 36525 - dtT (q * 36525 - dtT (q * 36525) + 8.0 / 24) + 8.0 / 24, _, hq, hp, ?_, Or.inr rfl, ?_⟩
    · unfold qiHigh
      rw [hq]
      show (if _ then _ else _) = _
      rw [if_pos hv, hp]
      rfl
    · rw [e8]; rfl
  · refine ⟨q, p, q * 36525 - dtT (q * 36525) + 8.0 / 24, _, hq, hp, ?_, Or.inl rfl, ?_⟩
    · unfold qiHigh
      rw [hq]
      show (if _ then _ else _) = _
      rw [if_neg hv]
      rfl
    · refine day_kept dtT (by norm_num : (0 : ℝ) < 1200) (fun h => ?_) hv
      have hd := hdt (q * 36525)
      have m := sR_mean_all z hz30
      simp only at m
      rw [hzW] at m
      have p1 := pi_gt_d6
      have p2 := pi_lt_d6
      have h9 : |z| ≤ 8.999 := by
        rw [abs_le] at m he ⊢
        norm_num at m he h ⊢
        constructor <;> linarith
      obtain ⟨q', hq', he'⟩ := sALonT2_near9 b hb h9
      rw [hzW] at hq'
      have : q' = q := Option.some.inj (hq'.symm.trans hq)
      subst this
      have := abs_sub_le q' z p
      rw [abs_sub_comm z p] at this
      norm_num at he' hpe ⊢
      linarith

/-- the built-in tables, used for the examples -/
noncomputable def builtinTab : Tab := ⟨[EphTab.x0I.map EphTab.dec], [], [[EphTab.ml0I.map EphTab.dec, EphTab.ml1I.map EphTab.dec, EphTab.ml2I.map EphTab.dec, EphTab.ml3I.map EphTab.dec]], EphTab.nutBI.map EphTab.dec⟩

theorem builtinTab_ok : Builtin builtinTab := ⟨rfl, rfl, rfl⟩

/-- the winter solstice of the year 2023 (24 turns after 1999) with a slow-down of 69 s -/
example : ∃ q p r lag, sALonT2 builtinTab (24 * 2 * π - π / 2) = some q ∧ sALonT builtinTab (24 * 2 * π - π / 2) = some p
    ∧ qiHigh builtinTab (fun _ => 69 / 86400) (24 * 2 * π - π / 2) = some r
    ∧ (lag = 69 / 86400 ∨ lag = 69 / 86400) ∧ dayOf r = dayOf (beijing p lag) := by
  have p1 := pi_gt_d6
  have p2 := pi_lt_d6
  exact c76_day builtinTab builtinTab_ok _ (fun x => by norm_num) _ (by linarith) (by norm_num at p2; linarith)

/-! ## C77: new moons -/

/-- **C77 (the estimate).**  From 1600 to 2400 `MS_aLon_t2(W)` is within 1752 s of the instant at which the moon's lead over the sun is `W`. -/
theorem c77_fast (b : Tab) (hb : Builtin b) (W : ℝ) (hW : |W + 1.08472| ≤ 31085) :
    ∃ z q, |z| ≤ 4 ∧ msALon b z (-1) (-1) = some W ∧ msALonT2 b W = some q ∧ |q - z| * 36525 * 86400 ≤ 1752 := by
  obtain ⟨z, hz, hz10, hzW⟩ := fS_ivt (W := W) (by linarith [(abs_le.1 hW).1]) (by linarith [(abs_le.1 hW).2])
  have m := fS_mean30 z (hz.trans (by norm_num))
  simp only at m
  rw [hzW] at m
  have h4 : |z| ≤ 4 := by
    rw [abs_le] at m hW ⊢
    norm_num at m hW ⊢
    constructor <;> linarith
  obtain ⟨q, hq, he⟩ := msALonT2_near4 b hb h4
  rw [hzW] at hq
  refine ⟨z, q, h4, ?_, hq, ?_⟩
  · rw [msALon_fS b hb (by norm_num at hz10; linarith) (-1) (-1) (by norm_num) (by norm_num) (by norm_num), hzW]
  · norm_num at he ⊢; linarith

/-- **C77.**  With the built-in tables, for every angle `W` from the year -1000 to 2400 (-233100 ≤ W ≤ 31080; the new moons are the multiples of 2π) and
whatever the slow-down `dt_T` of the Earth's rotation returns (not below minus a century), the day on which `so_high` puts the phase is the day of the
precisely computed instant: leaving out the precise computation when the estimate is not within 30 minutes of midnight never changes the day. -/
theorem c77_day (b : Tab) (hb : Builtin b) (dtT : ℝ → ℝ) (hdt : ∀ x, -36525 ≤ dtT x) (W : ℝ) (h1 : -233100 ≤ W) (h2 : W ≤ 31080) :
    ∃ q p r lag, msALonT2 b W = some q ∧ msALonT b W = some p ∧ soHigh b dtT W = some r
      ∧ (lag = dtT (q * 36525) ∨ lag = dtT (beijing q (dtT (q * 36525)))) ∧ dayOf r = dayOf (beijing p lag) := by
  obtain ⟨z, hz, hz10, hzW⟩ := fS_ivt (W := W) h1 (by linarith)
  obtain ⟨q, hq, he⟩ := msALonT2_near30 b hb hz hz10
  obtain ⟨p, hp, -⟩ := msALonT_near30 b hb hz hz10
  rw [hzW] at hq hp
  have e8 : (8.0 : ℝ) / 24 = 8 / 24 := by norm_num
  by_cases hv : fmod1 (q * 36525 - dtT (q * 36525) + 8.0 / 24 + 0.5) * 86400 < 1800 ∨ fmod1 (q * 36525 - dtT (q * 36525) + 8.0 / 24 + 0.5) * 86400 > 86400 - 1800
  · refine ⟨q, p, p * 36525 - dtT (q * 36525 - dtT (q * 36525) + 8.0 / 24) + 8.0 / 24, _, hq, hp, ?_, Or.inr rfl, ?_⟩
    · unfold soHigh
      rw [hq]
      show (if _ then _ else _) = _
      rw [if_pos hv, hp]
      rfl
    · rw [e8]; rfl
  · refine ⟨q, p, q * 36525 - dtT (q * 36525) + 8.0 / 24, _, hq, hp, ?_, Or.inl rfl, ?_⟩
    · unfold soHigh
      rw [hq]
      show (if _ then _ else _) = _
      rw [if_neg hv]
      rfl
    · refine day_kept dtT (by norm_num : (0 : ℝ) < 1800) (fun h => ?_) hv
      have hd := hdt (q * 36525)
      have m := fS_mean30 z (hz.trans (by norm_num))
      simp only at m
      rw [hzW] at m
      have h4 : |z| ≤ 4 := by
        rw [abs_le] at m he ⊢
        norm_num at m he h ⊢
        constructor <;> linarith
      obtain ⟨q', hq', he'⟩ := msALonT2_near4 b hb h4
      obtain ⟨p', hp', hpe⟩ := msALonT_near5 b hb (h4.trans (by norm_num))
      rw [hzW] at hq' hp'
      have e1 : q' = q := Option.some.inj (hq'.symm.trans hq)
      have e2 : p' = p := Option.some.inj (hp'.symm.trans hp)
      subst e1 e2
      have := abs_sub_le q' z p'
      rw [abs_sub_comm z p'] at this
      norm_num at he' hpe ⊢
      linarith

/-- the new moon 300 months after that of January 2000 with a slow-down of 69 s -/
example : ∃ q p r lag, msALonT2 builtinTab (300 * 2 * π) = some q ∧ msALonT builtinTab (300 * 2 * π) = some p
    ∧ soHigh builtinTab (fun _ => 69 / 86400) (300 * 2 * π) = some r
    ∧ (lag = 69 / 86400 ∨ lag = 69 / 86400) ∧ dayOf r = dayOf (beijing p lag) := by
  have p1 := pi_gt_d6
  have p2 := pi_lt_d6
  exact c77_day builtinTab builtinTab_ok _ (fun x => by norm_num) _ (by linarith) (by norm_num at p2; linarith)

end Verif.Longitude
