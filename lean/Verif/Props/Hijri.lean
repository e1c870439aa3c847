import Verif.HijriLemmas

/-! # Property C10: `getHuiLi` is the tabular Islamic calendar (`Verif/HijriSpec.lean`) -/

namespace Verif.Hijri
open Verif.Fp

/-- C10: for every integer day number the result is an existing date of the tabular calendar
and the next day number gives the next date. -/
theorem c10_hijri_next (n : ℤ) (h1 : -2000000000 ≤ n) (h2 : n < 2000000000) :
    ∃ h, getHuiLi (n:ℚ) = some h ∧ HValid h ∧ getHuiLi ((n + 1 : ℤ) : ℚ) = some (hnext h) := by
  have hs := step_ok ((n + 503105) % 10631) (by omega) (by omega)
  refine ⟨_, getHuiLi_eq n h1 (by omega), ?_, ?_⟩
  all_goals
    set z := (n + 503105) / 10631 with hz
    set r := (n + 503105) % 10631 with hr
    simp only [stepOk, Bool.and_eq_true, decide_eq_true_eq] at hs
    obtain ⟨hstep, hval⟩ := hs
  · have hleap30 : hleap (30 * z + (cyc r).1 + 1) = hleap ((cyc r).1 + 1) := by
      unfold hleap
      rw [show (30 * z + (cyc r).1 + 1) % 30 = ((cyc r).1 + 1) % 30 by omega]
    have hd : ∀ m, hdays (30 * z + (cyc r).1 + 1) m = hdays (30 * 0 + (cyc r).1 + 1) m := by
      intro m; unfold hdays; rw [hleap30]; simp
    unfold HValid
    simp only
    rw [hd]
    exact hval
  · rw [getHuiLi_eq (n + 1) (by omega) (by omega)]
    have hleap30 : hleap (30 * z + (cyc r).1 + 1) = hleap ((cyc r).1 + 1) := by
      unfold hleap
      rw [show (30 * z + (cyc r).1 + 1) % 30 = ((cyc r).1 + 1) % 30 by omega]
    have hd : ∀ m, hdays (30 * z + (cyc r).1 + 1) m = hdays (30 * 0 + (cyc r).1 + 1) m := by
      intro m; unfold hdays; rw [hleap30]; simp
    have shift : hnext (30 * z + (cyc r).1 + 1, (cyc r).2.1 + 1, (cyc r).2.2 + 1) =
        (30 * z + (hnext (outOf 0 (cyc r))).1, (hnext (outOf 0 (cyc r))).2) := by
      simp only [hnext, outOf]
      rw [hd]
      by_cases c1 : (cyc r).2.2 + 1 < hdays (30 * 0 + (cyc r).1 + 1) ((cyc r).2.1 + 1)
      · simp only [c1, if_true, Prod.mk.injEq, and_true]; ring
      · by_cases c2 : (cyc r).2.1 + 1 < 12
        · simp only [c1, c2, if_true, if_false, Prod.mk.injEq, and_true]; ring
        · simp only [c1, c2, if_false, Prod.mk.injEq, and_true]; ring
    rw [shift, hstep]
    by_cases hr1 : r < 10630
    · rw [if_pos hr1, show (n + 1 + 503105) / 10631 = z by omega, show (n + 1 + 503105) % 10631 = r + 1 by omega]
      simp only [outOf, Option.some.injEq, Prod.mk.injEq, and_true]
      ring
    · rw [if_neg hr1, show (n + 1 + 503105) / 10631 = z + 1 by omega, show (n + 1 + 503105) % 10631 = 0 by omega]
      simp only [outOf, Option.some.injEq, Prod.mk.injEq, and_true]
      ring

/-- C10 anchor: day -503105 (JD 1948440 noon, 16 July 622) is 1 Muharram of year 1. -/
theorem c10_hijri_epoch : getHuiLi (-503105) = some (1, 1, 1) := by decide +kernel

/-- 2000-01-01 is 24 Ramadan 1420 -/
example : getHuiLi 0 = some (1420, 9, 24) ∧ HValid (1420, 9, 24) ∧ hnext (1420, 12, 30) = (1421, 1, 1) ∧ hnext (1421, 12, 29) = (1422, 1, 1) := by
  unfold HValid; decide +kernel

end Verif.Hijri
