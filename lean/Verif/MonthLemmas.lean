import Verif.MonthSheet
import Verif.ClockLemmas

/-! Helper lemmas for the month sheet. -/

namespace Verif.Cal
open Verif.Fp

theorem monthStart_eq (Y M : ℤ) (hM1 : 1 ≤ M) (hM2 : M ≤ 12) (hr : (⟨Y, M, 1⟩ : CDate).InRange) :
    monthStart Y M = some (dayNum Y M 1 - 2451545) := by
  have hv := first_valid Y M hM1 hM2
  have hs1 : (999/10000 : ℚ) ≤ rnd (1/10) := by decide +kernel
  have hs2 : rnd (1/10) ≤ (1001/10000 : ℚ) := by decide +kernel
  obtain ⟨j, e, b⟩ := toJD_err ⟨Y, M, 1⟩ hv hr 12 0 (rnd (1/10)) (by norm_num) (by norm_num)
    ⟨by linarith, by linarith⟩
  have hb := dayNum_bounds Y M 1 hv hr
  unfold monthStart
  simp only at e b
  rw [e]
  simp only [Option.bind_eq_bind, Option.bind_some]
  have : int2 j = some (dayNum Y M 1) := by
    apply int2_eq _ (by omega) (by omega)
    rw [Int.floor_eq_iff]
    rw [abs_le] at b
    push_cast at b
    constructor <;> linarith [b.1, b.2]
  rw [this]
  simp only [Option.bind_some]
  exact i32_some (by omega) (by omega)

/-- first day of the following month -/
def nextFirst (y m : ℤ) : CDate := if m < 12 then ⟨y, m + 1, 1⟩ else ⟨y + 1, 1, 1⟩

theorem nextFirst_dayNum (y m : ℤ) (h1 : 1 ≤ m) (h2 : m ≤ 12) :
    dayNum (nextFirst y m).y (nextFirst y m).m (nextFirst y m).d = dayNum y m 1 + monthDays y m := by
  -- the last day of the month is followed by the first of the next
  have hlast : (⟨y, m, lastDay y m⟩ : CDate).Valid := by
    have h28 : 28 ≤ lastDay y m := by unfold lastDay; split_ifs <;> omega
    refine ⟨h1, h2, by simp only; omega, le_refl _, ?_⟩
    simp only; omega
  have hn := dayNum_next _ hlast
  have h28 : 28 ≤ lastDay y m := by unfold lastDay; split_ifs <;> omega
  have e : (⟨y, m, lastDay y m⟩ : CDate).next = nextFirst y m := by
    unfold CDate.next nextFirst
    simp only [CDate.mk.injEq, lt_irrefl, if_false]
    rw [if_neg (by omega)]
  rw [e] at hn
  rw [hn]
  simp only
  unfold monthDays
  by_cases hoct : y = 1582 ∧ m = 10
  · obtain ⟨rfl, rfl⟩ := hoct
    decide
  · rw [if_neg hoct]
    simp only [dayNum_eq]
    have h31 : lastDay y m ≤ 31 := by unfold lastDay; split_ifs <;> omega
    split_ifs <;> omega

theorem monthDays_bounds (y m : ℤ) : 21 ≤ monthDays y m ∧ monthDays y m ≤ 31 := by
  unfold monthDays lastDay; split_ifs <;> omega

/-- the `i`-th civil day after `c` -/
theorem iterate_next (c : CDate) (hv : c.Valid) (i : ℕ) :
    (CDate.next^[i] c).Valid ∧
    dayNum (CDate.next^[i] c).y (CDate.next^[i] c).m (CDate.next^[i] c).d = dayNum c.y c.m c.d + i := by
  induction i with
  | zero => simp [hv]
  | succ i ih =>
    rw [Function.iterate_succ_apply']
    refine ⟨next_valid _ ih.1, ?_⟩
    rw [dayNum_next _ ih.1, ih.2]
    push_cast; ring

theorem before_or (a b : CDate) : a.before b ∨ a = b ∨ b.before a := by
  obtain ⟨y, m, d⟩ := a
  obtain ⟨y', m', d'⟩ := b
  simp only [CDate.before, CDate.mk.injEq]
  omega

theorem dayNum_lt_iff (a b : CDate) (va : a.Valid) (vb : b.Valid) :
    dayNum a.y a.m a.d < dayNum b.y b.m b.d ↔ a.before b := by
  constructor
  · intro h
    rcases before_or a b with h1 | h1 | h1
    · exact h1
    · subst h1; omega
    · have := dayNum_before b a vb va h1; omega
  · exact dayNum_before a b va vb

theorem nextFirst_valid (y m : ℤ) (h1 : 1 ≤ m) (h2 : m ≤ 12) : (nextFirst y m).Valid := by
  unfold nextFirst
  split_ifs
  · exact first_valid _ _ (by omega) (by omega)
  · exact first_valid _ _ (by omega) (by omega)

/-- a valid day numbered inside the month belongs to the month -/
theorem in_month (c : CDate) (hv : c.Valid) (y m : ℤ) (h1 : 1 ≤ m) (h2 : m ≤ 12) :
    (c.y = y ∧ c.m = m) ↔
    (dayNum y m 1 ≤ dayNum c.y c.m c.d ∧ dayNum c.y c.m c.d < dayNum y m 1 + monthDays y m) := by
  have vf := first_valid y m h1 h2
  have vn := nextFirst_valid y m h1 h2
  have a1 := dayNum_lt_iff c ⟨y, m, 1⟩ hv vf
  have a2 := dayNum_lt_iff c (nextFirst y m) hv vn
  rw [nextFirst_dayNum y m h1 h2] at a2
  rw [a2, ← not_lt, a1]
  obtain ⟨y', m', d'⟩ := c
  obtain ⟨⟨hm1, hm2⟩, ⟨hd1, hd2⟩, -⟩ := valid_bounds hv
  unfold nextFirst CDate.before
  split_ifs <;> simp only <;> omega

theorem mapM_some {α β : Type} (f : α → Option β) (g : α → β) (l : List α)
    (h : ∀ a ∈ l, f a = some (g a)) : l.mapM f = some (l.map g) := by
  induction l with
  | nil => simp
  | cons a l ih =>
    rw [List.mapM_cons, h a (by simp), ih (fun b hb => h b (by simp [hb]))]
    simp

/-- the sheet entry in closed form -/
def sheetEntry (y m w0 : ℤ) (i : ℕ) : SheetDay :=
  { d0 := dayNum y m 1 - 2451545 + i, di := i, y := y, m := m,
    d := (CDate.next^[i] ⟨y, m, 1⟩).d, dn := monthDays y m, week0 := w0,
    week := (w0 + i) % 7, weeki := (w0 + i) / 7, weekN := (w0 + monthDays y m - 1) / 7 + 1 }

theorem monthSheet_eq (y m : ℤ) (h1 : 1 ≤ m) (h2 : m ≤ 12)
    (hr : (⟨y, m, 1⟩ : CDate).InRange) (hy : y ≤ 4899999) :
    let w0 := (dayNum y m 1 + 1) % 7
    monthSheet y m = some ⟨w0, y, m, dayNum y m 1 - 2451545, monthDays y m,
      (List.range (monthDays y m).toNat).map (sheetEntry y m w0)⟩ := by
  intro w0
  have hv := first_valid y m h1 h2
  have hb := dayNum_bounds y m 1 hv hr
  have hmd := monthDays_bounds y m
  have hmd' : (((monthDays y m).toNat : ℕ) : ℤ) = monthDays y m := Int.toNat_of_nonneg (by omega)
  have hnf := nextFirst_dayNum y m h1 h2
  have hy2 : (-4716 : ℤ) ≤ y := by
    have := hr.1
    simp only at this
    omega
  unfold monthSheet
  rw [monthStart_eq y m h1 h2 hr]
  simp only [Option.bind_eq_bind, Option.bind_some]
  have e1 : (if m + 1 > 12 then i32 (y + 1) else some y) = some (nextFirst y m).y := by
    unfold nextFirst
    by_cases hm : m < 12
    · rw [if_neg (by omega), if_pos hm]
    · rw [if_pos (by omega), if_neg hm, i32_some (by omega) (by omega)]
  have e2 : (if m + 1 > 12 then (1:ℤ) else m + 1) = (nextFirst y m).m := by
    unfold nextFirst
    by_cases hm : m < 12
    · rw [if_neg (by omega), if_pos hm]
    · rw [if_pos (by omega), if_neg hm]
  have e3 : (nextFirst y m).d = 1 := by unfold nextFirst; split_ifs <;> rfl
  rw [e1, e2]
  simp only [Option.bind_some]
  rw [e3] at hnf
  have hr' : (⟨(nextFirst y m).y, (nextFirst y m).m, 1⟩ : CDate).InRange := by
    have := hr.1
    simp only [CDate.InRange] at this ⊢
    unfold nextFirst
    split_ifs <;> simp only <;> omega
  have hvn := nextFirst_valid y m h1 h2
  rw [monthStart_eq _ _ hvn.1 hvn.2.1 hr', hnf]
  simp only [Option.bind_some]
  rw [i32_some (by omega) (by omega)]
  simp only [Option.bind_some]
  rw [i32_some (by omega) (by omega)]
  simp only [Option.bind_some]
  rw [i32_some (by omega) (by omega)]
  simp only [Option.bind_some]
  rw [show dayNum y m 1 + monthDays y m - 2451545 - (dayNum y m 1 - 2451545) = monthDays y m by ring]
  rw [if_neg (by omega)]
  have ew : (dayNum y m 1 - 2451545 + 2451545 + 1 + 7000000).tmod 7 = w0 := by
    rw [Int.tmod_eq_emod_of_nonneg (by omega)]; omega
  rw [ew]
  have hw : 0 ≤ w0 := by omega
  rw [mapM_some _ (sheetEntry y m w0)]
  · simp
  · intro i hi
    have hi : i < (monthDays y m).toNat := by simpa using hi
    unfold sheetDay sheetEntry
    rw [i32_some (by omega) (by omega)]
    simp only [Option.bind_eq_bind, Option.bind_some]
    rw [i32_some (by omega) (by omega)]
    simp only [Option.bind_some]
    obtain ⟨vi, ni⟩ := iterate_next ⟨y, m, 1⟩ hv i
    simp only at ni
    have hs := setFromJD_noon (CDate.next^[i] ⟨y, m, 1⟩) vi (by omega) (by omega)
    rw [ni] at hs
    rw [show dayNum y m 1 - 2451545 + (i:ℤ) + 2451545 = dayNum y m 1 + i by ring, hs]
    simp only [Option.bind_some, Option.pure_def, Option.some.injEq, SheetDay.mk.injEq, true_and]
    rw [Int.tmod_eq_emod_of_nonneg (by omega), Int.tdiv_eq_ediv_of_nonneg (by omega), Int.tdiv_eq_ediv_of_nonneg (by omega)]
    simp

end Verif.Cal
