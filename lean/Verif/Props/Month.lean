import Verif.MonthLemmas
import Verif.Props.Calendar

/-!
# Properties C08-C09: the month sheet of `yueLiCalc`

Spec: civil calendar of `Verif/CalendarSpec.lean`; `CDate.next^[i] c` is the day `i` days after `c`.
-/

namespace Verif.Cal
open Verif.Fp

/-- months for which the sheet is covered: March -4716 to December 4 899 999 -/
def MonthInRange (y m : ℤ) : Prop := 1 ≤ m ∧ m ≤ 12 ∧ (-4715 ≤ y ∨ (y = -4716 ∧ 3 ≤ m)) ∧ y ≤ 4899999

theorem MonthInRange.inRange {y m : ℤ} (h : MonthInRange y m) : (⟨y, m, 1⟩ : CDate).InRange :=
  ⟨h.2.2.1, by simp only; have := h.2.2.2; omega⟩

/-- C08: the sheet has exactly the existing days of the month (21 of them in October 1582), in order, each
with its date, its noon Julian day (relative to J2000) and index; nothing undefined happens. -/
theorem c08_sheet_days (y m : ℤ) (h : MonthInRange y m) :
    ∃ sh, monthSheet y m = some sh ∧ sh.y = y ∧ sh.m = m ∧ sh.dn = monthDays y m ∧ (sh.day.length : ℤ) = monthDays y m ∧
      (∀ (i : ℕ) (e : SheetDay), sh.day[i]? = some e →
        (⟨e.y, e.m, e.d⟩ : CDate) = CDate.next^[i] ⟨y, m, 1⟩ ∧ e.di = i ∧ e.dn = monthDays y m ∧
        toJD (noon ⟨e.y, e.m, e.d⟩) = some ((e.d0 + 2451545 : ℤ) : ℚ)) ∧
      (∀ c : CDate, c.Valid → c.y = y → c.m = m → ∃ e ∈ sh.day, e.d = c.d) := by
  obtain ⟨h1, h2, h3, h4⟩ := id h
  have hv := first_valid y m h1 h2
  have hmd := monthDays_bounds y m
  refine ⟨_, monthSheet_eq y m h1 h2 h.inRange h4, rfl, rfl, rfl, ?_, ?_, ?_⟩
  · simp; omega
  · intro i e he
    simp only [List.getElem?_map] at he
    obtain ⟨j, hj, rfl⟩ := Option.map_eq_some_iff.mp he
    obtain ⟨hlt, rfl⟩ := List.getElem?_eq_some_iff.mp hj
    simp only [List.getElem_range, List.length_range] at hlt ⊢
    obtain ⟨vi, ni⟩ := iterate_next ⟨y, m, 1⟩ hv i
    simp only at ni
    have hin := (in_month _ vi y m h1 h2).mpr (by omega)
    have hc : (⟨y, m, (CDate.next^[i] ⟨y, m, 1⟩).d⟩ : CDate) = CDate.next^[i] ⟨y, m, 1⟩ := by
      revert hin
      generalize CDate.next^[i] ⟨y, m, 1⟩ = q
      rintro ⟨rfl, rfl⟩
      rfl
    refine ⟨hc, rfl, rfl, ?_⟩
    have hr : (CDate.next^[i] ⟨y, m, 1⟩).InRange := by
      have := h.inRange
      unfold CDate.InRange at this ⊢
      rw [hin.1, hin.2]; exact this
    have := toJD_noon _ vi hr
    simp only [sheetEntry]
    rw [hc]
    unfold noon
    rw [this, ni]
    congr 2
    ring
  · intro c hc hcy hcm
    obtain ⟨b1, b2⟩ := (in_month c hc y m h1 h2).mp ⟨hcy, hcm⟩
    set i := (dayNum c.y c.m c.d - dayNum y m 1).toNat with hi
    have hi' : (i:ℤ) = dayNum c.y c.m c.d - dayNum y m 1 := Int.toNat_of_nonneg (by omega)
    refine ⟨sheetEntry y m ((dayNum y m 1 + 1) % 7) i, ?_, ?_⟩
    · simp only [List.mem_map, List.mem_range]
      exact ⟨i, by omega, rfl⟩
    · obtain ⟨vi, ni⟩ := iterate_next ⟨y, m, 1⟩ hv i
      simp only at ni
      have e1 := ofDay_dayNum c hc
      have e2 := ofDay_dayNum _ vi
      rw [ni, show dayNum y m 1 + (i:ℤ) = dayNum c.y c.m c.d by omega, e1] at e2
      simp only [sheetEntry]
      simp only [Prod.mk.injEq] at e2
      exact e2.2.2.symm

/-- C08 (rows): the week-row indices are those of a Sunday-first calendar sheet: the first day is in row 0
and column `week0`, a new row starts exactly at each later Sunday (column 0), and the number of rows is one more than the last row. -/
theorem c08_sheet_rows (y m : ℤ) (h : MonthInRange y m) :
    ∃ sh, monthSheet y m = some sh ∧
      (∀ e, sh.day[0]? = some e → e.weeki = 0 ∧ e.week = e.week0) ∧
      (∀ (i : ℕ) (e e' : SheetDay), sh.day[i]? = some e → sh.day[i+1]? = some e' →
        e'.week = (e.week + 1) % 7 ∧ e'.weeki = e.weeki + (if e'.week = 0 then 1 else 0)) ∧
      (∀ e ∈ sh.day, ∃ l, sh.day.getLast? = some l ∧ e.weekN = l.weeki + 1) ∧
      (∀ e ∈ sh.day, e.week0 = sh.w0 ∧ 0 ≤ e.week ∧ e.week < 7) := by
  obtain ⟨h1, h2, h3, h4⟩ := id h
  have hmd := monthDays_bounds y m
  refine ⟨_, monthSheet_eq y m h1 h2 h.inRange h4, ?_, ?_, ?_, ?_⟩
  · intro e he
    simp only [List.getElem?_map] at he
    obtain ⟨j, hj, rfl⟩ := Option.map_eq_some_iff.mp he
    obtain ⟨hlt, rfl⟩ := List.getElem?_eq_some_iff.mp hj
    simp only [List.getElem_range, sheetEntry]
    constructor <;> omega
  · intro i e e' he he'
    simp only [List.getElem?_map] at he he'
    obtain ⟨j, hj, rfl⟩ := Option.map_eq_some_iff.mp he
    obtain ⟨hlt, rfl⟩ := List.getElem?_eq_some_iff.mp hj
    obtain ⟨j, hj', rfl⟩ := Option.map_eq_some_iff.mp he'
    obtain ⟨hlt', rfl⟩ := List.getElem?_eq_some_iff.mp hj'
    simp only [List.getElem_range, sheetEntry]
    push_cast
    constructor
    · omega
    · split_ifs <;> omega
  · intro e he
    simp only [List.mem_map, List.mem_range] at he
    obtain ⟨i, hi, rfl⟩ := he
    refine ⟨sheetEntry y m ((dayNum y m 1 + 1) % 7) ((monthDays y m).toNat - 1), ?_, ?_⟩
    · rw [List.getLast?_map, List.getLast?_range, if_neg (by omega)]
      rfl
    · simp only [sheetEntry]
      rw [show (((monthDays y m).toNat - 1 : ℕ) : ℤ) = monthDays y m - 1 by omega]
      congr 2; ring
  · intro e he
    simp only [List.mem_map, List.mem_range] at he
    obtain ⟨i, hi, rfl⟩ := he
    simp only [sheetEntry]
    refine ⟨trivial, by omega, by omega⟩

/-- non-vacuity and the reform month: 21 days, 4 is followed by 15, Thursday by Friday -/
example : MonthInRange 1582 10 ∧ (monthSheet 1582 10).map (fun s => (s.dn, s.w0, s.day.map (fun e => (e.d, e.week, e.weeki)))) =
    some (21, 1, [(1,1,0),(2,2,0),(3,3,0),(4,4,0),(15,5,0),(16,6,0),(17,0,1),(18,1,1),(19,2,1),(20,3,1),(21,4,1),(22,5,1),
      (23,6,1),(24,0,2),(25,1,2),(26,2,2),(27,3,2),(28,4,2),(29,5,2),(30,6,2),(31,0,3)]) := by
  unfold MonthInRange; decide +kernel

/-- the weekday `yueLiCalc` reports for a civil day: looked up in the sheet of its month -/
def reportedWeek (c : CDate) : Option ℤ :=
  (monthSheet c.y c.m).bind fun sh => (sh.day.find? (fun e => e.d == c.d)).map (·.week)

/-- C09: the reported weekday advances by one modulo 7 from every civil day to the next. -/
theorem c09_weekday_step (c : CDate) (hv : c.Valid) (h : MonthInRange c.y c.m) (hn : MonthInRange c.next.y c.next.m) :
    ∃ w : ℤ, 0 ≤ w ∧ w < 7 ∧ reportedWeek c = some w ∧ reportedWeek c.next = some ((w + 1) % 7) := by
  have key : ∀ c : CDate, c.Valid → MonthInRange c.y c.m →
      reportedWeek c = some ((dayNum c.y c.m c.d + 1) % 7) := by
    intro c hc h
    obtain ⟨h1, h2, h3, h4⟩ := id h
    have hv := first_valid c.y c.m h1 h2
    unfold reportedWeek
    rw [monthSheet_eq c.y c.m h1 h2 h.inRange h4]
    simp only [Option.bind_some]
    obtain ⟨b1, b2⟩ := (in_month c hc c.y c.m h1 h2).mp ⟨rfl, rfl⟩
    set i := (dayNum c.y c.m c.d - dayNum c.y c.m 1).toNat with hi
    have hi' : (i:ℤ) = dayNum c.y c.m c.d - dayNum c.y c.m 1 := Int.toNat_of_nonneg (by omega)
    have hday : ∀ j : ℕ, j < (monthDays c.y c.m).toNat → (CDate.next^[j] ⟨c.y, c.m, 1⟩).d = c.d → j = i := by
      intro j hj hd
      obtain ⟨vj, nj⟩ := iterate_next ⟨c.y, c.m, 1⟩ hv j
      simp only at nj
      have hin := (in_month _ vj c.y c.m h1 h2).mpr (by omega)
      rw [hin.1, hin.2, hd] at nj
      omega
    have hmem : sheetEntry c.y c.m ((dayNum c.y c.m 1 + 1) % 7) i ∈
        (List.range (monthDays c.y c.m).toNat).map (sheetEntry c.y c.m ((dayNum c.y c.m 1 + 1) % 7)) :=
      List.mem_map.mpr ⟨i, List.mem_range.mpr (by omega), rfl⟩
    have hdi : (CDate.next^[i] ⟨c.y, c.m, 1⟩).d = c.d := by
      obtain ⟨vi, ni⟩ := iterate_next ⟨c.y, c.m, 1⟩ hv i
      simp only at ni
      have e1 := ofDay_dayNum c hc
      have e2 := ofDay_dayNum _ vi
      rw [ni, show dayNum c.y c.m 1 + (i:ℤ) = dayNum c.y c.m c.d by omega, e1] at e2
      simp only [Prod.mk.injEq] at e2
      exact e2.2.2.symm
    cases hf : List.find? (fun e : SheetDay => e.d == c.d)
        ((List.range (monthDays c.y c.m).toNat).map (sheetEntry c.y c.m ((dayNum c.y c.m 1 + 1) % 7))) with
    | none =>
      have := List.find?_eq_none.mp hf _ hmem
      simp [sheetEntry, hdi] at this
    | some e =>
      have hp := List.find?_some hf
      have hm := List.mem_of_find?_eq_some hf
      simp only [List.mem_map, List.mem_range] at hm
      obtain ⟨j, hj, rfl⟩ := hm
      have : j = i := hday j hj (by simpa [sheetEntry] using hp)
      subst this
      simp only [sheetEntry, Option.map_some, Option.some.injEq]
      omega
  refine ⟨_, by omega, by omega, key c hv h, ?_⟩
  rw [key _ (next_valid c hv) hn, dayNum_next c hv]
  congr 1
  omega

/-- C09 anchor: 2000-01-01 was a Saturday, and so the cycle is fixed for every day. -/
theorem c09_weekday_anchor : reportedWeek ⟨2000, 1, 1⟩ = some 6 := by decide +kernel

example : reportedWeek ⟨1582, 10, 4⟩ = some 4 ∧ reportedWeek ⟨1582, 10, 15⟩ = some 5 := by decide +kernel

end Verif.Cal
