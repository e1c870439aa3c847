import Verif.Props.LunarSheet

/-!
# The hypotheses of C18–C21 are met

A calculator with evenly spaced terms and new moons satisfies `TermsOK` for every range, and its month sheet of January 2000 is defined;
the tables of 2022–2023 satisfy the hypotheses of `c20_day`.
-/

namespace Verif.Lunar
open Verif.Fp Verif.GanZhi

/-- evenly spaced terms and new moons -/
def meanCalc : Calc := fun x q =>
  if q then some ⌊meanTerm ⌊(x - 355) / (3652422/10000/24) + 1/2⌋ + 1/2⌋
  else some ⌊(295306/10000 : ℚ) * ⌊(x - 6 + 14) / (295306/10000)⌋ + 6⌋

theorem meanCalc_ok (m1 m2 : ℤ) : TermsOK meanCalc m1 m2 (fun m => ⌊meanTerm m + 1/2⌋) := by
  intro m _ _
  constructor
  · have h1 := Int.floor_le (meanTerm m + 1/2)
    have h2 := Int.lt_floor_add_one (meanTerm m + 1/2)
    rw [abs_le]; constructor <;> linarith
  · intro x hx
    have e : ⌊(x - 355) / (3652422/10000/24) + 1/2⌋ = m := by
      have hx' := abs_le.mp hx
      unfold meanTerm at hx'
      rw [Int.floor_eq_iff]
      have c : (0 : ℚ) < 3652422/10000/24 := by norm_num
      have e1 : (x - 355) / (3652422/10000/24) = m + (x - (355 + 3652422/10000/24 * m)) / (3652422/10000/24) := by field_simp; ring
      rw [e1]
      have b1 : (-1/2 : ℚ) ≤ (x - (355 + 3652422/10000/24 * m)) / (3652422/10000/24) := by rw [le_div_iff₀ c]; linarith [hx'.1]
      have b2 : (x - (355 + 3652422/10000/24 * m)) / (3652422/10000/24) < (1/2 : ℚ) := by rw [div_lt_iff₀ c]; linarith [hx'.2]
      constructor <;> linarith
    show (if true = true then _ else _) = _
    rw [if_pos rfl, e]

theorem meanCalc_near (m1 m2 : ℤ) : TermsNear (fun m => ⌊meanTerm m + 1/2⌋) m1 m2 := by
  constructor
  · intro m _ _
    have h1 := Int.lt_floor_add_one (meanTerm (m + 1) + 1/2)
    have h2 := Int.floor_le (meanTerm m + 1/2)
    have : ((⌊meanTerm m + 1/2⌋ : ℤ) : ℚ) < (⌊meanTerm (m + 1) + 1/2⌋ : ℤ) := by
      have e : meanTerm (m + 1) = meanTerm m + 3652422/10000/24 := by unfold meanTerm; push_cast; ring
      rw [e] at h1 ⊢
      linarith
    exact_mod_cast this
  · intro m m' _ h1 _ h2
    have a1 := Int.lt_floor_add_one (meanTerm m' + 1/2)
    have a2 := Int.floor_le (meanTerm m' + 1/2)
    have b1 := Int.lt_floor_add_one (meanTerm m + 1/2)
    have b2 := Int.floor_le (meanTerm m + 1/2)
    have e : meanTerm m' - meanTerm m = 3652422/10000/24 * ((m' - m : ℤ) : ℚ) := by unfold meanTerm; push_cast; ring
    have c1 : (0 : ℚ) ≤ ((m' - m : ℤ) : ℚ) := by exact_mod_cast (by omega : 0 ≤ m' - m)
    have c2 : ((m' - m : ℤ) : ℚ) ≤ 24 := by exact_mod_cast (by omega : m' - m ≤ 24)
    rw [abs_le]
    rw [Int.cast_sub ⌊meanTerm m' + 1/2⌋]
    constructor <;> linarith

/-- its new moons -/
def meanMoon (j : ℤ) : ℤ := ⌊(295306/10000 : ℚ) * j + 6⌋

theorem meanCalc_moons (j1 j2 : ℤ) : MoonsOK meanCalc j1 j2 meanMoon := by
  have lo : ∀ j, (meanMoon j : ℚ) ≤ 295306/10000 * j + 6 := fun j => Int.floor_le _
  have up : ∀ j, (295306/10000 : ℚ) * j + 5 < meanMoon j := fun j => by
    have := Int.lt_floor_add_one ((295306/10000 : ℚ) * j + 6)
    unfold meanMoon; linarith
  have key : ∀ (x : ℚ) (j : ℤ), (295306/10000 : ℚ) * j ≤ x + 8 → x + 8 < 295306/10000 * (j + 1) → meanCalc x false = some (meanMoon j) := by
    intro x j h1 h2
    have e : ⌊(x - 6 + 14) / (295306/10000 : ℚ)⌋ = j := by
      rw [Int.floor_eq_iff, le_div_iff₀ (by norm_num), div_lt_iff₀ (by norm_num)]
      constructor <;> linarith
    show (if false = true then _ else some _) = _
    rw [if_neg (by decide), e]
    rfl
  refine ⟨?_, ?_, ?_, ?_⟩
  · intro i j _ h1 _ h2
    have c1 : (0 : ℚ) ≤ ((j - i : ℤ) : ℚ) := by exact_mod_cast (by omega : 0 ≤ j - i)
    have c2 : ((j - i : ℤ) : ℚ) ≤ 14 := by exact_mod_cast (by omega : j - i ≤ 14)
    push_cast at c1 c2
    constructor
    · have : (29 : ℚ) * ((j : ℚ) - i) - 1 < (meanMoon j : ℚ) - meanMoon i := by linarith [up j, lo i]
      have : 29 * (j - i) - 1 < meanMoon j - meanMoon i := by exact_mod_cast this
      omega
    · by_cases hz : j = i
      · subst hz; simp
      have c3 : (1 : ℚ) ≤ ((j - i : ℤ) : ℚ) := by exact_mod_cast (by omega : 1 ≤ j - i)
      push_cast at c3
      have : (meanMoon j : ℚ) - meanMoon i < 30 * ((j : ℚ) - i) + 1 := by linarith [up i, lo j]
      have : meanMoon j - meanMoon i < 30 * (j - i) + 1 := by exact_mod_cast this
      omega
  · intro i j _ _ _ _
    rw [abs_le]
    push_cast
    constructor <;> linarith [up j, lo i, up i, lo j]
  · intro j _ _ x hx
    have b := abs_le.mp hx
    exact key x j (by linarith [up j, lo j]) (by linarith [up j, lo j])
  · intro x h1 h2
    obtain ⟨j, hj⟩ : ∃ j, j = ⌊(x + 8) / (295306/10000 : ℚ)⌋ := ⟨_, rfl⟩
    have f1 := Int.floor_le ((x + 8) / (295306/10000 : ℚ))
    have f2 := Int.lt_floor_add_one ((x + 8) / (295306/10000 : ℚ))
    rw [← hj, le_div_iff₀ (by norm_num)] at f1
    rw [← hj, div_lt_iff₀ (by norm_num)] at f2
    refine ⟨j, ?_, ?_, key x j (by linarith) (by linarith), ?_⟩
    · have : (j1 : ℚ) < j + 1 := by linarith [up j1]
      have : j1 < j + 1 := by exact_mod_cast this
      omega
    · have : (j : ℚ) < j2 + 1 := by linarith [lo j2]
      have : j < j2 + 1 := by exact_mod_cast this
      omega
    · rw [abs_le]
      constructor <;> linarith [up j, lo j]

/-- the end-to-end theorem applies to that calculator: after asking for the year 2010, the sheet of March 2000 -/
example (t : Tables) (h : calcY meanCalc ((3800 : ℤ) : ℚ) = some t) :
    ∃ days t', lunarSheet meanCalc t 45 31 = some (days, t') ∧ days.length = 31 ∧ ∀ i : ℕ, i < 31 → ∃ o, days[i]? = some o ∧
      RecordOK (fun m => ⌊meanTerm m + 1/2⌋) meanMoon (OrdinaryRule (fun m => ⌊meanTerm m + 1/2⌋) meanMoon) (45 + i) o :=
  c21_sheet (lo := -700000) (hi := 1000000) (m1 := -50000) (m2 := 70000) (j1 := -40000) (j2 := 40000)
    ⟨by norm_num, by norm_num [meanTerm], by norm_num [meanMoon]⟩ (meanCalc_ok _ _) (meanCalc_near _ _) (meanCalc_moons _ _) t
    (.year 3800 .init (by norm_num) h) 45 (by norm_num) 31 (by norm_num) (fun i _ => Or.inr (by omega))

/-- the month sheet of January 2000 of that calculator, from the initial state and after asking for the year 2010: the
same 31 days -/
example : (lunarSheet meanCalc Tables.init (-15) 31).map (fun r => r.1.length) = some 31 := by decide +kernel

example (t : Tables) (h : calcY meanCalc ((3800 : ℤ) : ℚ) = some t) :
    (lunarSheet meanCalc t (-15) 31).map Prod.fst = (lunarSheet meanCalc Tables.init (-15) 31).map Prod.fst :=
  c21_history meanCalc (-720000) 720000 (-10000000) 10000000 _ (by norm_num) (by norm_num) (by norm_num [meanTerm]) (by norm_num [meanTerm]) (meanCalc_ok _ _) t Tables.init
    (.year 3800 .init (by norm_num) h) .init (-15) (by norm_num) 31

theorem anchored2023 : Anchored zq2023 22 := by
  have : ∀ k : Fin 25, |((zq2023 k.val : ℤ) : ℚ) - (355 + 3652422/10000 * ((22 : ℤ) : ℚ) + 152184/10000 * ((k.val : ℕ) : ℚ))| ≤ 20 := by decide +kernel
  intro k hk
  exact this ⟨k, by omega⟩

/-- the tables of the year with the leap month 闰二月 2023 -/
def tables2023 : Tables :=
  ⟨4, ["十一","腊","正","二","二","三","四","五","六","七","八","九","十","十一"], tab 25 zq2023, tab 15 hs2023, tab 14 (fun i => hs2023 (i + 1) - hs2023 i), [0, 0]⟩

theorem yearTables2023 : YearTables tables2023 zq2023 hs2023 4 (fun i => usualName (numOf 4 i)) :=
  ⟨rfl, rfl, rfl, rfl, by decide⟩

/-- 22 March 2023: first day of the leap month -/
example : ∃ o, dayFields tables2023 8475 8481 (some ⟨"", 0, false, ""⟩) = some o ∧ DaySpec zq2023 hs2023 4 (fun i => usualName (numOf 4 i)) 22 39 8481 false ⟨"", 0, false, ""⟩ o :=
  c20_day tables2023 zq2023 hs2023 4 _ yearTables2023 consistent2023 near2023 22 (by norm_num) anchored2023 8481 8475 (by decide) (by decide) _ 39
    (c20_yearSpring tables2023 zq2023 hs2023 4 yearTables2023 (by norm_num) consistent2023 22 (by norm_num) anchored2023 8481) (by norm_num)

end Verif.Lunar
