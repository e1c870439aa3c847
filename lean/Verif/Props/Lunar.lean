import Verif.LunarSpec
import Verif.FpLemmas
import Verif.FloorLemmas
import Verif.Props.GanZhi

/-!
# Properties C18-C20: leap month rule, month and solar term of a day
-/

namespace Verif.Lunar
open Verif.Fp Verif.GanZhi

theorem tab_get (n : ℕ) (f : ℕ → ℤ) (i : ℕ) (h : i < n) : (tab n f)[i]? = some (f i) := by
  simp [tab, List.getElem?_map, List.getElem?_range h]

theorem tab_cget (n : ℕ) (f : ℕ → ℤ) (i : ℤ) (h0 : 0 ≤ i) (h : i < n) : cget (tab n f) i = some (f i.toNat) := by
  unfold cget
  rw [if_pos h0, tab_get n f _ (by omega)]

/-! ## C18 -/

theorem findLeap_spec (z h : ℕ → ℤ) (hend : h 13 ≤ z 24) : ∀ (f i : ℕ), 1 ≤ i → i ≤ 12 → 13 ≤ f + i →
    ∃ l, findLeap (tab 25 z) (tab 15 h) f i = some l ∧ i ≤ l ∧ l ≤ 12 ∧ h (l + 1) ≤ z (2 * l) ∧ ∀ j, i ≤ j → j < l → z (2 * j) < h (j + 1) := by
  intro f
  induction f with
  | zero => intro i h1 h2 h3; omega
  | succ f ih =>
    intro i h1 h2 h3
    unfold findLeap
    rw [tab_get 15 h (i + 1) (by omega), tab_get 25 z (2 * i) (by omega)]
    simp only [Option.bind_eq_bind, Option.bind_some]
    by_cases hc : h (i + 1) > z (2 * i) ∧ i < 13
    · rw [if_pos hc]
      have : i ≠ 12 := by rintro rfl; have := hc.1; norm_num at this; omega
      obtain ⟨l, e, a1, a2, a3, a4⟩ := ih (i + 1) (by omega) (by omega) (by omega)
      refine ⟨l, e, by omega, a2, a3, ?_⟩
      intro j hj hl
      by_cases hji : j = i
      · subst hji; exact hc.1
      · exact a4 j (by omega) hl
    · rw [if_neg hc]
      refine ⟨i, rfl, le_refl _, h2, ?_, by intro j a b; omega⟩
      omega

theorem Consistent.zmono {z h : ℕ → ℤ} (hc : Consistent z h) {i j : ℕ} (hij : i ≤ j) (hj : j ≤ 24) : z i ≤ z j := by
  induction j with
  | zero => rw [Nat.le_zero.mp hij]
  | succ j ih =>
    by_cases he : i = j + 1
    · rw [he]
    · exact le_trans (ih (by omega) (by omega)) (le_of_lt (hc.terms j (by omega)))

theorem Consistent.hmono {z h : ℕ → ℤ} (hc : Consistent z h) {i j : ℕ} (hij : i ≤ j) (hj : j ≤ 14) : h i + 29 * ((j : ℤ) - i) - 1 ≤ h j ∧ h j ≤ h i + 30 * ((j : ℤ) - i) := by
  have := hc.months i j hij hj
  omega

/-- C18: with twelve months from the month of the solstice to the month of the next solstice there is no leap month and
month `i` has number `i`; with thirteen, the leap month `l` is one of the twelve after the solstice month, contains no
major term, and is the first such month unless an earlier month contains two major terms; it takes the number of its
predecessor and the later months are shifted. -/
theorem c18_leap (z h : ℕ → ℤ) (hc : Consistent z h) :
    ∃ l num, monthNumbers (tab 25 z) (tab 15 h) = some (l, num) ∧
      (InMonth h 12 (z 24) → l = 0 ∧ ∀ i, i < 14 → num[i]? = some i) ∧
      (InMonth h 13 (z 24) → 1 ≤ l ∧ l ≤ 12 ∧ ¬ HasMajor z h l ∧
        (∀ j, 1 ≤ j → j < l → ¬ HasMajor z h j → ∃ k, k < j ∧ HasTwoMajor z h k) ∧
        ∀ i, i < 14 → num[i]? = some (if i < l then i else i - 1)) := by
  unfold monthNumbers
  rw [tab_get 15 h 13 (by omega), tab_get 25 z 24 (by omega)]
  simp only [Option.bind_eq_bind, Option.bind_some]
  by_cases hend : h 13 ≤ z 24
  · rw [if_pos hend]
    obtain ⟨l, e, a1, a2, a3, a4⟩ := findLeap_spec z h hend 14 1 (by omega) (by omega) (by omega)
    rw [e]
    simp only [Option.bind_some]
    refine ⟨l, _, rfl, ?_, ?_⟩
    · rintro ⟨-, b⟩; simp only [Nat.reduceAdd] at b; omega
    · intro _
      have hmono := fun i j (hij : i ≤ j) (hj : j ≤ 14) => hc.hmono hij hj
      have hprev : z (2 * (l - 1)) < h l := by
        by_cases h1 : l = 1
        · subst h1; exact hc.first.2
        · have := a4 (l - 1) (by omega) (by omega)
          rwa [Nat.sub_add_cancel (by omega)] at this
      refine ⟨a1, a2, ?_, ?_, ?_⟩
      · rintro ⟨k, hk, c1, c2⟩
        by_cases hkl : k < l
        · have := hc.zmono (show 2 * k ≤ 2 * (l - 1) by omega) (by omega)
          omega
        · have := hc.zmono (show 2 * l ≤ 2 * k by omega) (by omega)
          omega
      · intro j hj1 hjl hnm
        by_contra hno
        have hno' : ∀ k, k < j → ¬ HasTwoMajor z h k := fun k hk hh => hno ⟨k, hk, hh⟩
        have key : ∀ k, k ≤ j → h k ≤ z (2 * k) := by
          intro k
          induction k with
          | zero => intro _; exact hc.first.1
          | succ k ih =>
            intro hk
            by_contra hlt
            have hlt' : z (2 * (k + 1)) < h (k + 1) := by omega
            have h2 := ih (by omega)
            have h3 := hc.zmono (show 2 * k ≤ 2 * (k + 1) by omega) (by omega)
            exact hno' k (by omega) ⟨k, k + 1, by omega, by omega, ⟨h2, by omega⟩, ⟨by omega, hlt'⟩⟩
        exact hnm ⟨j, by omega, key j (le_refl _), a4 j hj1 hjl⟩
      · intro i hi
        simp only [List.getElem?_map, List.getElem?_range hi, Option.map_some, Option.some.injEq]
        split_ifs <;> omega
  · rw [if_neg hend]
    refine ⟨0, _, rfl, ?_, ?_⟩
    · intro _
      exact ⟨rfl, fun i hi => by simp [List.getElem?_range hi]⟩
    · rintro ⟨b, -⟩; omega

/-- the year has twelve or thirteen months -/
theorem c18_twelve_or_thirteen (z h : ℕ → ℤ) (hc : Consistent z h) (hy : 361 ≤ z 24 - z 0 ∧ z 24 - z 0 ≤ 376) :
    InMonth h 12 (z 24) ∨ InMonth h 13 (z 24) := by
  have h12 := hc.hmono (show 0 ≤ 12 by omega) (by omega)
  have h14 := hc.hmono (show 1 ≤ 14 by omega) (by omega)
  have := hc.first
  unfold InMonth
  push_cast at h12 h14
  simp only [Nat.reduceAdd]
  omega

/-- C18: with terms and new moons near their mean places, the leap month of a thirteen-month year is exactly the first
month after the solstice month that contains no major term. -/
theorem c18_leap_first (z h : ℕ → ℤ) (hc : Consistent z h) (hz : NearMean z) (hm : MoonsNear h) (h13 : InMonth h 13 (z 24)) :
    ∃ l num, monthNumbers (tab 25 z) (tab 15 h) = some (l, num) ∧ 1 ≤ l ∧ l ≤ 12 ∧ ¬ HasMajor z h l ∧ ∀ j, 1 ≤ j → j < l → HasMajor z h j := by
  obtain ⟨l, num, e, -, h2⟩ := c18_leap z h hc
  obtain ⟨a1, a2, a3, a4, -⟩ := h2 h13
  refine ⟨l, num, e, a1, a2, a3, ?_⟩
  have late : ∀ k, k ≤ 12 → h k < z (2 * k) := by
    intro k hk
    have b1 := abs_le.mp (hz.near 24 (le_refl _))
    have b2 := abs_le.mp (hz.near (2 * k) (by omega))
    have b3 := abs_le.mp (hm k 13 (by omega) (by omega))
    have b4 : ((h 13 : ℤ) : ℚ) ≤ z 24 := by exact_mod_cast h13.1
    have hkq : (k : ℚ) ≤ 12 := by exact_mod_cast hk
    have hk0 : (0 : ℚ) ≤ k := by positivity
    have : ((h k : ℤ) : ℚ) < z (2 * k) := by
      push_cast at b1 b2 b3
      linarith [b1.1, b1.2, b2.1, b2.2, b3.1, b3.2]
    exact_mod_cast this
  intro j hj hl
  have hlt : z (2 * j) < h (j + 1) := by
    by_contra hcon
    apply hcon
    -- otherwise the search would have stopped at `j`
    unfold monthNumbers at e
    rw [tab_get 15 h 13 (by omega), tab_get 25 z 24 (by omega)] at e
    simp only [Option.bind_eq_bind, Option.bind_some] at e
    rw [if_pos h13.1] at e
    obtain ⟨l', e', c1, c2, c3, c4⟩ := findLeap_spec z h h13.1 14 1 (by omega) (by omega) (by omega)
    rw [e'] at e
    simp only [Option.bind_some, Option.pure_def, Option.some.injEq, Prod.mk.injEq] at e
    exact c4 j hj (by omega)
  exact ⟨j, by omega, (late j (by omega)).le, hlt⟩

/-- C18: outside the four historical periods a month has the usual name of its number. -/
theorem c18_name (Dm : ℤ) (v : ℕ) (h : ¬ SpecialDate Dm) : monthName Dm v = some (usualName v) := by
  have hv : v % 12 < 12 := Nat.mod_lt _ (by norm_num)
  have e : strYmc[v % 12]? = some (usualName v) := by
    unfold usualName strYmc
    generalize v % 12 = x at hv ⊢
    interval_cases x <;> rfl
  unfold monthName
  unfold SpecialDate at h
  rw [e]
  simp only [Option.bind_eq_bind, Option.bind_some]
  rw [if_neg (by omega), if_neg (by omega), if_neg (by omega), if_neg (by omega)]
  simp only [Option.bind_some]
  rw [if_neg (by omega)]; rfl

/-- C18: the names in the four historical periods.  In 8–23 AD and 237–239 the first month was the one before the usual one (each name moved by one), in 761–762 two months before (moved by two), in 689–700 the
month after the solstice month was called 正 and the usual first month 一; the month in which each of the first two periods ends is called 拾贰. -/
theorem c18_name_historic (Dm : ℤ) (v : ℕ) :
    ((1724360 ≤ Dm ∧ Dm < 1729794) ∨ (1807724 ≤ Dm ∧ Dm < 1808699) → monthName Dm v = some (usualName (v + 1))) ∧
    (1999349 ≤ Dm ∧ Dm ≤ 1999467 → monthName Dm v = some (usualName (v + 2))) ∧
    (1973067 ≤ Dm ∧ Dm ≤ 1977052 → monthName Dm v = some (if v % 12 = 0 then "正" else if v = 2 then "一" else usualName v)) ∧
    (Dm = 1729794 ∨ Dm = 1808699 → monthName Dm v = some "拾贰") := by
  have e : ∀ v : ℕ, strYmc[v % 12]? = some (usualName v) := by
    intro v
    have hv : v % 12 < 12 := Nat.mod_lt _ (by norm_num)
    unfold usualName strYmc
    generalize v % 12 = x at hv ⊢
    interval_cases x <;> rfl
  unfold monthName
  rw [e v, e (v + 1), e (v + 2)]
  simp only [Option.bind_eq_bind, Option.bind_some]
  refine ⟨fun h => ?_, fun h => ?_, fun h => ?_, fun h => ?_⟩
  · by_cases h1 : 1724360 ≤ Dm ∧ Dm ≤ 1729794
    · rw [if_pos h1, Option.bind_some, if_neg (by omega)]; rfl
    · rw [if_neg h1, if_pos (by omega), Option.bind_some, if_neg (by omega)]; rfl
  · rw [if_neg (by omega), if_neg (by omega), if_pos (by omega), Option.bind_some, if_neg (by omega)]; rfl
  · rw [if_neg (by omega), if_neg (by omega), if_neg (by omega), if_pos (by omega), Option.bind_some, if_neg (by omega)]
    by_cases h0 : v % 12 = 0
    · rw [if_pos h0, if_pos h0, if_neg (by omega)]; rfl
    · rw [if_neg h0, if_neg h0]; rfl
  · by_cases h1 : 1724360 ≤ Dm ∧ Dm ≤ 1729794
    · rw [if_pos h1, Option.bind_some, if_pos h]; rfl
    · rw [if_neg h1, if_pos (by omega), Option.bind_some, if_pos h]; rfl

/-- month number 0 (usually 十一) in the year 10 is called 腊 -/
example : monthName 1725000 0 = some "腊" := (c18_name_historic 1725000 0).1 (by norm_num)

theorem ymc_cases {x : ℕ} {s : String} (h : strYmc[x]? = some s) : s ∈ strYmc := List.mem_of_getElem? h

/-- C18: the names a month can get; 冬 is not among them (see `c16_laba_missing`) -/
theorem c18_name_set (Dm : ℤ) (v : ℕ) (s : String) (h : monthName Dm v = some s) :
    s ∈ ["十一","腊","正","二","三","四","五","六","七","八","九","十","一","拾贰"] := by
  have sub : ∀ {x : ℕ} {s : String}, strYmc[x]? = some s → s ∈ ["十一","腊","正","二","三","四","五","六","七","八","九","十","一","拾贰"] := by
    intro x s hs
    have := ymc_cases hs
    unfold strYmc at this
    exact List.mem_append_left ["一","拾贰"] this
  unfold monthName at h
  simp only [Option.bind_eq_bind] at h
  obtain ⟨mc, hmc, h⟩ := Option.bind_eq_some_iff.mp h
  obtain ⟨mc2, hmc2, h⟩ := Option.bind_eq_some_iff.mp h
  simp only [Option.pure_def, Option.some.injEq] at h
  by_cases hd : Dm = 1729794 ∨ Dm = 1808699
  · rw [if_pos hd] at h; subst h; simp
  · rw [if_neg hd] at h
    subst h
    split_ifs at hmc2
    · exact sub hmc2
    · exact sub hmc2
    · exact sub hmc2
    · simp only [Option.some.injEq] at hmc2
      subst hmc2; simp
    · simp only [Option.some.injEq] at hmc2
      subst hmc2; simp
    · simp only [Option.some.injEq] at hmc2
      subst hmc2; exact sub hmc
    · simp only [Option.some.injEq] at hmc2
      subst hmc2; exact sub hmc

/-- in an ancient year the month names are taken from the same list, with 十三 and 后九 for the intercalary month -/
theorem c18_ancient_name_set (ns : List (ℤ × ℕ × ℕ)) (hh : ℤ) (s : String) (h : ancientName ns hh = some s) :
    s ∈ ["十一","腊","正","二","三","四","五","六","七","八","九","十","十三","后九"] := by
  unfold ancientName at h
  simp only [Option.bind_eq_bind] at h
  obtain ⟨e, he, h⟩ := Option.bind_eq_some_iff.mp h
  obtain ⟨f, hf, h⟩ := Option.bind_eq_some_iff.mp h
  split_ifs at h
  · unfold cget at h
    split_ifs at h
    exact List.mem_append_left ["十三","后九"] (ymc_cases h)
  · have := List.mem_of_getElem? h
    simp only [List.mem_cons, List.not_mem_nil, or_false] at this
    rcases this with rfl | rfl <;> simp

/-! ## C19 -/

theorem int2_between (a : ℤ) (c : ℚ) (t : ℤ) (hc : 1 ≤ c) (h1 : ((t : ℚ) - 1) * c ≤ a) (h2 : (a : ℚ) ≤ ((t : ℚ) + 1 - 1/100) * c) (ht : |t| ≤ 1000000) :
    int2 ((a : ℚ) ⊘ c) = some (t - 1) ∨ int2 ((a : ℚ) ⊘ c) = some t := by
  have hc0 : 0 < c := by linarith
  have ht' := abs_le.mp ht
  have htq1 : (-1000000 : ℚ) ≤ t := by exact_mod_cast ht'.1
  have htq2 : (t : ℚ) ≤ 1000000 := by exact_mod_cast ht'.2
  have l1 : (((t - 1 : ℤ)) : ℚ) ≤ (a : ℚ) / c := by rw [le_div_iff₀ hc0]; push_cast; exact h1
  have l2 : (a : ℚ) / c ≤ (t : ℚ) + 1 - 1/100 := by rw [div_le_iff₀ hc0]; exact h2
  have r1 : (((t - 1 : ℤ)) : ℚ) ≤ rnd ((a : ℚ) / c) := rnd_int_le (by rw [abs_le]; constructor <;> omega) l1
  have hb : |(a : ℚ) / c| ≤ 1000001 := by
    rw [abs_le]; push_cast at l1
    constructor <;> linarith
  have r2 := abs_le.mp (rnd_err1 hb (by norm_num))
  have r3 : rnd ((a : ℚ) / c) < (t : ℚ) + 1 := by
    have : (1000001 : ℚ) / 9007199254740992 < 1/100 := by norm_num
    linarith [r2.2]
  have f1 : t - 1 ≤ ⌊rnd ((a : ℚ) / c)⌋ := Int.le_floor.mpr r1
  have f2 : ⌊rnd ((a : ℚ) / c)⌋ < t + 1 := Int.floor_lt.mpr (by push_cast; exact r3)
  unfold int2 fdiv
  rcases (show ⌊rnd ((a : ℚ) / c)⌋ = t - 1 ∨ ⌊rnd ((a : ℚ) / c)⌋ = t by omega) with e | e
  · left; rw [e, i32_some (by omega) (by omega)]
  · right; rw [e, i32_some (by omega) (by omega)]

/-- a day lies in one of the months -/
theorem exists_month (h : ℕ → ℤ) (n : ℕ) (d : ℤ) (h0 : h 0 ≤ d) (hn : d < h n) : ∃ k, k < n ∧ InMonth h k d := by
  induction n with
  | zero => omega
  | succ n ih =>
    by_cases hd : d < h n
    · obtain ⟨k, hk, hk'⟩ := ih hd
      exact ⟨k, by omega, hk'⟩
    · exact ⟨n, by omega, by omega, hn⟩

/-- C19: the estimate by division with one correction step finds the month of the day: for every day of the
fourteen months, and the offset in the month is 0..29, inside the table of day names. -/
theorem c19_month (z h : ℕ → ℤ) (hc : Consistent z h) (d : ℤ) (h0 : h 0 ≤ d) (h14 : d < h 14) :
    ∃ k : ℕ, k < 14 ∧ monthIndex (tab 15 h) d = some (k : ℤ) ∧ InMonth h k d ∧
      ∃ s, cget Fest.strRmc (d - h k) = some s ∧ s = Fest.strRmc[(d - h k).toNat]?.getD "" ∧ d - h k < h (k + 1) - h k ∧ d - h k < 30 := by
  obtain ⟨k, hk, hin⟩ := exists_month h 14 d h0 h14
  obtain ⟨b1, b2⟩ := hin
  have m1 := hc.hmono (show 0 ≤ k by omega) (by omega)
  have m2 := hc.hmono (show 0 ≤ k + 1 by omega) (by omega)
  have mk := hc.hmono (show k ≤ k + 1 by omega) (by omega)
  push_cast at m1 m2 mk
  have q1 : ((k : ℚ) - 1) * 30 ≤ ((d - h 0 : ℤ) : ℚ) := by
    have : ((k : ℤ) - 1) * 30 ≤ d - h 0 := by omega
    exact_mod_cast this
  have q2 : ((d - h 0 : ℤ) : ℚ) ≤ ((k : ℚ) + 1 - 1/100) * 30 := by
    have : (d - h 0) ≤ 30 * (k : ℤ) + 29 := by omega
    have : ((d - h 0 : ℤ) : ℚ) ≤ 30 * (k : ℚ) + 29 := by exact_mod_cast this
    linarith
  refine ⟨k, hk, ?_, ⟨b1, b2⟩, ?_⟩
  · unfold monthIndex
    rw [tab_get 15 h 0 (by omega)]
    simp only [Option.bind_eq_bind, Option.bind_some]
    rcases int2_between (d - h 0) 30 (k : ℤ) (by norm_num) (by push_cast at q1 ⊢; exact q1) (by push_cast at q2 ⊢; exact q2)
      (by rw [abs_le]; constructor <;> omega) with e | e
    · rw [e]
      simp only [Option.bind_some]
      -- the estimate is one too small; it is non-negative or the correction reads `HS[0]`
      rw [if_pos (by omega), tab_cget 15 h _ (by omega) (by push_cast; omega)]
      simp only [Option.bind_some]
      rw [show ((k : ℤ) - 1 + 1).toNat = k by omega, if_pos b1]
      simp
    · rw [e]
      simp only [Option.bind_some]
      by_cases hk13 : (k : ℤ) < 13
      · rw [if_pos hk13, tab_cget 15 h _ (by omega) (by push_cast; omega)]
        simp only [Option.bind_some]
        rw [show ((k : ℤ) + 1).toNat = k + 1 by omega, if_neg (by omega)]
        rfl
      · rw [if_neg hk13]; rfl
  · have hlt : d - h k < 30 := by omega
    refine ⟨_, ?_, rfl, by omega, hlt⟩
    unfold cget
    rw [if_pos (by omega)]
    have : (d - h k).toNat < Fest.strRmc.length := by
      have : Fest.strRmc.length = 30 := by decide
      omega
    rw [List.getElem?_eq_getElem this]; rfl

/-! ## C20 -/

theorem c1521 : (152183999/10000000 : ℚ) ≤ rnd (152184/10000) ∧ rnd (152184/10000) ≤ (152184001/10000000 : ℚ) := by decide +kernel
theorem c3043 : (304368499/10000000 : ℚ) ≤ rnd (3043685/100000) ∧ rnd (3043685/100000) ≤ (304368501/10000000 : ℚ) := by decide +kernel

theorem NearMean.zmono {z : ℕ → ℤ} (hz : NearMean z) {i j : ℕ} (hij : i < j) (hj : j ≤ 24) : z i < z j := by
  induction j with
  | zero => omega
  | succ j ih =>
    by_cases he : i = j
    · rw [he]; exact hz.terms j (by omega)
    · exact lt_trans (ih (by omega) (by omega)) (hz.terms j (by omega))

theorem exists_step (f : ℕ → ℤ) (n : ℕ) (d : ℤ) (h0 : f 0 ≤ d) (hn : d < f n) : ∃ k, k < n ∧ f k ≤ d ∧ d < f (k + 1) :=
  exists_month f n d h0 hn

/-- C20: for every day from one solstice to the next, the estimate with one correction finds the last solar term at or
before the day, and so the term name shown is that of the term falling on the day, and empty on other days. -/
theorem c20_term (z : ℕ → ℤ) (hz : NearMean z) (d : ℤ) (h0 : z 0 ≤ d) (h24 : d < z 24) :
    ∃ k : ℕ, k < 24 ∧ z k ≤ d ∧ d < z (k + 1) ∧ termIndex (tab 25 z) d = some (k : ℤ) ∧
      ((∃ j, j < 24 ∧ d = z j) ↔ d = z k) := by
  obtain ⟨k, hk, b1, b2⟩ := exists_step z 24 d h0 h24
  have n1 := abs_le.mp (hz.near k (by omega))
  have n2 := abs_le.mp (hz.near (k + 1) (by omega))
  obtain ⟨c1, c2⟩ := c1521
  have hkq : (k : ℚ) ≤ 23 := by exact_mod_cast (by omega : k ≤ 23)
  have hk0 : (0 : ℚ) ≤ k := by positivity
  have b1q : ((z k : ℤ) : ℚ) ≤ d := by exact_mod_cast b1
  have b2q : ((d : ℤ) : ℚ) + 1 ≤ z (k + 1) := by exact_mod_cast b2
  push_cast at n1 n2
  refine ⟨k, hk, b1, b2, ?_, ?_⟩
  · unfold termIndex
    rw [tab_get 25 z 0 (by omega)]
    simp only [Option.bind_eq_bind, Option.bind_some]
    rcases int2_between (d - z 0 - 7) (rnd (152184/10000)) (k : ℤ) (by linarith)
      (by push_cast; nlinarith [n1.1, n1.2, mul_nonneg hk0 (sub_nonneg.mpr c2), mul_nonneg hk0 (sub_nonneg.mpr c1)])
      (by push_cast; nlinarith [n2.1, n2.2, mul_nonneg hk0 (sub_nonneg.mpr c2), mul_nonneg hk0 (sub_nonneg.mpr c1)])
      (by rw [abs_le]; constructor <;> omega) with e | e
    · rw [e]
      simp only [Option.bind_some]
      rw [if_pos (by omega), tab_cget 25 z _ (by omega) (by push_cast; omega)]
      simp only [Option.bind_some]
      rw [show ((k : ℤ) - 1 + 1).toNat = k by omega, if_pos b1]
      simp
    · rw [e]
      simp only [Option.bind_some]
      by_cases hk23 : (k : ℤ) < 23
      · rw [if_pos hk23, tab_cget 25 z _ (by omega) (by push_cast; omega)]
        simp only [Option.bind_some]
        rw [show ((k : ℤ) + 1).toNat = k + 1 by omega, if_neg (by omega)]
        rfl
      · rw [if_neg hk23]; rfl
  · constructor
    · rintro ⟨j, hj, rfl⟩
      rcases lt_trichotomy j k with h | h | h
      · have := hz.zmono h (by omega); omega
      · rw [h]
      · by_cases hjk : j = k + 1
        · subst hjk; omega
        · have := hz.zmono (show k + 1 < j by omega) (by omega); omega
    · intro h; exact ⟨k, hk, h⟩

/-- C20: the month of the sexagenary count changes exactly on the minor terms (小寒, 立春, 惊蛰, …, 大雪): its number since
the solstice is the number of minor terms `z 1, z 3, …, z 23` up to and including the day. -/
theorem c20_pillarMonth (z : ℕ → ℤ) (hz : NearMean z) (d : ℤ) (h0 : z 0 ≤ d) (h24 : d < z 24) :
    ∃ k : ℕ, k ≤ 12 ∧ pillarMonth (tab 25 z) d = some (k : ℤ) ∧ (1 ≤ k → z (2 * k - 1) ≤ d) ∧ (k < 12 → d < z (2 * k + 1)) := by
  obtain ⟨k, hk, b1, b2⟩ := exists_step (fun j => if j = 0 then z 0 else if j = 13 then z 24 else z (2 * j - 1)) 13 d (by simpa using h0) (by simpa using h24)
  have b1' : 1 ≤ k → z (2 * k - 1) ≤ d := by
    intro h1
    rw [if_neg (by omega), if_neg (by omega)] at b1; exact b1
  have b2' : k < 12 → d < z (2 * k + 1) := by
    intro h1
    rw [if_neg (by omega), if_neg (by omega)] at b2
    rwa [show 2 * (k + 1) - 1 = 2 * k + 1 by omega] at b2
  obtain ⟨c1, c2⟩ := c3043
  have hkq : (k : ℚ) ≤ 12 := by exact_mod_cast (by omega : k ≤ 12)
  have hk0 : (0 : ℚ) ≤ k := by positivity
  have lo : ((k : ℚ) - 1) * rnd (3043685/100000) ≤ ((d - z 0 : ℤ) : ℚ) := by
    by_cases h1 : 1 ≤ k
    · have n1 := abs_le.mp (hz.near (2 * k - 1) (by omega))
      have : ((z (2 * k - 1) : ℤ) : ℚ) ≤ d := by exact_mod_cast b1' h1
      rw [Nat.cast_sub (by omega)] at n1
      have hk1 : (0:ℚ) ≤ k - 1 := by have : (1:ℚ) ≤ k := by exact_mod_cast h1
                                     linarith
      push_cast at n1 ⊢
      nlinarith [n1.1, mul_nonneg hk1 (sub_nonneg.mpr c2)]
    · have hk' : k = 0 := by omega
      subst hk'
      have : ((z 0 : ℤ) : ℚ) ≤ d := by exact_mod_cast h0
      push_cast
      nlinarith
  have hi : ((d - z 0 : ℤ) : ℚ) ≤ ((k : ℚ) + 1 - 1/100) * rnd (3043685/100000) := by
    by_cases h1 : k < 12
    · have n2 := abs_le.mp (hz.near (2 * k + 1) (by omega))
      have : ((d : ℤ) : ℚ) ≤ z (2 * k + 1) := by exact_mod_cast (b2' h1).le
      push_cast at n2 ⊢
      nlinarith [n2.2, mul_nonneg hk0 (sub_nonneg.mpr c1)]
    · have hk' : k = 12 := by omega
      subst hk'
      have n2 := abs_le.mp (hz.near 24 (by omega))
      have : ((d : ℤ) : ℚ) ≤ z 24 := by exact_mod_cast h24.le
      push_cast at n2 ⊢
      nlinarith [n2.2]
  refine ⟨k, by omega, ?_, b1', b2'⟩
  unfold pillarMonth
  rw [tab_get 25 z 0 (by omega)]
  simp only [Option.bind_eq_bind, Option.bind_some]
  rcases int2_between (d - z 0) (rnd (3043685/100000)) (k : ℤ) (by linarith) (by exact_mod_cast lo) (by exact_mod_cast hi)
      (by rw [abs_le]; constructor <;> omega) with e | e
  · rw [e]
    simp only [Option.bind_some]
    by_cases h1 : 1 ≤ k
    · rw [if_pos (by omega), tab_cget 25 z _ (by omega) (by push_cast; omega)]
      simp only [Option.bind_some]
      rw [show (2 * ((k : ℤ) - 1) + 1).toNat = 2 * k - 1 by omega, if_pos (b1' h1)]
      simp
    · -- the estimate is never negative
      exfalso
      have hk' : k = 0 := by omega
      subst hk'
      have hpos : (0:ℚ) ≤ ((d - z 0 : ℤ) : ℚ) := by
        have : 0 ≤ d - z 0 := by omega
        exact_mod_cast this
      have hr := rnd_nonneg (div_nonneg hpos (by linarith : (0:ℚ) ≤ rnd (3043685/100000)))
      have hf := Int.floor_nonneg.mpr hr
      unfold int2 fdiv i32 at e
      split_ifs at e
      simp only [Option.some.injEq] at e
      omega
  · rw [e]
    simp only [Option.bind_some]
    by_cases h1 : (k : ℤ) < 12
    · rw [if_pos h1, tab_cget 25 z _ (by omega) (by push_cast; omega)]
      simp only [Option.bind_some]
      rw [show (2 * (k : ℤ) + 1).toNat = 2 * k + 1 by omega, if_neg (by have := b2' (by omega); omega)]
      rfl
    · rw [if_neg h1]; rfl

/-- C20: the zodiac sign changes exactly on the major terms: sign `k` from `z (2k)` to the day before `z (2k+2)`. -/
theorem c20_zodiac (z : ℕ → ℤ) (hz : NearMean z) (d : ℤ) (h0 : z 0 ≤ d) (h24 : d < z 24) :
    ∃ k : ℕ, k < 12 ∧ zodiacMonth (tab 25 z) d = some (k : ℤ) ∧ z (2 * k) ≤ d ∧ d < z (2 * (k + 1)) := by
  obtain ⟨k, hk, b1, b2⟩ := exists_step (fun j => z (2 * j)) 12 d h0 h24
  obtain ⟨c1, c2⟩ := c3043
  have hkq : (k : ℚ) ≤ 11 := by exact_mod_cast (by omega : k ≤ 11)
  have hk0 : (0 : ℚ) ≤ k := by positivity
  have n1 := abs_le.mp (hz.near (2 * k) (by omega))
  have n2 := abs_le.mp (hz.near (2 * (k + 1)) (by omega))
  have b1q : ((z (2 * k) : ℤ) : ℚ) ≤ d := by exact_mod_cast b1
  have b2q : ((d : ℤ) : ℚ) ≤ z (2 * (k + 1)) := by exact_mod_cast b2.le
  push_cast at n1 n2
  refine ⟨k, hk, ?_, b1, b2⟩
  unfold zodiacMonth
  rw [tab_get 25 z 0 (by omega)]
  simp only [Option.bind_eq_bind, Option.bind_some]
  rcases int2_between (d - z 0 - 15) (rnd (3043685/100000)) (k : ℤ) (by linarith)
      (by push_cast; nlinarith [n1.1, n1.2, mul_nonneg hk0 (sub_nonneg.mpr c2), mul_nonneg hk0 (sub_nonneg.mpr c1)])
      (by push_cast; nlinarith [n2.1, n2.2, mul_nonneg hk0 (sub_nonneg.mpr c2), mul_nonneg hk0 (sub_nonneg.mpr c1)])
      (by rw [abs_le]; constructor <;> omega) with e | e
  · rw [e]
    simp only [Option.bind_some]
    rw [if_pos (by omega), tab_cget 25 z _ (by omega) (by push_cast; omega)]
    simp only [Option.bind_some]
    rw [show (2 * ((k : ℤ) - 1) + 2).toNat = 2 * k by omega, if_pos b1]
    simp
  · rw [e]
    simp only [Option.bind_some]
    by_cases h1 : (k : ℤ) < 11
    · rw [if_pos h1, tab_cget 25 z _ (by omega) (by push_cast; omega)]
      simp only [Option.bind_some]
      rw [show (2 * (k : ℤ) + 2).toNat = 2 * (k + 1) by omega, if_neg (by omega)]
      rfl
    · rw [if_neg h1]; rfl

/-! ## A concrete year: 22 December 2022 to 22 December 2023, with a leap second month -/

def zq2023 : ℕ → ℤ := fun k => ([8391, 8405, 8420, 8435, 8450, 8465, 8480, 8495, 8510, 8526, 8541, 8557, 8572, 8588, 8604, 8620, 8635, 8651, 8666, 8681, 8697, 8712, 8726, 8741, 8756] : List ℤ)[k]?.getD 0
def hs2023 : ℕ → ℤ := fun k => ([8363, 8392, 8422, 8451, 8481, 8510, 8540, 8569, 8599, 8628, 8658, 8688, 8717, 8747, 8776] : List ℤ)[k]?.getD 0

theorem consistent2023 : Consistent zq2023 hs2023 := by
  refine ⟨by decide, ?_, by decide⟩
  have : ∀ i j : Fin 15, i ≤ j → 29 * ((j.val : ℤ) - i.val) - 1 ≤ hs2023 j.val - hs2023 i.val ∧ hs2023 j.val - hs2023 i.val ≤ 30 * ((j.val : ℤ) - i.val) := by decide +kernel
  intro i j hij hj
  exact this ⟨i, by omega⟩ ⟨j, by omega⟩ hij

theorem near2023 : NearMean zq2023 := by
  refine ⟨by decide, ?_⟩
  intro k hk
  have : ∀ k : Fin 25, |((zq2023 k.val - zq2023 0 : ℤ) : ℚ) - 152184/10000 * ((k.val : ℕ) : ℚ)| ≤ 7 := by decide +kernel
  exact this ⟨k, by omega⟩

theorem moonsNear2023 : MoonsNear hs2023 := by
  have : ∀ i j : Fin 15, |((hs2023 j.val - hs2023 i.val : ℤ) : ℚ) - 295306/10000 * (((j.val : ℕ) : ℚ) - ((i.val : ℕ) : ℚ))| ≤ 3 := by decide +kernel
  intro i j hij hj
  exact this ⟨i, by omega⟩ ⟨j, by omega⟩

example : InMonth hs2023 13 (zq2023 24) ∧ (monthNumbers (tab 25 zq2023) (tab 15 hs2023)).map (·.1) = some 4 ∧
    monthName (hs2023 4 + 2451545) 3 = some "二" ∧ monthIndex (tab 15 hs2023) 8481 = some 4 ∧ termIndex (tab 25 zq2023) 8495 = some 7 := by
  unfold InMonth; decide +kernel

end Verif.Lunar
