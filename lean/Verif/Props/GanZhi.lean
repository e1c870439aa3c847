import Verif.GanZhiSpec
import Verif.CalendarFp
import Verif.MonthLemmas

/-! # Properties C11-C12: sexagenary names -/

namespace Verif.GanZhi
open Verif.Fp

theorem cget_gan (i : ℤ) (h0 : 0 ≤ i) (h1 : i < 10) : cget strGan i = some ((strGan[i.toNat]?).getD "") := by
  interval_cases i <;> rfl

theorem cget_zhi (i : ℤ) (h0 : 0 ≤ i) (h1 : i < 12) : cget strZhi i = some ((strZhi[i.toNat]?).getD "") := by
  interval_cases i <;> rfl

theorem pillar_eq (v : ℤ) (h : 0 ≤ v) : pillar v = some (name60 v) := by
  unfold pillar
  rw [Int.tmod_eq_emod_of_nonneg h, Int.tmod_eq_emod_of_nonneg h,
    cget_gan _ (by omega) (by omega), cget_zhi _ (by omega) (by omega)]
  rfl

theorem nameOf_congr {g g' z z' : ℤ} (h1 : g % 10 = g' % 10) (h2 : z % 12 = z' % 12) : nameOf g z = nameOf g' z' := by
  unfold nameOf; rw [h1, h2]

/-! ## C11 -/

/-- C11: the day names run through the cycle of sixty, one step per day, from the day
-8999994 (24641 BC) up to the limit of `int`. -/
theorem c11_dayName_cycle (d0 : ℤ) (h1 : -8999994 ≤ d0) (h2 : d0 ≤ 2138483653) :
    dayName d0 = some (name60 (d0 - 6)) := by
  unfold dayName
  rw [i32_some (by omega) (by omega)]
  simp only [Option.bind_eq_bind, Option.bind_some]
  rw [i32_some (by omega) (by omega)]
  simp only [Option.bind_some]
  rw [pillar_eq _ (by omega)]
  congr 1
  exact nameOf_congr (by omega) (by omega)

/-- C11 (names): the sixty names of sixty consecutive days are distinct, and day `d0 + 60` has the name of `d0`. -/
theorem c11_dayName_period (d e : ℤ) (h1 : -8999994 ≤ d) (h2 : d ≤ 2138483653) (h3 : -8999994 ≤ e) (h4 : e ≤ 2138483653) :
    dayName d = dayName e ↔ d % 60 = e % 60 := by
  rw [c11_dayName_cycle d h1 h2, c11_dayName_cycle e h3 h4, Option.some.injEq]
  constructor
  · intro h
    have key : ∀ a b : Fin 60, name60 a.val = name60 b.val → a = b := by decide +kernel
    have red : ∀ n : ℤ, name60 n = name60 ((((n % 60).toNat : ℕ)) : ℤ) := by
      intro n; exact nameOf_congr (by omega) (by omega)
    rw [red (d - 6), red (e - 6)] at h
    have := key ⟨((d - 6) % 60).toNat, by omega⟩ ⟨((e - 6) % 60).toNat, by omega⟩ h
    simp only [Fin.mk.injEq] at this
    omega
  · intro h
    exact nameOf_congr (by omega) (by omega)

/-- C11 anchor: 2000-01-07 (day 6) is 甲子. -/
theorem c11_dayName_anchor : dayName 6 = some "甲子" := by decide

/-- one day earlier than the range the code indexes the name table with -1 -/
theorem c11_below_undefined : dayName (-8999995) = none := by decide

example : dayName 0 = some "戊午" ∧ dayName (-8999994) = some "甲子" := by decide

/-! ## C12 -/

theorem hourTable_eq (t SC : ℤ) (js0 : String) (h0 : 0 ≤ t) (h1 : t ≤ 2147483000) (hs0 : 0 ≤ SC) (hs1 : SC ≤ 12) :
    hourTable t SC js0 = some ((List.range 13).map (fun i : ℕ => (name60 (t + i), decide (SC = (i:ℤ)))), name60 (t + SC)) := by
  unfold hourTable
  rw [Verif.Cal.mapM_some _ (fun i : ℕ => (name60 (t + i), decide (SC = (i:ℤ))))]
  · simp only [Option.bind_eq_bind, Option.bind_some, Option.pure_def, Option.some.injEq, Prod.mk.injEq, true_and]
    interval_cases SC <;> simp [List.range_succ, List.find?]
  · intro i hi
    have hi : i < 13 := by simpa using hi
    rw [i32_some (by omega) (by omega)]
    simp only [Option.bind_eq_bind, Option.bind_some]
    rw [pillar_eq _ (by omega)]
    rfl

theorem fiveRats_eq (n : ℤ) : fiveRats n = 2 * (n % 5) := by
  have h5 : n % 5 = 0 ∨ n % 5 = 1 ∨ n % 5 = 2 ∨ n % 5 = 3 ∨ n % 5 = 4 := by omega
  unfold fiveRats
  rcases h5 with h | h | h | h | h <;> rw [h] <;> rfl

theorem fiveTigers_mod (n : ℤ) : fiveTigers n % 10 = (2 * n + 2) % 10 := by
  have h5 : n % 5 = 0 ∨ n % 5 = 1 ∨ n % 5 = 2 ∨ n % 5 = 3 ∨ n % 5 = 4 := by omega
  have : fiveTigers n = if n % 5 = 4 then 0 else 2 * (n % 5) + 2 := by
    unfold fiveTigers
    rcases h5 with h | h | h | h | h <;> rw [h] <;> rfl
  rw [this]; split_ifs <;> omega

theorem frac_le (jd : ℚ) (hjd : IsDouble jd) :
    let q := rnd (jd + rnd (13/24))
    q - ⌊q⌋ ≤ 1 - 1/2^53 := by
  intro q
  have hqd : IsDouble q := rnd_isDouble _
  have hD1 : (⌊q⌋:ℚ) ≤ q := Int.floor_le q
  have hD2 : q < ⌊q⌋ + 1 := Int.lt_floor_add_one q
  have big : 1/2 ≤ |q| → q - ⌊q⌋ ≤ 1 - 1/2^53 := by
    intro h
    obtain ⟨k, hk⟩ := hqd.multiple (-53) (by norm_num; linarith)
    have hk' : q = k / 2^53 := by rw [hk]; norm_num; ring
    have : k < (⌊q⌋ + 1) * 2^53 := by
      rw [hk', div_lt_iff₀ (by norm_num)] at hD2
      rw [← hk'] at hD2
      exact_mod_cast hD2
    have h2 : k ≤ (⌊q⌋ + 1) * 2^53 - 1 := by omega
    have h3 : (k:ℚ) ≤ (⌊q⌋ + 1) * 2^53 - 1 := by exact_mod_cast h2
    have h4 : q ≤ ((⌊q⌋ + 1) * 2^53 - 1) / 2^53 := by
      conv_lhs => rw [hk']
      exact div_le_div_of_nonneg_right h3 (by norm_num)
    have : ((⌊q⌋ + 1 : ℚ) * 2^53 - 1) / 2^53 = ⌊q⌋ + 1 - 1/2^53 := by ring
    linarith
  by_cases h0 : 0 ≤ q
  · by_cases h1 : 1/2 ≤ q
    · exact big (by rw [abs_of_nonneg h0]; exact h1)
    · have : (0:ℚ) ≤ ⌊q⌋ := by exact_mod_cast Int.floor_nonneg.mpr h0
      have e : (1:ℚ)/2^53 ≤ 1/2 := by norm_num
      linarith
  · by_cases h1 : q ≤ -1/2
    · exact big (by rw [abs_of_neg (by linarith)]; linarith)
    · have c1 : (1/2 : ℚ) ≤ rnd (13/24) := by decide +kernel
      have hneg : jd + rnd (13/24) < 0 := by
        by_contra hcon
        exact h0 (rnd_nonneg (by linarith))
      have hj : 1/2 ≤ |jd| := by rw [abs_of_neg (by linarith)]; linarith
      obtain ⟨k, hk⟩ := hjd.multiple (-53) (by norm_num; linarith)
      obtain ⟨l, hl⟩ := (rnd_isDouble (13/24)).multiple (-53) (by rw [abs_of_nonneg (by linarith)]; norm_num; linarith)
      have hs : jd + rnd (13/24) = ((k + l : ℤ) : ℚ) / 2^53 := by
        rw [hl]; conv_lhs => rw [hk]
        push_cast; norm_num; ring
      have hkl : k + l ≤ -1 := by
        rw [hs, div_lt_iff₀ (by norm_num)] at hneg
        have : ((k + l : ℤ):ℚ) < 0 := by linarith
        have : k + l < 0 := by exact_mod_cast this
        omega
      have hle : jd + rnd (13/24) ≤ -1/2^53 := by
        rw [hs]
        have : ((k + l : ℤ):ℚ) ≤ -1 := by exact_mod_cast hkl
        exact div_le_div_of_nonneg_right this (by norm_num)
      have hq : q ≤ -1/2^53 := by
        apply rnd_le_of_double _ hle
        unfold IsDouble; decide +kernel
      have hf : (⌊q⌋:ℚ) = -1 := by
        have : ⌊q⌋ = -1 := by rw [Int.floor_eq_iff]; push_cast; constructor <;> linarith
        rw [this]; norm_num
      rw [hf]; linarith

/-- C12: for every local true solar time in range and every solar-term count, nothing is
undefined, and with `D` the number of the day that began at 23:00 and `SC` the double hour:
* day pillar: `D - 6` in the cycle;
* hour pillar: branch `SC`, stem by the five-rats rule from the day's stem;
* month pillar: branch of the `r`-th month (寅 first), stem by the five-tigers rule from the year's stem;
* the thirteen-entry table lists the consecutive hour pillars, exactly entry `SC` is highlighted, and it is `js`.
`q` is the double nearest to the time counted from 23:00; `SC` is its double hour (up to 2^-48). -/
theorem c12_baZi (k : ℤ) (jd : ℚ) (hjd : IsDouble jd) (hj1 : -7400000 ≤ jd) (hj2 : jd ≤ 100000000)
    (hk1 : -60000000 ≤ k) (hk2 : k ≤ 2000000000) :
    ∃ (b : BaZi) (D SC Y r : ℤ) (q : ℚ), baZi k jd = some b ∧
      |q - (jd + 13/24)| ≤ 1/10000000 ∧ (D:ℚ) ≤ q ∧ q < D + 1 ∧
      0 ≤ SC ∧ SC ≤ 11 ∧ (SC:ℚ) ≤ 12 * (q - D) + 1/2^48 ∧ 12 * (q - D) - 1/2^48 < SC + 1 ∧
      k = 12 * Y + r ∧ 0 ≤ r ∧ r < 12 ∧
      b.jr = name60 (D - 6) ∧
      b.js = nameOf (fiveRats (D - 6) + SC) SC ∧
      b.jn = name60 Y ∧
      b.jy = nameOf (fiveTigers Y + r) (2 + r) ∧
      b.JS = (List.range 13).map (fun i : ℕ => (nameOf (fiveRats (D - 6) + i) i, decide ((i:ℤ) = SC))) := by
  have c1 : (13/24 - 1/10000000000 : ℚ) ≤ rnd (13/24) := by decide +kernel
  have c2 : rnd (13/24) ≤ (13/24 + 1/10000000000 : ℚ) := by decide +kernel
  set c := rnd (13/24) with hc
  have eq0 := rnd_err1 (q := jd + c) (B := 100000001) (by rw [abs_le]; constructor <;> linarith) (by norm_num)
  set q := rnd (jd + c) with hq
  rw [abs_le] at eq0
  set D := ⌊q⌋ with hD
  have hD1 : (D:ℚ) ≤ q := Int.floor_le q
  have hD2 : q < D + 1 := Int.lt_floor_add_one q
  have hDl : -7400001 ≤ D := by
    rw [hD]; apply Int.le_floor.mpr; push_cast; linarith [eq0.1]
  have hDu : D ≤ 100000002 := by
    have : (D:ℚ) ≤ 100000002 := by linarith [eq0.2]
    exact_mod_cast this
  -- the double hour
  have eg := rnd_err1 (q := q - D) (B := 1) (by rw [abs_le]; constructor <;> linarith) (le_refl _)
  have hg0 : ((0:ℤ):ℚ) ≤ rnd (q - D) := rnd_int_le (by norm_num) (by push_cast; linarith)
  have hg1 : rnd (q - D) ≤ ((1:ℤ):ℚ) := rnd_le_int (by norm_num) (by push_cast; linarith)
  set g := rnd (q - D) with hg
  push_cast at hg0 hg1
  have ep := rnd_err1 (q := g * 12) (B := 12) (by rw [abs_le]; constructor <;> linarith) (by norm_num)
  have hp0 : ((0:ℤ):ℚ) ≤ rnd (g * 12) := rnd_int_le (by norm_num) (by push_cast; linarith)
  have hp1 : rnd (g * 12) ≤ ((12:ℤ):ℚ) := rnd_le_int (by norm_num) (by push_cast; linarith)
  set p := rnd (g * 12) with hp
  rw [abs_le] at eg ep
  push_cast at hp0 hp1
  set SC := ⌊p⌋ with hSC
  have hs1 : (SC:ℚ) ≤ p := Int.floor_le p
  have hs2 : p < SC + 1 := Int.lt_floor_add_one p
  have hSC0 : 0 ≤ SC := Int.floor_nonneg.mpr hp0
  have hSC1 : SC ≤ 11 := by
    have hfr := frac_le jd hjd
    simp only at hfr
    rw [← hc, ← hq, ← hD] at hfr
    have hg2 : g ≤ 1 - 1/2^53 := rnd_le_of_double (by unfold IsDouble; decide +kernel) hfr
    have hp2 : p ≤ 12 - 1/2^49 := by
      have h1 : p ≤ rnd ((1 - 1/2^53) * 12) := rnd_mono (by linarith)
      have h2 : rnd ((1 - 1/2^53) * 12) = 12 - 1/2^49 := by decide +kernel
      linarith
    have : (SC:ℚ) < 12 := by
      have : (0:ℚ) < 1/2^49 := by norm_num
      linarith
    have : SC < 12 := by exact_mod_cast this
    omega
  -- the year number
  have hY : int2 (((k:ℚ) ⊘ 12) ⊞ 6000000) = some (k / 12 + 6000000) := by
    apply int2_eq _ (by omega) (by omega)
    have hk1' : (-60000000:ℚ) ≤ k := by exact_mod_cast hk1
    have hk2' : (k:ℚ) ≤ 2000000000 := by exact_mod_cast hk2
    have e1 := rnd_err1 (q := (k:ℚ) / 12) (B := 200000000) (by rw [abs_le]; constructor <;> linarith) (by norm_num)
    by_cases hm : k % 12 = 0
    · have hz : (k:ℚ) / 12 = ((k / 12 : ℤ) : ℚ) := by
        have : k = 12 * (k / 12) := by omega
        rw [div_eq_iff (by norm_num)]
        exact_mod_cast (by omega : k = k / 12 * 12)
      unfold fadd fdiv
      rw [hz, rnd_intCast _ (by rw [abs_le]; constructor <;> omega)]
      rw [show ((k / 12 : ℤ) : ℚ) + 6000000 = ((k / 12 + 6000000 : ℤ) : ℚ) by push_cast; rfl,
        rnd_intCast _ (by rw [abs_le]; constructor <;> omega), Int.floor_intCast]
    · have e2 := rnd_err1 (q := rnd ((k:ℚ) / 12) + 6000000) (B := 300000000)
        (by rw [abs_le] at *; constructor <;> linarith [e1.1, e1.2]) (by norm_num)
      unfold fadd fdiv
      rw [show k / 12 + 6000000 = (k + 72000000) / 12 by omega]
      apply floor_near (k + 72000000) 12 (by norm_num) _ (by omega)
      rw [abs_le] at e1 e2
      rw [abs_lt]
      push_cast
      constructor <;> linarith [e1.1, e1.2, e2.1, e2.2]
  -- reduction of names
  have hrat : ∀ i : ℤ, name60 ((D - 1) * 12 + 90000000 + i) = nameOf (fiveRats (D - 6) + i) i := by
    intro i
    apply nameOf_congr _ (by omega)
    rw [fiveRats_eq]; omega
  have htig : name60 (k + 2 + 60000000) = nameOf (fiveTigers (k / 12) + k % 12) (2 + k % 12) := by
    apply nameOf_congr _ (by omega)
    have := fiveTigers_mod (k / 12)
    omega
  refine ⟨⟨name60 (k / 12 + 6000000), name60 (k + 2 + 60000000), name60 (D - 6 + 9000000),
      name60 ((D - 1) * 12 + 90000000 + SC),
      (List.range 13).map (fun i : ℕ => (name60 ((D - 1) * 12 + 90000000 + i), decide (SC = (i:ℤ))))⟩,
    D, SC, k / 12, k % 12, q, ?_, ?_, hD1, hD2, hSC0, hSC1, ?_, ?_, by omega, by omega, by omega, ?_, ?_, ?_, ?_, ?_⟩
  · unfold baZi fadd fsub fmul
    simp only
    rw [← hc, ← hq]
    have hDi : int2 q = some D := int2_eq rfl (by omega) (by omega)
    rw [hDi]
    simp only [Option.bind_eq_bind, Option.bind_some]
    rw [← hg, ← hp]
    have hSi : int2 p = some SC := int2_eq rfl (by omega) (by omega)
    rw [hSi]
    simp only [Option.bind_some]
    unfold fadd at hY
    rw [hY]
    simp only [Option.bind_some]
    rw [pillar_eq _ (by omega)]
    simp only [Option.bind_some]
    rw [i32_some (by omega) (by omega)]
    simp only [Option.bind_some]
    rw [pillar_eq _ (by omega)]
    simp only [Option.bind_some]
    rw [i32_some (by omega) (by omega)]
    simp only [Option.bind_some]
    rw [pillar_eq _ (by omega)]
    simp only [Option.bind_some]
    rw [i32_some (by omega) (by omega)]
    simp only [Option.bind_some]
    rw [i32_some (by omega) (by omega)]
    simp only [Option.bind_some]
    rw [i32_some (by omega) (by omega)]
    simp only [Option.bind_some]
    rw [pillar_eq _ (by omega)]
    simp only [Option.bind_some]
    rw [hourTable_eq _ _ _ (by omega) (by omega) hSC0 (by omega)]
    rfl
  · rw [abs_le]; constructor <;> linarith [eq0.1, eq0.2]
  · norm_num
    linarith [ep.2, eg.2]
  · norm_num
    linarith [ep.1, eg.1]
  · exact nameOf_congr (by omega) (by omega)
  · exact hrat SC
  · exact nameOf_congr (by omega) (by omega)
  · exact htig
  · apply List.map_congr_left
    intro i _
    rw [hrat]
    simp only [Prod.mk.injEq, true_and, decide_eq_decide]
    exact eq_comm

/-- non-vacuity: J2000 noon with the sun in the 子 month of 己卯 (k = 12·15 + 10) -/
example : (baZi 190 0).map (fun b => (b.jn, b.jy, b.jr, b.js)) = some ("己卯", "丙子", "戊午", "戊午") := by decide +kernel

end Verif.GanZhi
