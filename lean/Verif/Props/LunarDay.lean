import Verif.Props.Lunar

/-!
# Properties C19-C20: the whole lunar record of a day
-/

namespace Verif.Lunar
open Verif.Fp Verif.GanZhi

theorem cYear_bounds : (3652421999/10000000 : ℚ) ≤ cYear ∧ cYear ≤ (3652422001/10000000 : ℚ) := by decide +kernel

theorem rnd_half : rnd (1/2 : ℚ) = 1/2 := by decide +kernel

theorem yearRound_eq (D v : ℤ) (h1 : ((v : ℚ) - 49/100) * (3652422/10000) ≤ D) (h2 : (D : ℚ) ≤ ((v : ℚ) + 49/100) * (3652422/10000)) (hv : |v| ≤ 100000) :
    yearRound D = some v := by
  obtain ⟨c1, c2⟩ := cYear_bounds
  have hc0 : 0 < cYear := by linarith
  have hv' := abs_le.mp hv
  have hv1 : (-100000 : ℚ) ≤ v := by exact_mod_cast hv'.1
  have hv2 : (v : ℚ) ≤ 100000 := by exact_mod_cast hv'.2
  have l1 : (v : ℚ) - 491/1000 ≤ (D : ℚ) / cYear := by
    rw [le_div_iff₀ hc0]
    have : ((v : ℚ) - 491/1000) * (cYear - 3652422/10000) ≤ 100001 * (1/10000000) := by
      have a : |cYear - 3652422/10000| ≤ 1/10000000 := by rw [abs_le]; constructor <;> linarith
      have b : |(v : ℚ) - 491/1000| ≤ 100001 := by rw [abs_le]; constructor <;> linarith
      calc ((v : ℚ) - 491/1000) * (cYear - 3652422/10000) ≤ |((v : ℚ) - 491/1000) * (cYear - 3652422/10000)| := le_abs_self _
        _ = |(v : ℚ) - 491/1000| * |cYear - 3652422/10000| := abs_mul _ _
        _ ≤ 100001 * (1/10000000) := mul_le_mul b a (abs_nonneg _) (by norm_num)
    nlinarith
  have l2 : (D : ℚ) / cYear ≤ (v : ℚ) + 491/1000 := by
    rw [div_le_iff₀ hc0]
    have : -(100001 * (1/10000000)) ≤ ((v : ℚ) + 491/1000) * (cYear - 3652422/10000) := by
      have a : |cYear - 3652422/10000| ≤ 1/10000000 := by rw [abs_le]; constructor <;> linarith
      have b : |(v : ℚ) + 491/1000| ≤ 100001 := by rw [abs_le]; constructor <;> linarith
      have : |((v : ℚ) + 491/1000) * (cYear - 3652422/10000)| ≤ 100001 * (1/10000000) := by
        rw [abs_mul]; exact mul_le_mul b a (abs_nonneg _) (by norm_num)
      exact (abs_le.mp this).1
    nlinarith
  have hb : |(D : ℚ) / cYear| ≤ 200000 := by rw [abs_le]; constructor <;> linarith
  have r1 := abs_le.mp (rnd_err1 hb (by norm_num))
  have hb2 : |rnd ((D : ℚ) / cYear) + 1/2| ≤ 300000 := by
    have : (200000 : ℚ) / 9007199254740992 < 1/1000 := by norm_num
    rw [abs_le]; constructor <;> linarith [r1.1, r1.2]
  have r2 := abs_le.mp (rnd_err1 hb2 (by norm_num))
  have n1 : (200000 : ℚ) / 9007199254740992 < 1/1000 := by norm_num
  have n2 : (300000 : ℚ) / 9007199254740992 < 1/1000 := by norm_num
  unfold yearRound int2 fadd fdiv
  rw [rnd_half]
  have : ⌊rnd (rnd ((D : ℚ) / cYear) + 1/2)⌋ = v := by
    rw [Int.floor_eq_iff]
    constructor <;> linarith [r1.1, r1.2, r2.1, r2.2]
  rw [this, i32_some (by omega) (by omega)]

theorem yearName_eq (v : ℤ) (h : -12000 ≤ v) : yearName v = some (name60 v) := by
  unfold yearName
  rw [pillar_eq _ (by omega)]
  congr 1
  exact nameOf_congr (by omega) (by omega)

/-- year of the sexagenary count from Lichun: it changes on Lichun (`z 3`) and is 17 + N after it (17 = 2001) -/
theorem c20_yearLichun (z : ℕ → ℤ) (N : ℤ) (hN : |N| ≤ 10000) (ha : Anchored z N) (d : ℤ) :
    yearLichun (tab 25 z) d = some (if z 3 ≤ d then N + 17 else N + 16) := by
  have hN' := abs_le.mp hN
  have b := abs_le.mp (ha 3 (by omega))
  unfold yearLichun
  rw [tab_get 25 z 3 (by omega)]
  simp only [Option.bind_eq_bind, Option.bind_some]
  push_cast at b
  by_cases hd : d < z 3
  · rw [if_pos hd, if_neg (by omega)]
    apply yearRound_eq
    · push_cast; linarith [b.1, b.2]
    · push_cast; linarith [b.1, b.2]
    · rw [abs_le]; constructor <;> omega
  · rw [if_neg hd, if_pos (by omega)]
    apply yearRound_eq
    · push_cast; linarith [b.1, b.2]
    · push_cast; linarith [b.1, b.2]
    · rw [abs_le]; constructor <;> omega

theorem usual_ne : ∀ v : Fin 14, usualName v.val = "正" ↔ v.val = 2 := by decide

theorem springFrom_skip (t : Tables) (d : ℤ) (f j : ℕ) (D : ℤ) (nm : String) (h : t.ym[j]? = some nm) (hs : nm ≠ "正" ∨ (t.leap = j ∧ j ≠ 0)) :
    springFrom t d (f + 1) j D = springFrom t d f (j + 1) D := by
  rw [springFrom, h]
  simp only [Option.bind_eq_bind, Option.bind_some]
  rw [if_pos hs]

theorem springFrom_all_skip (t : Tables) (d : ℤ) : ∀ (f j : ℕ) (D : ℤ),
    (∀ i, j ≤ i → i < j + f → ∃ nm, t.ym[i]? = some nm ∧ (nm ≠ "正" ∨ (t.leap = i ∧ i ≠ 0))) → springFrom t d f j D = some D := by
  intro f
  induction f with
  | zero => intro j D _; rfl
  | succ f ih =>
    intro j D h
    obtain ⟨nm, h1, h2⟩ := h j (le_refl _) (by omega)
    rw [springFrom_skip t d f j D nm h1 h2]
    exact ih (j + 1) D (fun i a c => h i (by omega) (by omega))

theorem springFrom_upto (t : Tables) (d : ℤ) (D : ℤ) : ∀ (n f j : ℕ),
    (∀ i, j ≤ i → i < j + n → ∃ nm, t.ym[i]? = some nm ∧ (nm ≠ "正" ∨ (t.leap = i ∧ i ≠ 0))) → springFrom t d (n + f) j D = springFrom t d f (j + n) D := by
  intro n
  induction n with
  | zero => intro f j _; simp
  | succ n ih =>
    intro f j h
    obtain ⟨nm, h1, h2⟩ := h j (le_refl _) (by omega)
    rw [show n + 1 + f = (n + f) + 1 by omega, springFrom_skip t d (n + f) j D nm h1 h2, ih f (j + 1) (fun i a c => h i (by omega) (by omega))]
    rw [show j + 1 + n = j + (n + 1) by omega]

/-- year of the sexagenary count from the first day of month 正 -/
theorem c20_yearSpring (t : Tables) (z h : ℕ → ℤ) (l : ℕ) (ht : YearTables t z h l (fun i => usualName (numOf l i))) (hl : l ≤ 12) (hc : Consistent z h) (N : ℤ) (hN : |N| ≤ 10000) (ha : Anchored z N) (d : ℤ) :
    yearSpring t d = some (if h (springMonth l) ≤ d then N + 17 else N + 16) := by
  have hN' := abs_le.mp hN
  have b := abs_le.mp (ha 0 (by omega))
  have hym : ∀ i, i < 14 → t.ym[i]? = some (usualName (numOf l i)) := by
    intro i hi
    rw [ht.ym, List.getElem?_map, List.getElem?_range hi]; rfl
  have hnum : ∀ i, i < 14 → numOf l i < 14 := by intro i hi; unfold numOf; split_ifs <;> omega
  have huniq : ∀ i, i < 14 → (i = springMonth l ↔ ¬ (usualName (numOf l i) ≠ "正" ∨ (t.leap = i ∧ i ≠ 0))) := by
    intro i hi
    rw [not_or, not_not, usual_ne ⟨numOf l i, hnum i hi⟩, ht.leap]
    unfold numOf springMonth
    simp only
    split_ifs <;> omega
  have hsm : springMonth l < 14 ∧ 2 ≤ springMonth l ∧ springMonth l ≤ 3 := by unfold springMonth; split_ifs <;> omega
  have skip : ∀ i, i < 14 → i ≠ springMonth l → ∃ nm, t.ym[i]? = some nm ∧ (nm ≠ "正" ∨ (t.leap = i ∧ i ≠ 0)) := by
    intro i hi hne
    refine ⟨_, hym i hi, ?_⟩
    by_contra hcon
    exact hne ((huniq i hi).mpr hcon)
  unfold yearSpring
  rw [ht.hs, tab_get 15 h 2 (by omega)]
  simp only [Option.bind_eq_bind, Option.bind_some]
  obtain ⟨g, hg⟩ : ∃ g, 14 = springMonth l + (g + 1) := ⟨13 - springMonth l, by omega⟩
  have e1 : springFrom t d 14 0 (h 2) = springFrom t d (g + 1) (springMonth l) (h 2) := by
    conv_lhs => rw [hg]
    rw [springFrom_upto t d (h 2) (springMonth l) (g + 1) 0 (fun i _ hi => skip i (by omega) (by omega))]
    simp
  have e2 : springFrom t d (g + 1) (springMonth l) (h 2) = some (if d < h (springMonth l) then h (springMonth l) - 365 else h (springMonth l)) := by
    rw [springFrom, hym _ hsm.1]
    simp only [Option.bind_eq_bind, Option.bind_some]
    rw [if_neg ((huniq _ hsm.1).mp rfl), ht.hs, tab_get 15 h _ (by omega)]
    simp only [Option.bind_some]
    by_cases hd : d < h (springMonth l)
    · rw [if_pos hd, if_pos hd]; rfl
    · rw [if_neg hd, if_neg hd]
      exact springFrom_all_skip t d g _ _ (fun i a c => skip i (by omega) (by omega))
  rw [e1, e2]
  simp only [Option.bind_some]
  -- the first month of the year begins 12 to 78 days after the solstice
  have m := hc.hmono (show 1 ≤ springMonth l by omega) (by omega)
  have m2 := hc.hmono (show 0 ≤ springMonth l by omega) (by omega)
  have hf := hc.first
  have lo : z 0 < h (springMonth l) := by
    have := hsm.2.1
    omega
  have hi : h (springMonth l) ≤ z 0 + 90 := by
    have := hsm.2.2
    omega
  have loq : ((z 0 : ℤ) : ℚ) < h (springMonth l) := by exact_mod_cast lo
  have hiq : ((h (springMonth l) : ℤ) : ℚ) ≤ z 0 + 90 := by exact_mod_cast hi
  push_cast at b
  by_cases hd : d < h (springMonth l)
  · rw [if_pos hd, if_neg (by omega)]
    apply yearRound_eq
    · push_cast; linarith [b.1, b.2]
    · push_cast; linarith [b.1, b.2]
    · rw [abs_le]; constructor <;> omega
  · rw [if_neg hd, if_pos (by omega)]
    apply yearRound_eq
    · push_cast; linarith [b.1, b.2]
    · push_cast; linarith [b.1, b.2]
    · rw [abs_le]; constructor <;> omega


theorem bind_ok {α β : Type} {a : Option α} {x : α} {f : α → Option β} {r : Option β} (h : a = some x) (hf : f x = r) : (a >>= f) = r := by
  subst h; exact hf

theorem int2_floor (a v : ℤ) (h1 : ((v : ℚ) + 1/100) * (3652422/10000) ≤ a) (h2 : (a : ℚ) ≤ ((v : ℚ) + 99/100) * (3652422/10000)) (hv : |v| ≤ 100000) :
    int2 ((a : ℚ) ⊘ cYear) = some v := by
  obtain ⟨c1, c2⟩ := cYear_bounds
  have hc0 : 0 < cYear := by linarith
  have hv' := abs_le.mp hv
  have hv1 : (-100000 : ℚ) ≤ v := by exact_mod_cast hv'.1
  have hv2 : (v : ℚ) ≤ 100000 := by exact_mod_cast hv'.2
  have a0 : |cYear - 3652422/10000| ≤ 1/10000000 := by rw [abs_le]; constructor <;> linarith
  have l1 : (v : ℚ) + 9/1000 ≤ (a : ℚ) / cYear := by
    rw [le_div_iff₀ hc0]
    have : |((v : ℚ) + 9/1000) * (cYear - 3652422/10000)| ≤ 100001 * (1/10000000) := by
      rw [abs_mul]
      exact mul_le_mul (by rw [abs_le]; constructor <;> linarith) a0 (abs_nonneg _) (by norm_num)
    have := (abs_le.mp this).2
    nlinarith
  have l2 : (a : ℚ) / cYear ≤ (v : ℚ) + 991/1000 := by
    rw [div_le_iff₀ hc0]
    have : |((v : ℚ) + 991/1000) * (cYear - 3652422/10000)| ≤ 100001 * (1/10000000) := by
      rw [abs_mul]
      exact mul_le_mul (by rw [abs_le]; constructor <;> linarith) a0 (abs_nonneg _) (by norm_num)
    have := (abs_le.mp this).1
    nlinarith
  have hb : |(a : ℚ) / cYear| ≤ 200000 := by rw [abs_le]; constructor <;> linarith
  have r1 := abs_le.mp (rnd_err1 hb (by norm_num))
  have n1 : (200000 : ℚ) / 9007199254740992 < 1/1000 := by norm_num
  unfold int2 fdiv
  have : ⌊rnd ((a : ℚ) / cYear)⌋ = v := by
    rw [Int.floor_eq_iff]
    constructor <;> linarith [r1.1, r1.2]
  rw [this, i32_some (by omega) (by omega)]

/-- the number of the month pillar -/
theorem monthPillarNum_eq (z : ℕ → ℤ) (hz : NearMean z) (N : ℤ) (hN : |N| ≤ 10000) (ha : Anchored z N) (d : ℤ) (h0 : z 0 ≤ d) (h24 : d < z 24) :
    ∃ k : ℕ, k ≤ 12 ∧ monthPillarNum (tab 25 z) d = some ((k : ℤ) + (N + 2) * 12 + 900000) ∧
      (1 ≤ k → z (2 * k - 1) ≤ d) ∧ (k < 12 → d < z (2 * k + 1)) := by
  obtain ⟨k, hk, e, b1, b2⟩ := c20_pillarMonth z hz d h0 h24
  have hN' := abs_le.mp hN
  have b := abs_le.mp (ha 12 (by omega))
  refine ⟨k, hk, ?_, b1, b2⟩
  unfold monthPillarNum
  rw [e, tab_get 25 z 12 (by omega)]
  simp only [Option.bind_eq_bind, Option.bind_some]
  rw [int2_floor (z 12 + 390) (N + 2) ?_ ?_ (by rw [abs_le]; constructor <;> omega)]
  · rfl
  · push_cast at b ⊢; linarith [b.1, b.2]
  · push_cast at b ⊢; linarith [b.1, b.2]

theorem fiveTigers_eq (g : ℤ) : fiveTigers g % 10 = (2 * (g % 5) + 2) % 10 := by
  have h5 : g % 5 = 0 ∨ g % 5 = 1 ∨ g % 5 = 2 ∨ g % 5 = 3 ∨ g % 5 = 4 := by omega
  unfold fiveTigers
  rcases h5 with h | h | h | h | h <;> rw [h] <;> rfl

/-- C19, C20: for every day from one winter solstice to the next the record is defined and says what it must. -/
theorem c20_day (t : Tables) (z h : ℕ → ℤ) (l : ℕ) (nm : ℕ → String) (ht : YearTables t z h l nm) (hc : Consistent z h) (hz : NearMean z)
    (N : ℤ) (hN : |N| ≤ 10000) (ha : Anchored z N) (d Bd0 : ℤ) (h0 : z 0 ≤ d) (h24 : d < z 24) (prev : MonthInfo)
    (Y : ℤ) (es : yearSpring t d = some Y) (hys : -12000 ≤ Y) :
    ∃ o, dayFields t Bd0 d (some prev) = some o ∧ DaySpec z h l nm N Y d (decide (d = Bd0)) prev o := by
  have hN' := abs_le.mp hN
  have a24 := abs_le.mp (ha 24 (by omega))
  have a0 := abs_le.mp (ha 0 (by omega))
  -- bounds of the day
  have h14 : d < h 14 := by
    have b := abs_le.mp (hz.near 24 (by omega))
    have m := hc.hmono (show 1 ≤ 14 by omega) (by omega)
    have : ((z 24 - z 0 : ℤ) : ℚ) ≤ 373 := by push_cast at b ⊢; linarith [b.2]
    have : z 24 - z 0 ≤ 373 := by exact_mod_cast this
    have := hc.first
    push_cast at m
    omega
  have dlo : -4000000 ≤ d := by
    have h1 : (-4000000 : ℚ) ≤ z 0 := by
      have : (-10000 : ℚ) ≤ N := by exact_mod_cast hN'.1
      push_cast at a0
      linarith [a0.1]
    have : (-4000000 : ℤ) ≤ z 0 := by exact_mod_cast h1
    omega
  have dhi : d ≤ 4000000 := by
    have h1 : ((z 24 : ℤ) : ℚ) ≤ 4000000 := by
      have : (N : ℚ) ≤ 10000 := by exact_mod_cast hN'.2
      push_cast at a24
      linarith [a24.2]
    have : z 24 ≤ 4000000 := by exact_mod_cast h1
    omega
  obtain ⟨k, hk, ek, ink, rm, erm, -, hlen, h30⟩ := c19_month z h hc d (le_trans hc.first.1 h0) h14
  obtain ⟨q, hq, q1, q2, eq, hqq⟩ := c20_term z hz d h0 h24
  obtain ⟨p, hp, ep, p1, p2⟩ := monthPillarNum_eq z hz N hN ha d h0 h24
  obtain ⟨x, hx, ex, x1, x2⟩ := c20_zodiac z hz d h0 h24
  have ey := c20_yearLichun z N hN ha d
  have hym : ∀ i, i < 14 → t.ym[i]? = some (nm i) := by
    intro i hi
    rw [ht.ym, List.getElem?_map, List.getElem?_range hi]; rfl
  have hcym : ∀ i : ℕ, i < 14 → cget t.ym (i : ℤ) = some (nm i) := by
    intro i hi; unfold cget; rw [if_pos (by omega)]; exact hym i hi
  -- month fields
  have emi : monthInfo t (k : ℤ) = some ⟨nm k, h (k + 1) - h k, decide (l ≠ 0 ∧ l = k), if k < 13 then nm (k + 1) else "未知"⟩ := by
    unfold monthInfo
    rw [hcym k hk, ht.dx, tab_cget 14 _ _ (by omega) (by push_cast; omega), ht.leap]
    simp only [Option.bind_eq_bind, Option.bind_some, Int.toNat_natCast]
    have : ((l : ℤ) = (k : ℤ)) ↔ l = k := by omega
    simp only [this]
    by_cases hk13 : k < 13
    · have hc1 := hcym (k + 1) (by omega)
      push_cast at hc1
      rw [if_pos (by omega), if_pos hk13, hc1]; rfl
    · rw [if_neg (by omega), if_neg hk13]; rfl
  have ejq : strJqmc[q]? = some ((strJqmc[q]?).getD "") := by
    interval_cases q <;> rfl
  have exz : strXz[x]? = some ((strXz[x]?).getD "") := by
    interval_cases x <;> rfl
  have exz' : cget strXz (((x : ℤ) + 12).tmod 12) = some ((strXz[x]?).getD "") := by
    rw [show ((x : ℤ) + 12).tmod 12 = (x : ℤ) by rw [Int.tmod_eq_emod_of_nonneg (by omega)]; omega]
    unfold cget; rw [if_pos (by omega)]; exact exz
  have hday := c11_dayName_cycle d (by omega) (by omega)
  have emo : (if d = h k ∨ d = Bd0 then monthInfo t (k : ℤ) else some prev) =
      some (if d = h k ∨ decide (d = Bd0) = true then ⟨nm k, h (k + 1) - h k, decide (l ≠ 0 ∧ l = k), if k < 13 then nm (k + 1) else "未知"⟩ else prev) := by
    by_cases hh : d = h k ∨ d = Bd0
    · rw [if_pos hh, if_pos (by simpa using hh), emi]
    · rw [if_neg hh, if_neg (by simpa using hh)]
  have ejq' : (if d = z q then cget strJqmc (q : ℤ) else some "") = some (if d = z q then (strJqmc[q]?).getD "" else "") := by
    by_cases hh : d = z q
    · rw [if_pos hh, if_pos hh]; unfold cget; rw [if_pos (by omega)]; exact ejq
    · rw [if_neg hh, if_neg hh]
  have hyl : -12000 ≤ (if z 3 ≤ d then N + 17 else N + 16) := by split_ifs <;> omega
  refine ⟨⟨d, d - h k, rm, d - z 0, d - z 12, d - z 15, d - z 11, d - z 13,
    (if d = h k ∨ decide (d = Bd0) = true then ⟨nm k, h (k + 1) - h k, decide (l ≠ 0 ∧ l = k), if k < 13 then nm (k + 1) else "未知"⟩ else prev),
    (if d = z q then (strJqmc[q]?).getD "" else ""), (if z 3 ≤ d then N + 17 else N + 16), Y,
    name60 (if z 3 ≤ d then N + 17 else N + 16), name60 Y,
    Y + 1984 + 2698, ((p : ℤ) + (N + 2) * 12 + 900000).tmod 12, name60 ((p : ℤ) + (N + 2) * 12 + 900000),
    name60 (d - 6), (strXz[x]?).getD ""⟩, ?_, ?_⟩
  · unfold dayFields
    refine bind_ok (by rw [ht.hs]; exact ek) ?_
    refine bind_ok (x := h k) (by rw [ht.hs, tab_cget 15 h _ (by omega) (by push_cast; omega)]; rfl) ?_
    refine bind_ok erm ?_
    refine bind_ok (by rw [ht.zq]; exact tab_get 25 z 0 (by omega)) ?_
    refine bind_ok (by rw [ht.zq]; exact tab_get 25 z 12 (by omega)) ?_
    refine bind_ok (by rw [ht.zq]; exact tab_get 25 z 15 (by omega)) ?_
    refine bind_ok (by rw [ht.zq]; exact tab_get 25 z 11 (by omega)) ?_
    refine bind_ok (by rw [ht.zq]; exact tab_get 25 z 13 (by omega)) ?_
    refine bind_ok emo ?_
    refine bind_ok (by rw [ht.zq]; exact eq) ?_
    refine bind_ok (x := z q) (by rw [ht.zq, tab_cget 25 z _ (by omega) (by push_cast; omega)]; rfl) ?_
    refine bind_ok ejq' ?_
    refine bind_ok (by rw [ht.zq]; exact ey) ?_
    refine bind_ok es ?_
    refine bind_ok (yearName_eq _ hyl) ?_
    refine bind_ok (yearName_eq _ hys) ?_
    refine bind_ok (by rw [ht.zq]; exact ep) ?_
    refine bind_ok (pillar_eq _ (by omega)) ?_
    refine bind_ok hday ?_
    refine bind_ok (by rw [ht.zq]; exact ex) ?_
    refine bind_ok exz' ?_
    rfl
  · have hrm : Fest.strRmc[(d - h k).toNat]? = some rm := by
      unfold cget at erm; rwa [if_pos (by have := ink.1; omega)] at erm
    refine ⟨rfl, ⟨k, hk, ink, rfl, h30, hrm, rfl⟩, ?_, ?_, ⟨rfl, rfl, rfl, rfl, rfl⟩, rfl, rfl, by simp only; ring, ?_, rfl, ⟨x, hx, x1, x2, exz⟩⟩
    · intro j hj hdj
      have hzq : d = z q := hqq.mp ⟨j, hj, hdj⟩
      have hjq : j = q := by
        rcases lt_trichotomy j q with h | h | h
        · have := hz.zmono h (by omega); omega
        · exact h
        · have := hz.zmono h (by omega); omega
      subst hjq
      simp only
      rw [if_pos hzq]; exact ejq
    · intro hne
      simp only
      rw [if_neg (hne q hq)]
    · have m3 : ∀ {i j : ℕ}, i ≤ j → j ≤ 24 → z i ≤ z j := fun {i j} a c => hc.zmono a c
      by_cases h3 : z 3 ≤ d
      · have hp2 : 2 ≤ p := by
          by_contra hcon
          have := p2 (by omega)
          have := m3 (show 2 * p + 1 ≤ 3 by omega) (by omega)
          omega
        refine ⟨p - 2, ?_, fun _ => ⟨by omega, ?_, ?_⟩, fun hh => absurd h3 (by omega)⟩
        · simp only
          rw [if_pos h3]
          have ft := fiveTigers_eq (N + 17)
          apply nameOf_congr
          · omega
          · omega
        · rw [show 3 + 2 * (p - 2) = 2 * p - 1 by omega]; exact p1 (by omega)
        · intro hj
          rw [show 5 + 2 * (p - 2) = 2 * p + 1 by omega]; exact p2 (by omega)
      · have hp1 : p ≤ 1 := by
          by_contra hcon
          have := p1 (by omega)
          have := m3 (show 3 ≤ 2 * p - 1 by omega) (by omega)
          omega
        refine ⟨p + 10, ?_, fun hh => absurd hh h3, fun _ => ?_⟩
        · simp only
          rw [if_neg h3]
          have ft := fiveTigers_eq (N + 16)
          apply nameOf_congr
          · push_cast; omega
          · push_cast; omega
        · rcases (show p = 0 ∨ p = 1 by omega) with rfl | rfl
          · left; exact ⟨p2 (by omega), rfl⟩
          · right; exact ⟨p1 (by omega), rfl⟩

end Verif.Lunar
