import Verif.EclipseReport
import Verif.Props.DayTables
import Mathlib.Analysis.Real.Pi.Bounds

/-!
# C97: the report of sun, moon and eclipses for an instant
-/

namespace Verif.Cal
open Verif.Fp

/-! ## Specification -/

/-- the line `s` names the contact `mc` and shows the instant `t` (days of dynamical time from J2000): as it is, or in Beijing time (eight hours before universal time, which is dynamical time
less `dt`) -/
def ContactLine (dt : ℚ → ℚ) (utc : Bool) (c : Str × ℚ) (s : Str) : Prop :=
  ∃ x, s = c.1 ++ [':'] ++ x ++ (if utc then " UTC".toList else " TD".toList) ++ ['\n'] ∧ Clock (2451545 + (if utc then c.2 - dt c.2 + 1/3 else c.2)) x

/-- the timetable `s`: one line for each contact that happens, in the order of the list -/
def Timetable (dt : ℚ → ℚ) (utc : Bool) (l : List (Str × ℚ)) (s : Str) : Prop :=
  ∃ rows : List Str, s = rows.flatten ∧ List.Forall₂ (ContactLine dt utc) (l.filter fun c => c.2 ≠ 0) rows

/-- the instants of a list are in range -/
def TimesOk (dt : ℚ → ℚ) (l : List ℚ) : Prop := ∀ t ∈ l, t ≠ 0 → -2446990 ≤ t ∧ t ≤ 26999990 ∧ |dt t| ≤ 2

/-! ## Proof -/

theorem near_jd' {x t : ℚ} (h1 : 4096 ≤ x) (h2 : x ≤ 30000000) (ht : |x - t| ≤ 8e-9) : ∃ s, jd2str x = some s ∧ Clock t s := by
  obtain ⟨c, n, sec, v, hn, a1, a2, s0, s1, hs, e⟩ := c06_jd2str_nearest_partial x h1 h2
  refine ⟨_, e, c, n, sec, v, hn, s0, s1, rfl, ?_⟩
  have r := rnd_err1 (q := x + 1/2) (B := 30000001) (by rw [abs_of_nonneg (by linarith)]; linarith) (by norm_num)
  have f1 := Int.floor_le ((rnd (x + 1/2) - n) * 86400 + 1/2)
  have f2 := Int.lt_floor_add_one ((rnd (x + 1/2) - n) * 86400 + 1/2)
  rw [← hs] at f1 f2
  obtain ⟨r1, r2⟩ := abs_le.1 r
  obtain ⟨t1, t2⟩ := abs_le.1 ht
  norm_num at r1 r2 t1 t2
  rw [abs_le]
  constructor
  · norm_num; linarith
  · norm_num; linarith

theorem eight_near : |(-8 : ℚ) ⊘ 24 - -(1/3)| ≤ 1/2^54 := by
  have : (-8 : ℚ) ⊘ 24 = rnd (-8/24) := rfl
  rw [this]
  decide +kernel

/-- back to Beijing time, in doubles -/
theorem back_near {t δ : ℚ} (h1 : -2446990 ≤ t) (h2 : t ≤ 26999990) (hd : |δ| ≤ 2) :
    |(t ⊟ (((-8 : ℚ) ⊘ 24) ⊞ δ)) ⊞ 2451545 - (2451545 + (t - δ + 1/3))| ≤ 8e-9 ∧ 4096 ≤ (t ⊟ (((-8 : ℚ) ⊘ 24) ⊞ δ)) ⊞ 2451545 ∧ (t ⊟ (((-8 : ℚ) ⊘ 24) ⊞ δ)) ⊞ 2451545 ≤ 30000000 := by
  obtain ⟨k, hk⟩ : ∃ k, k = (-8 : ℚ) ⊘ 24 := ⟨_, rfl⟩
  have z := eight_near
  rw [← hk] at z ⊢
  obtain ⟨z1, z2⟩ := abs_le.1 z
  obtain ⟨d1, d2⟩ := abs_le.1 hd
  norm_num at z1 z2
  have a : |rnd (k + δ) - (k + δ)| ≤ 3 / 9007199254740992 := rnd_err1 (by rw [abs_le]; constructor <;> linarith) (by norm_num)
  obtain ⟨u, hu⟩ : ∃ u, u = rnd (k + δ) := ⟨_, rfl⟩
  rw [← hu] at a
  obtain ⟨a1, a2⟩ := abs_le.1 a
  norm_num at a1 a2
  have b : |rnd (t - u) - (t - u)| ≤ 27000000 / 9007199254740992 := rnd_err1 (by rw [abs_le]; constructor <;> linarith) (by norm_num)
  obtain ⟨w, hw⟩ : ∃ w, w = rnd (t - u) := ⟨_, rfl⟩
  rw [← hw] at b
  obtain ⟨b1, b2⟩ := abs_le.1 b
  norm_num at b1 b2
  have c : |rnd (w + 2451545) - (w + 2451545)| ≤ 29500000 / 9007199254740992 := rnd_err1 (by rw [abs_le]; constructor <;> linarith) (by norm_num)
  obtain ⟨c1, c2⟩ := abs_le.1 c
  norm_num at c1 c2
  have e : (t ⊟ (k ⊞ δ)) ⊞ 2451545 = rnd (w + 2451545) := by rw [hw, hu]; rfl
  rw [e]
  refine ⟨abs_le.2 ⟨?_, ?_⟩, ?_, ?_⟩ <;> norm_num <;> linarith

theorem plain_near {t : ℚ} (h1 : -2446990 ≤ t) (h2 : t ≤ 26999990) : |t ⊞ 2451545 - (2451545 + t)| ≤ 8e-9 ∧ 4096 ≤ t ⊞ 2451545 ∧ t ⊞ 2451545 ≤ 30000000 := by
  have c : |rnd (t + 2451545) - (t + 2451545)| ≤ 29500000 / 9007199254740992 := rnd_err1 (by rw [abs_le]; constructor <;> linarith) (by norm_num)
  obtain ⟨c1, c2⟩ := abs_le.1 c
  norm_num at c1 c2
  have e : t ⊞ 2451545 = rnd (t + 2451545) := rfl
  rw [e]
  refine ⟨abs_le.2 ⟨?_, ?_⟩, ?_, ?_⟩ <;> norm_num <;> linarith

/-- **C97 (timetable).**  For every list of contacts: one line for each contact that happens, in order, each instant to the nearest second in the time chosen. -/
theorem c97_timetable (dt : ℚ → ℚ) (utc : Bool) : ∀ (l : List (Str × ℚ)) (td : Str), (utc = true ∨ td = " TD".toList) → TimesOk dt (l.map Prod.snd) →
    ∃ s, contactRows dt utc l td = some s ∧ Timetable dt utc l s
  | [], _, _, _ => ⟨[], rfl, [], rfl, List.Forall₂.nil⟩
  | (mc, t) :: l, td, htd, h => by
    have h' : TimesOk dt (l.map Prod.snd) := fun u hu => h u (by rw [List.map_cons]; exact List.mem_cons_of_mem _ hu)
    by_cases ht : t = 0
    · obtain ⟨s, hs, rows, e, f⟩ := c97_timetable dt utc l td htd h'
      refine ⟨s, ?_, rows, e, ?_⟩
      · unfold contactRows
        rw [if_pos ht]
        exact hs
      · rw [List.filter_cons, if_neg (by simp [ht])]
        exact f
    · obtain ⟨t1, t2, t3⟩ := h t (by simp) ht
      have td' : (utc = true ∨ (if utc then " UTC".toList else td) = " TD".toList) := by
        rcases htd with h | h
        · exact Or.inl h
        · cases utc
          · exact Or.inr h
          · exact Or.inl rfl
      obtain ⟨s, hs, rows, e, f⟩ := c97_timetable dt utc l _ td' h'
      obtain ⟨x, hx, hc⟩ : ∃ x, jd2str ((if utc then t ⊟ (((-8 : ℚ) ⊘ 24) ⊞ dt t) else t) ⊞ 2451545) = some x ∧ Clock (2451545 + (if utc then t - dt t + 1/3 else t)) x := by
        cases utc
        · obtain ⟨p1, p2, p3⟩ := plain_near t1 t2
          exact near_jd' p2 p3 p1
        · obtain ⟨p1, p2, p3⟩ := back_near t1 t2 t3
          exact near_jd' p2 p3 p1
      refine ⟨mc ++ [':'] ++ x ++ (if utc then " UTC".toList else td) ++ ['\n'] ++ s, ?_, (mc ++ [':'] ++ x ++ (if utc then " UTC".toList else td) ++ ['\n']) :: rows, ?_, ?_⟩
      · unfold contactRows
        rw [if_neg ht]
        show (jd2str _).bind _ = _
        rw [hx]
        show (contactRows dt utc l (if utc then " UTC".toList else td)).bind _ = _
        rw [hs]
        rfl
      · rw [List.flatten_cons, e]
      · rw [List.filter_cons, if_pos (by simp [ht])]
        refine List.Forall₂.cons ⟨x, ?_, hc⟩ f
        rcases htd with h | h
        · rw [h]; rfl
        · rw [h]

/-- **C97 (which part).**  The limits in doubles are those of the angles, to 10⁻¹⁴. -/
theorem c97_limits : ∀ p ∈ ([(3, 3), (170, 170), (190, 190), (357, 357)] : List (ℚ × ℝ)), |((p.1 ⊘ raddD : ℚ) : ℝ) - p.2 * Real.pi / 180| ≤ 1e-14 := by
  have h1 := Real.pi_gt_d20
  have h2 := Real.pi_lt_d20
  have key : ∀ n : ℚ, (n = 3 ∨ n = 170 ∨ n = 190 ∨ n = 357) → |n ⊘ raddD - n * 3.14159265358979323846 / 180| ≤ 0.9e-14 := by
    rintro n (rfl | rfl | rfl | rfl) <;> decide +kernel
  have main : ∀ n : ℚ, (n = 3 ∨ n = 170 ∨ n = 190 ∨ n = 357) → |((n ⊘ raddD : ℚ) : ℝ) - (n : ℝ) * Real.pi / 180| ≤ 1e-14 := by
    intro n hn
    have k := key n hn
    have k' : |((n ⊘ raddD : ℚ) : ℝ) - (n : ℝ) * 3.14159265358979323846 / 180| ≤ 0.9e-14 := by
      have : ((|n ⊘ raddD - n * 3.14159265358979323846 / 180| : ℚ) : ℝ) ≤ ((0.9e-14 : ℚ) : ℝ) := by exact_mod_cast k
      push_cast at this
      norm_num at this ⊢
      exact this
    have n0 : (0 : ℝ) ≤ n ∧ (n : ℝ) ≤ 357 := by rcases hn with rfl | rfl | rfl | rfl <;> norm_num
    obtain ⟨a, b⟩ := abs_le.1 k'
    rw [abs_le]
    norm_num at a b h1 h2 ⊢
    constructor <;> nlinarith [n0.1, n0.2]
  intro p hp
  simp only [List.mem_cons, List.not_mem_nil, or_false] at hp
  rcases hp with rfl | rfl | rfl | rfl
  · have := main 3 (by simp); norm_num at this ⊢; exact this
  · have := main 170 (by simp); norm_num at this ⊢; exact this
  · have := main 190 (by simp); norm_num at this ⊢; exact this
  · have := main 357 (by simp); norm_num at this ⊢; exact this

/-- the sun and the moon are within 3° of longitude -/
def NearNew (x : ℚ) : Prop := x < (3 : ℚ) ⊘ raddD ∨ (357 : ℚ) ⊘ raddD < x
/-- the moon is within 10° of the point opposite to the sun -/
def NearFull (x : ℚ) : Prop := (170 : ℚ) ⊘ raddD < x ∧ x < (190 : ℚ) ⊘ raddD

instance (x : ℚ) : Decidable (NearNew x) := inferInstanceAs (Decidable (x < (3 : ℚ) ⊘ raddD ∨ (357 : ℚ) ⊘ raddD < x))
instance (x : ℚ) : Decidable (NearFull x) := inferInstanceAs (Decidable ((170 : ℚ) ⊘ raddD < x ∧ x < (190 : ℚ) ⊘ raddD))

theorem not_both (x : ℚ) : ¬ (NearNew x ∧ NearFull x) := by
  rintro ⟨h | h, h1, h2⟩
  · have : (3 : ℚ) ⊘ raddD < (170 : ℚ) ⊘ raddD := by decide +kernel
    linarith
  · have : (190 : ℚ) ⊘ raddD < (357 : ℚ) ⊘ raddD := by decide +kernel
    linarith

/-- the lines of the five points -/
def pointLines (e : ReportEnv) (v : List (Option (ℚ × ℚ))) : Str :=
  ((["食中心点", "本影北界", "本影南界", "半影北界", "半影南界"].zip v).map fun x => match x.2 with
    | none => x.1.toList ++ "：无　　　　　无\n".toList
    | some p => x.1.toList ++ "：".toList ++ e.num p.1 5 ++ "　".toList ++ e.num p.2 5 ++ ['\n']).flatten

/-- the solar report `s` for the instant `jd` -/
def SolarReport (e : ReportEnv) (utc nasa : Bool) (jd : ℚ) (s : Str) : Prop :=
  ∃ now table : Str, Clock (2451545 + jd) now
    ∧ Timetable e.dt utc ((((if (e.secMax nasa jd).LX = "环".toList then ["初亏", "食甚", "复圆", "环食始", "环食终"] else ["初亏", "食甚", "复圆", "食既", "生光"]) : List String).map String.toList).zip (e.secMax nasa jd).T) table
    ∧ s = "日月站心视半径 ".toList ++ e.fm (e.sky jd).sRad 2 0 ++ "及".toList ++ e.fm (e.sky jd).mRad 2 0 ++ " \n\u001b[31m".toList
      ++ (match (e.sky jd).centre with
        | none => "此刻月亮本影中心线不经过地球。".toList
        | some (J, W) => "食中心地标：经 ".toList ++ e.num J 5 ++ " 纬 ".toList ++ e.num W 5)
      ++ "\u001b[0m\n".toList ++ "日月中心视距 ".toList ++ e.fm (e.sky jd).dist 2 0 ++ " 日月半径和 ".toList ++ e.fm ((e.sky jd).mRad ⊞ (e.sky jd).sRad) 2 0
      ++ "\n半径差 ".toList ++ e.fm ((e.sky jd).sRad ⊟ (e.sky jd).mRad) 2 0 ++ "\t距外切 ".toList ++ e.fm ((e.sky jd).dist ⊟ ((e.sky jd).mRad ⊞ (e.sky jd).sRad)) 2 0
      ++ "\n--------------------------------------\n".toList ++ now ++ " TD\n--------------------------------------\n".toList ++ "南北界点：经度　　　　纬度\n".toList
      ++ pointLines e (e.limits nasa jd).V ++ "中心类型：".toList ++ (e.limits nasa jd).Vc ++ "食\n".toList ++ "本影南北界距约".toList ++ (e.limits nasa jd).Vb
      ++ "\n--------------------------------------\n".toList ++ "时间表 (日".toList ++ (e.secMax nasa jd).LX ++ "食)\n".toList ++ table
      ++ "时长: ".toList ++ e.fm ((e.secMax nasa jd).dur ⊠ 86400) 1 1 ++ ['\n'] ++ "食分: ".toList ++ e.num (e.secMax nasa jd).sf 5 ++ ['\n']
      ++ "月日视径比: ".toList ++ e.num (e.secMax nasa jd).b1 5 ++ "(全或环食分)\n".toList
      ++ "是否NASA径比(1是,0否): ".toList ++ (if nasa then ['1'] else ['0']) ++ ['\n'] ++ "食分指日面直径被遮比例\n\n".toList

/-- the lunar report `s` for the instant `jd` -/
def LunarReport (e : ReportEnv) (utc : Bool) (jd : ℚ) (s : Str) : Prop :=
  ∃ table : Str, Timetable e.dt utc ((["初亏", "食甚", "复圆", "半影食始", "半影食终", "食既", "生光"].map String.toList).zip (e.lecMax jd).T) table
    ∧ s = "本影半径 ".toList ++ e.fm (e.sky jd).eShadow 2 0 ++ " 半影半径 ".toList ++ e.fm (e.sky jd).eShadow2 2 0 ++ " 月亮地心视半径 ".toList ++ e.fm (e.sky jd).e_mRad 2 0 ++ ['\n']
      ++ "影月中心距 ".toList ++ e.fm (e.sky jd).distShadow 2 0 ++ " 影月半径和 ".toList ++ e.fm ((e.sky jd).e_mRad ⊞ (e.sky jd).eShadow) 2 0
      ++ " \n距相切 \u001b[31m".toList ++ e.fm ((e.sky jd).distShadow ⊟ ((e.sky jd).e_mRad ⊞ (e.sky jd).eShadow)) 2 0
      ++ "\u001b[0m 距第二相切 ".toList ++ e.fm ((e.sky jd).distShadow ⊟ ((e.sky jd).e_mRad ⊞ (e.sky jd).eShadow2)) 2 0
      ++ "\n\n时间表(月".toList ++ (e.lecMax jd).LX ++ "食)\n".toList ++ table ++ "食分:".toList ++ e.num (e.lecMax jd).sf 5 ++ ['\n'] ++ "食分指月面直径被遮比例\n\n".toList

theorem zip_times {l : List Str} {T : List ℚ} {dt : ℚ → ℚ} (h : TimesOk dt T) : TimesOk dt ((l.zip T).map Prod.snd) := by
  intro t ht
  rw [List.mem_map] at ht
  obtain ⟨⟨a, b⟩, hm, rfl⟩ := ht
  exact h b (List.of_mem_zip hm).2

theorem solar_ok (e : ReportEnv) (utc nasa : Bool) {jd : ℚ} (h1 : -2446990 ≤ jd) (h2 : jd ≤ 26999990) (hT : TimesOk e.dt (e.secMax nasa jd).T) :
    ∃ s, solarPart e (e.sky jd) utc nasa jd = some s ∧ SolarReport e utc nasa jd s := by
  obtain ⟨p1, p2, p3⟩ := plain_near h1 h2
  obtain ⟨now, hn, cn⟩ := near_jd' p2 p3 p1
  obtain ⟨table, ht, tt⟩ := c97_timetable e.dt utc ((((if (e.secMax nasa jd).LX = "环".toList then ["初亏", "食甚", "复圆", "环食始", "环食终"] else ["初亏", "食甚", "复圆", "食既", "生光"]) : List String).map String.toList).zip (e.secMax nasa jd).T)
    " TD".toList (Or.inr rfl) (zip_times hT)
  have hp : pointLines e (e.limits nasa jd).V = ((["食中心点", "本影北界", "本影南界", "半影北界", "半影南界"].zip (e.limits nasa jd).V).map fun x => x.1.toList ++ "：".toList ++ (match x.2 with
    | none => "无　　　　　无\n".toList
    | some (J, W) => e.num J 5 ++ "　".toList ++ e.num W 5 ++ ['\n'])).flatten := by
    unfold pointLines
    congr 1
    apply List.map_congr_left
    rintro ⟨a, b⟩ -
    cases b with
    | none => simp
    | some p => simp
  refine ⟨_, ?_, now, table, cn, tt, rfl⟩
  rw [hp]
  unfold solarPart
  simp only []
  rw [hn]
  simp only [Option.bind_eq_bind, Option.bind_some]
  rw [ht]
  simp only [Option.bind_some, Option.pure_def, List.append_assoc]
  rfl

theorem lunar_ok (e : ReportEnv) (utc : Bool) {jd : ℚ} (hT : TimesOk e.dt (e.lecMax jd).T) :
    ∃ s, lunarPart e (e.sky jd) utc jd = some s ∧ LunarReport e utc jd s := by
  obtain ⟨table, ht, tt⟩ := c97_timetable e.dt utc ((["初亏", "食甚", "复圆", "半影食始", "半影食终", "食既", "生光"].map String.toList).zip (e.lecMax jd).T)
    " TD".toList (Or.inr rfl) (zip_times hT)
  refine ⟨_, ?_, table, tt, rfl⟩
  unfold lunarPart
  simp only []
  rw [ht]
  simp only [Option.bind_eq_bind, Option.bind_some, Option.pure_def, List.append_assoc]

/-- **C97.**  The report for the date `d` (Julian day `j`): computed for that instant — the dynamical time itself or, when the date is Beijing time, eight hours earlier and `dt` added (to a
thousandth of a second) —, it begins with the solar part exactly when the longitudes of sun and moon differ by less than 3°, with the lunar part exactly when the moon is within 10° of the
opposition (never both), and ends with the panel. -/
theorem c97_report (e : ReportEnv) (d : Date) (utc nasa : Bool) (j : ℚ) (hj : toJD d = some j) (h1 : 5000 ≤ j) (h2 : j ≤ 29000000) (hd : |e.dt (j ⊟ 2451545)| ≤ 2) :
    ∃ jd : ℚ, |jd - (j - 2451545 + (if utc then e.dt (j ⊟ 2451545) - 1/3 else 0))| ≤ 1e-8 ∧
      ((NearNew (e.sky jd).msHJ → TimesOk e.dt (e.secMax nasa jd).T → ¬ NearFull (e.sky jd).msHJ ∧ ∃ s, SolarReport e utc nasa jd s ∧ rysCalc e d utc nasa = some (s ++ (e.sky jd).text))
      ∧ (NearFull (e.sky jd).msHJ → TimesOk e.dt (e.lecMax jd).T → ¬ NearNew (e.sky jd).msHJ ∧ ∃ s, LunarReport e utc jd s ∧ rysCalc e d utc nasa = some (s ++ (e.sky jd).text))
      ∧ (¬ NearNew (e.sky jd).msHJ → ¬ NearFull (e.sky jd).msHJ → rysCalc e d utc nasa = some (e.sky jd).text)) := by
  obtain ⟨jd, hjd⟩ : ∃ jd, jd = if utc then (j ⊟ 2451545) ⊞ (((-8 : ℚ) ⊘ 24) ⊞ e.dt (j ⊟ 2451545)) else j ⊟ 2451545 := ⟨_, rfl⟩
  have a : |rnd (j - 2451545) - (j - 2451545)| ≤ 27000000 / 9007199254740992 := rnd_err1 (by rw [abs_le]; constructor <;> linarith) (by norm_num)
  obtain ⟨w, hw⟩ : ∃ w, w = j ⊟ 2451545 := ⟨_, rfl⟩
  have hw' : rnd (j - 2451545) = w := hw.symm
  rw [hw'] at a
  rw [← hw] at hd hjd ⊢
  obtain ⟨a1, a2⟩ := abs_le.1 a
  norm_num at a1 a2
  have near : |jd - (j - 2451545 + (if utc then e.dt w - 1/3 else 0))| ≤ 1e-8 := by
    rw [hjd]
    cases utc
    · show |w - (j - 2451545 + 0)| ≤ 1e-8
      rw [abs_le]
      constructor <;> norm_num <;> linarith
    · obtain ⟨k, hk⟩ : ∃ k, k = (-8 : ℚ) ⊘ 24 := ⟨_, rfl⟩
      have z := eight_near
      rw [← hk] at z
      obtain ⟨z1, z2⟩ := abs_le.1 z
      norm_num at z1 z2
      obtain ⟨d1, d2⟩ := abs_le.1 hd
      have b : |rnd (k + e.dt w) - (k + e.dt w)| ≤ 3 / 9007199254740992 := rnd_err1 (by rw [abs_le]; constructor <;> linarith) (by norm_num)
      obtain ⟨u, hu⟩ : ∃ u, u = rnd (k + e.dt w) := ⟨_, rfl⟩
      rw [← hu] at b
      obtain ⟨b1, b2⟩ := abs_le.1 b
      norm_num at b1 b2
      have c : |rnd (w + u) - (w + u)| ≤ 27000000 / 9007199254740992 := rnd_err1 (by rw [abs_le]; constructor <;> linarith) (by norm_num)
      obtain ⟨c1, c2⟩ := abs_le.1 c
      norm_num at c1 c2
      show |w ⊞ (((-8 : ℚ) ⊘ 24) ⊞ e.dt w) - (j - 2451545 + (e.dt w - 1/3))| ≤ 1e-8
      rw [show w ⊞ (((-8 : ℚ) ⊘ 24) ⊞ e.dt w) = rnd (w + u) by rw [hu, hk]; rfl, abs_le]
      constructor <;> norm_num <;> linarith
  have prog : rysCalc e d utc nasa = ((if NearNew (e.sky jd).msHJ then solarPart e (e.sky jd) utc nasa jd else some []).bind fun s =>
      (if NearFull (e.sky jd).msHJ then lunarPart e (e.sky jd) utc jd else some s).bind fun s => some (s ++ (e.sky jd).text)) := by
    unfold rysCalc
    rw [hj]
    simp only [Option.bind_eq_bind, Option.bind_some, ← hw, ← hjd, Option.pure_def]
    rfl
  have bd : -2446990 ≤ jd ∧ jd ≤ 26999990 := by
    obtain ⟨n1, n2⟩ := abs_le.1 near
    obtain ⟨d1, d2⟩ := abs_le.1 hd
    norm_num at n1 n2
    cases utc
    · simp at n1 n2
      constructor <;> linarith
    · simp at n1 n2
      constructor <;> linarith
  refine ⟨jd, near, fun hn hT => ?_, fun hf hT => ?_, fun hn hf => ?_⟩
  · have nf : ¬ NearFull (e.sky jd).msHJ := fun hf => not_both _ ⟨hn, hf⟩
    obtain ⟨s, hs, r⟩ := solar_ok e utc nasa bd.1 bd.2 hT
    refine ⟨nf, s, r, ?_⟩
    rw [prog, if_pos hn, hs, Option.bind_some, if_neg nf]
    rfl
  · have nn : ¬ NearNew (e.sky jd).msHJ := fun hn => not_both _ ⟨hn, hf⟩
    obtain ⟨s, hs, r⟩ := lunar_ok e utc hT
    refine ⟨nn, s, r, ?_⟩
    rw [prog, if_neg nn, Option.bind_some, if_pos hf, hs]
    rfl
  · rw [prog, if_neg hn, Option.bind_some, if_neg hf]
    rfl

/-- **C97 (defect).**  The mark for a contact that does not happen is the instant 0: a contact at noon of 1 January 2000, dynamical time, would be left out. -/
theorem c97_noon_lost (dt : ℚ → ℚ) (utc : Bool) (td : Str) : contactRows dt utc [("食甚".toList, 0)] td = some [] := by
  unfold contactRows
  rw [if_pos rfl]
  rfl

/-- a timetable: three contacts, the second does not happen -/
example : contactRows (fun _ => 0) true [("初亏".toList, 1/2), ("食甚".toList, 0), ("复圆".toList, 3/4)] " TD".toList
    = some "初亏: 2000-01-02 08:00:00 UTC\n复圆: 2000-01-02 14:00:00 UTC\n".toList := by decide +kernel

/-- a case: new moon at noon of 1 January 2000 with five contacts -/
example : let e : ReportEnv := ⟨fun _ => 1/1000, fun _ => ⟨1/100, 960, 950, 3, none, 0, 0, 0, 0, ['x']⟩, fun _ _ => ⟨[none, none, none, none, none], [], []⟩, fun _ _ => ⟨['全'], [1/8, 1/4, 3/8, 0, 0], 0, 1, 1⟩,
      fun _ => ⟨[], [], 0, 0, 0⟩, fun _ _ _ => ['m'], fun _ _ => ['n']⟩
    ∃ jd s, SolarReport e true false jd s ∧ rysCalc e ⟨2000, 1, 1, 12, 0, 0⟩ true false = some (s ++ ['x']) := by
  intro e
  obtain ⟨jd, -, h, -⟩ := c97_report e ⟨2000, 1, 1, 12, 0, 0⟩ true false 2451545 (by decide +kernel) (by norm_num) (by norm_num) (by show |(1/1000 : ℚ)| ≤ 2; rw [abs_of_pos] <;> norm_num)
  obtain ⟨-, s, r, c⟩ := h (Or.inl (by show (1/100 : ℚ) < _; decide +kernel)) (by
    intro t ht _
    refine ⟨?_, ?_, by show |(1/1000 : ℚ)| ≤ 2; rw [abs_of_pos] <;> norm_num⟩ <;>
    · have : t ∈ ([1/8, 1/4, 3/8, 0, 0] : List ℚ) := ht
      simp only [List.mem_cons, List.not_mem_nil, or_false] at this
      rcases this with rfl | rfl | rfl | rfl | rfl <;> norm_num)
  exact ⟨jd, s, r, c⟩

end Verif.Cal
