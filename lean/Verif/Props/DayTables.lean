import Verif.DayTables
import Verif.Props.Calendar

/-!
# C95: the panel of rising and setting and the yearly tables
-/

namespace Verif.Cal
open Verif.Fp

/-- the text `s` shows the instant `t`: an existing day and the seconds since its midnight, within half a second (and a thousandth for rounding) of `t`.  (As in C06 the last half
second of a day may be shown as 24:00:00.) -/
def Clock (t : ℚ) (s : Str) : Prop := ∃ (c : CDate) (n sec : ℤ), c.Valid ∧ toJD (noon c) = some (n : ℚ) ∧ 0 ≤ sec ∧ sec ≤ 86400 ∧
  s = dateText c.y c.m c.d ++ ' ' :: clockText sec ∧ |n - 1/2 + sec / 86400 - t| ≤ 0.501 / 86400

theorem zone_near : |zone - 1/3| ≤ 1/2^54 := by
  have : zone = rnd (8/24) := rfl
  rw [this]
  decide +kernel

theorem near_jd {x t : ℚ} (h1 : 4096 ≤ x) (h2 : x ≤ 30000000) (ht : |x - t| ≤ 4e-9) : ∃ s, jd2str x = some s ∧ Clock t s := by
  obtain ⟨c, n, sec, v, hn, a1, a2, s0, s1, hs, e⟩ := c06_jd2str_nearest_partial x h1 h2
  refine ⟨_, e, c, n, sec, v, hn, s0, s1, rfl, ?_⟩
  have r := rnd_err1 (q := x + 1/2) (B := 30000001) (by rw [abs_of_nonneg (by linarith)]; linarith) (by norm_num)
  have f1 := Int.floor_le ((rnd (x + 1/2) - n) * 86400 + 1/2)
  have f2 := Int.lt_floor_add_one ((rnd (x + 1/2) - n) * 86400 + 1/2)
  rw [← hs] at f1 f2
  obtain ⟨r1, r2⟩ := abs_le.1 r
  obtain ⟨t1, t2⟩ := abs_le.1 ht
  norm_num at r1 r2 t1 t2
  rw [abs_le]
  constructor
  · norm_num; linarith
  · norm_num; linarith

/-- `t + (J2000 + 8/24)` in doubles -/
theorem beijing_sum {t : ℚ} (h1 : -2447000 ≤ t) (h2 : t ≤ 27000000) : |t ⊞ (2451545 ⊞ zone) - (t + 2451545 + 1/3)| ≤ 4e-9 ∧ 4096 ≤ t ⊞ (2451545 ⊞ zone) ∧ t ⊞ (2451545 ⊞ zone) ≤ 30000000 := by
  have z := abs_le.1 zone_near
  have a : |rnd (2451545 + zone) - (2451545 + zone)| ≤ 3000000 / 9007199254740992 :=
    rnd_err1 (by rw [abs_of_nonneg (by norm_num at z ⊢; linarith [z.1])]; norm_num at z ⊢; linarith [z.2]) (by norm_num)
  obtain ⟨a1, a2⟩ := abs_le.1 a
  obtain ⟨C, hC⟩ : ∃ C, C = (2451545 : ℚ) ⊞ zone := ⟨_, rfl⟩
  have hC' : rnd (2451545 + zone) = C := hC.symm
  rw [hC'] at a1 a2
  have b : |rnd (t + C) - (t + C)| ≤ 29700000 / 9007199254740992 := by
    refine rnd_err1 ?_ (by norm_num)
    rw [abs_le]
    norm_num at z a1 a2 ⊢
    constructor <;> linarith [z.1, z.2]
  obtain ⟨b1, b2⟩ := abs_le.1 b
  rw [← hC]
  have e : t ⊞ C = rnd (t + C) := rfl
  rw [e]
  norm_num at z a1 a2 b1 b2
  refine ⟨abs_le.2 ⟨?_, ?_⟩, ?_, ?_⟩ <;> norm_num <;> linarith [z.1, z.2]

theorem beijing_ok {t : ℚ} (h1 : -2447000 ≤ t) (h2 : t ≤ 27000000) : ∃ s, beijing t = some s ∧ Clock (t + 2451545 + 1/3) s := by
  obtain ⟨a, b, c⟩ := beijing_sum h1 h2
  exact near_jd b c a

/-! ## The length of the day -/

theorem below_one {x : ℚ} (hx : IsDouble x) (h : x < 1) (h0 : 0 ≤ x) : x ≤ 1 - 1/2^53 := by
  by_cases hb : (1 : ℚ)/2 ≤ x
  · obtain ⟨k, hk⟩ := hx.multiple (-53) (by rw [abs_of_nonneg h0]; norm_num; linarith)
    have hk' : x = k / 9007199254740992 := by rw [hk]; norm_num; ring
    rw [hk'] at h ⊢
    rw [div_lt_one (by norm_num)] at h
    have : k ≤ 9007199254740991 := by
      have : k < 9007199254740992 := by exact_mod_cast h
      omega
    have : (k : ℚ) ≤ 9007199254740991 := by exact_mod_cast this
    norm_num
    rw [div_le_iff₀ (by norm_num)]
    linarith
  · push Not at hb
    norm_num
    linarith

theorem timeStr_short {l : ℚ} (hl : IsDouble l) (h0 : 0 ≤ l) (h1 : l < 1) :
    ∃ sec : ℤ, 0 ≤ sec ∧ sec ≤ 86400 ∧ |sec - 86400 * l| ≤ 0.501 ∧ timeStr (l ⊟ (1/2)) = some (clockText sec) := by
  have hb := below_one hl h1 h0
  obtain ⟨x, hx⟩ : ∃ x, x = l ⊟ (1/2) := ⟨_, rfl⟩
  have hx' : x = rnd (l - 1/2) := hx
  have e1 : |x - (l - 1/2)| ≤ 1 / 9007199254740992 := by
    rw [hx']; exact rnd_err1 (by rw [abs_le]; constructor <;> linarith) (by norm_num)
  have d1 : IsDouble (-(1:ℚ)/2) := by unfold IsDouble; decide +kernel
  have d2 : IsDouble ((1:ℚ)/2 - 1/2^53) := by unfold IsDouble; decide +kernel
  have d3 : IsDouble ((1:ℚ) - 1/2^53) := by unfold IsDouble; decide +kernel
  have x0 : -(1:ℚ)/2 ≤ x := by rw [hx']; exact le_rnd_of_double d1 (by linarith)
  have x1 : x ≤ 1/2 - 1/2^53 := by rw [hx']; exact rnd_le_of_double d2 (by linarith)
  obtain ⟨y, hy⟩ : ∃ y, y = x ⊞ (1/2) := ⟨_, rfl⟩
  have hy' : y = rnd (x + 1/2) := hy
  have y0 : 0 ≤ y := by rw [hy']; exact rnd_nonneg (by linarith)
  have y1 : y ≤ 1 - 1/2^53 := by rw [hy']; exact rnd_le_of_double d3 (by linarith)
  have e2 : |y - (x + 1/2)| ≤ 1 / 9007199254740992 := by
    rw [hy']; exact rnd_err1 (by rw [abs_le]; norm_num at x1; constructor <;> linarith) (by norm_num)
  have hD : int2 y = some 0 := by
    refine int2_eq ?_ (by norm_num) (by norm_num)
    rw [Int.floor_eq_iff]
    norm_num at y1 ⊢
    exact ⟨y0, by linarith⟩
  have hF : y ⊟ ((0 : ℤ) : ℚ) = y := by
    have : IsDouble y := by rw [hy']; exact rnd_isDouble _
    unfold fsub
    push_cast
    rw [sub_zero]; exact this
  obtain ⟨p, hp⟩ : ∃ p, p = y ⊠ 86400 := ⟨_, rfl⟩
  have hp' : p = rnd (y * 86400) := hp
  have y1' : y ≤ 1 := by norm_num at y1; linarith
  have p0 : 0 ≤ p := by rw [hp']; exact rnd_nonneg (by linarith)
  have p1 : p ≤ 86400 := by
    have := rnd_le_of_double (isDouble_int (n := 86400) (by norm_num)) (x := y * 86400) (by push_cast; linarith)
    rw [hp']; push_cast at this; exact this
  have e3 : |p - y * 86400| ≤ 86400 / 9007199254740992 := by
    rw [hp']; exact rnd_err1 (by rw [abs_of_nonneg (by linarith)]; linarith) (by norm_num)
  obtain ⟨q, hq⟩ : ∃ q, q = p ⊞ (1/2) := ⟨_, rfl⟩
  have hq' : q = rnd (p + 1/2) := hq
  have q0 : 0 ≤ q := by rw [hq']; exact rnd_nonneg (by linarith)
  have q1 : q ≤ 86400 + 1/2 := by
    have d4 : IsDouble ((86400:ℚ) + 1/2) := by unfold IsDouble; decide +kernel
    rw [hq']; exact rnd_le_of_double d4 (by linarith)
  have e4 : |q - (p + 1/2)| ≤ 86401 / 9007199254740992 := by
    rw [hq']; exact rnd_err1 (by rw [abs_of_nonneg (by linarith)]; linarith) (by norm_num)
  obtain ⟨sec, hsec⟩ : ∃ s, s = ⌊q⌋ := ⟨_, rfl⟩
  have f1 := Int.floor_le q
  have f2 := Int.lt_floor_add_one q
  rw [← hsec] at f1 f2
  have s0 : 0 ≤ sec := by rw [hsec]; exact Int.floor_nonneg.2 q0
  have s1 : sec ≤ 86400 := by
    have : (sec : ℚ) < 86401 := by linarith
    have : sec < 86401 := by exact_mod_cast this
    omega
  have hS : int2 q = some sec := int2_eq hsec.symm (by omega) (by omega)
  refine ⟨sec, s0, s1, ?_, ?_⟩
  · obtain ⟨a1, a2⟩ := abs_le.1 e1
    obtain ⟨b1, b2⟩ := abs_le.1 e2
    obtain ⟨c1, c2⟩ := abs_le.1 e3
    obtain ⟨g1, g2⟩ := abs_le.1 e4
    norm_num at a1 a2 b1 b2 c1 c2 g1 g2
    rw [abs_le]
    constructor <;> norm_num <;> linarith
  · rw [← hx]
    unfold timeStr
    simp only
    rw [← hy, hD]
    simp only [Option.bind_eq_bind, Option.bind_some]
    rw [hF, ← hp, ← hq, hS]
    simp only [Option.bind_some]
    have q1 : int2 ((sec:ℚ) ⊘ 3600) = some (sec / 3600) := by
      apply int2_eq
      · have := floor_rnd_div sec 3600 (by rw [abs_of_nonneg s0]; omega) (by norm_num) (by norm_num)
        push_cast at this; exact this
      · omega
      · omega
    rw [q1]
    simp only [Option.bind_some]
    rw [i32_some (by omega) (by omega)]
    simp only [Option.bind_some]
    have q2 : int2 (((sec - sec / 3600 * 3600 : ℤ):ℚ) ⊘ 60) = some (sec % 3600 / 60) := by
      apply int2_eq
      · have := floor_rnd_div (sec - sec / 3600 * 3600) 60 (by rw [abs_of_nonneg (by omega)]; omega) (by norm_num) (by norm_num)
        push_cast at this ⊢
        unfold fdiv
        rw [this]; omega
      · omega
      · omega
    rw [q2]
    simp only [Option.bind_some]
    rw [i32_some (by omega) (by omega)]
    simp only [Option.bind_some]
    rw [two_eq _ (by omega) (by omega), two_eq _ (by omega) (by omega), two_eq _ (by omega) (by omega)]
    simp only [Option.bind_some, Option.pure_def, Option.some.injEq]
    unfold clockText
    rw [show sec - sec / 3600 * 3600 - sec % 3600 / 60 * 60 = sec % 60 by omega]

/-! ## The panel -/

/-- all instants of the panel are within the years -4700 and 76000 or so -/
def SJ.Good (r : SJ) : Prop := ∀ t ∈ [r.z, r.x, r.s, r.j, r.c, r.h, r.c2, r.h2, r.c3, r.h3], -2447000 ≤ t ∧ t ≤ 27000000

/-- **C95 (panel).**  Every line of the panel: the instants it was given, eight hours added, each to the nearest second; the length of the day and of the daylight to the nearest second. -/
theorem c95_panel (sun moon : ℚ → SJ) (sq : ℚ) {y m d : ℤ} (hv : (⟨y, m, d⟩ : CDate).Valid) (hr : (⟨y, m, d⟩ : CDate).InRange) :
    ∃ n : ℤ, toJD (noon ⟨y, m, d⟩) = some (n : ℚ) ∧ ∀ r q : SJ, sun (((n : ℚ) ⊟ 2451545) ⊟ sq) = r → moon (((n : ℚ) ⊟ 2451545) ⊟ sq) = q → r.Good → q.Good →
      0 ≤ r.j ⊟ r.s → r.j ⊟ r.s < 1 → 0 ≤ r.h ⊟ r.c → r.h ⊟ r.c < 1 →
      ∃ (f : ℚ → Str) (a b : ℤ), (∀ t, -2447000 ≤ t → t ≤ 27000000 → Clock (t + 2451545 + 1/3) (f t)) ∧ |a - 86400 * (r.j ⊟ r.s)| ≤ 0.501 ∧ |b - 86400 * (r.h ⊟ r.c)| ≤ 0.501 ∧
      shengjiang sun moon sq y m d = some ("\u001b[31;1m北京时间(转为格林尼治时间请减8小时)：\u001b[0m\n".toList
        ++ ("太阳升起 ".toList ++ f r.s ++ " 太阳降落 ".toList ++ f r.j ++ ['\n'])
        ++ ("日上中天 ".toList ++ f r.z ++ " 日下中天 ".toList ++ f r.x ++ ['\n'])
        ++ ("民用天亮 ".toList ++ f r.c ++ " 民用天黑 ".toList ++ f r.h ++ ['\n'])
        ++ ("航海天亮 ".toList ++ f r.c2 ++ " 航海天黑 ".toList ++ f r.h2 ++ ['\n'])
        ++ ("天文天亮 ".toList ++ f r.c3 ++ " 天文天黑 ".toList ++ f r.h3 ++ ['\n'])
        ++ "日照长度  ".toList ++ clockText a ++ " \n日光长度  ".toList ++ clockText b ++ ['\n']
        ++ (if r.sm.length ≠ 0 then "注：".toList ++ r.sm ++ ['\n'] else [])
        ++ ("月亮升起 ".toList ++ f q.s ++ " 月亮降落 ".toList ++ f q.j ++ ['\n'])
        ++ ("月上中天 ".toList ++ f q.z ++ " 月下中天 ".toList ++ f q.x ++ ['\n'])) := by
  obtain ⟨n, hn⟩ : ∃ n : ℤ, toJD (noon ⟨y, m, d⟩) = some (n : ℚ) := ⟨_, toJD_noon _ hv hr⟩
  refine ⟨n, hn, fun r q er eq gr gq a0 a1 b0 b1 => ?_⟩
  obtain ⟨a, -, -, ha, ta⟩ := timeStr_short (rnd_isDouble _) a0 a1
  obtain ⟨b, -, -, hb, tb⟩ := timeStr_short (rnd_isDouble _) b0 b1
  have P : ∀ t, -2447000 ≤ t ∧ t ≤ 27000000 → beijing t = some ((beijing t).getD []) := fun t h => by
    obtain ⟨s, e, -⟩ := beijing_ok h.1 h.2
    rw [e]; rfl
  refine ⟨fun t => (beijing t).getD [], a, b, fun t h1 h2 => ?_, ha, hb, ?_⟩
  · obtain ⟨s, e, c⟩ := beijing_ok h1 h2
    show Clock _ ((beijing t).getD [])
    rw [e]; exact c
  · have pr : ∀ l1 l2 t1 t2, (-2447000 ≤ t1 ∧ t1 ≤ 27000000) → (-2447000 ≤ t2 ∧ t2 ≤ 27000000) →
        pair l1 t1 l2 t2 = some (l1.toList ++ (beijing t1).getD [] ++ l2.toList ++ (beijing t2).getD [] ++ ['\n']) := by
      intro l1 l2 t1 t2 h1 h2
      show (beijing t1).bind _ = _
      rw [P t1 h1]
      show (beijing t2).bind _ = _
      rw [P t2 h2]
      rfl
    have G := fun t ht => gr t ht
    have H := fun t ht => gq t ht
    show (toJD (noon ⟨y, m, d⟩)).bind _ = _
    rw [hn]
    show (pair "太阳升起 " (sun (((n : ℚ) ⊟ 2451545) ⊟ sq)).s " 太阳降落 " (sun (((n : ℚ) ⊟ 2451545) ⊟ sq)).j).bind _ = _
    rw [er, eq, pr _ _ _ _ (G r.s (by simp)) (G r.j (by simp))]
    show (pair "日上中天 " r.z " 日下中天 " r.x).bind _ = _
    rw [pr _ _ _ _ (G r.z (by simp)) (G r.x (by simp))]
    show (pair "民用天亮 " r.c " 民用天黑 " r.h).bind _ = _
    rw [pr _ _ _ _ (G r.c (by simp)) (G r.h (by simp))]
    show (pair "航海天亮 " r.c2 " 航海天黑 " r.h2).bind _ = _
    rw [pr _ _ _ _ (G r.c2 (by simp)) (G r.h2 (by simp))]
    show (pair "天文天亮 " r.c3 " 天文天黑 " r.h3).bind _ = _
    rw [pr _ _ _ _ (G r.c3 (by simp)) (G r.h3 (by simp))]
    show (timeStr ((r.j ⊟ r.s) ⊟ (1/2))).bind _ = _
    rw [show timeStr ((r.j ⊟ r.s) ⊟ (1/2)) = _ from ta]
    show (timeStr ((r.h ⊟ r.c) ⊟ (1/2))).bind _ = _
    rw [show timeStr ((r.h ⊟ r.c) ⊟ (1/2)) = _ from tb]
    show (pair "月亮升起 " q.s " 月亮降落 " q.j).bind _ = _
    rw [pr _ _ _ _ (H q.s (by simp)) (H q.j (by simp))]
    show (pair "月上中天 " q.z " 月下中天 " q.x).bind _ = _
    rw [pr _ _ _ _ (H q.z (by simp)) (H q.x (by simp))]
    rfl

/-! ## The yearly tables -/

/-- the day `i` days after 1 January of the year `y` -/
def dayOf (y : ℤ) (i : ℕ) : CDate := CDate.next^[i] ⟨y, 1, 1⟩

theorem jan1_valid (y : ℤ) : (⟨y, 1, 1⟩ : CDate).Valid := by simp [CDate.Valid, lastDay]

theorem dayOf_ok (y : ℤ) (i : ℕ) : (dayOf y i).Valid ∧ dayNum (dayOf y i).y (dayOf y i).m (dayOf y i).d = dayNum y 1 1 + i := by
  induction i with
  | zero => exact ⟨jan1_valid y, by simp [dayOf]⟩
  | succ i ih =>
    have e : dayOf y (i + 1) = (dayOf y i).next := Function.iterate_succ_apply' _ _ _
    rw [e]
    refine ⟨next_valid _ ih.1, ?_⟩
    rw [dayNum_next _ ih.1, ih.2]
    push_cast; ring

theorem two_years (y : ℤ) : dayNum y 1 1 + 700 < dayNum (y + 2) 1 1 := by
  unfold dayNum
  simp only []
  norm_num
  split_ifs <;> omega

theorem dayOf_year {y : ℤ} {i : ℕ} (hi : i < 368) : y ≤ (dayOf y i).y ∧ (dayOf y i).y ≤ y + 2 := by
  obtain ⟨v, e⟩ := dayOf_ok y i
  constructor
  · by_contra h
    have := dayNum_before _ _ v (jan1_valid y) (Or.inl (by push Not at h; exact h))
    simp only at this
    omega
  · by_contra h
    have := dayNum_before _ _ (jan1_valid (y + 2)) v (Or.inl (by push Not at h; exact h))
    have := two_years y
    simp only at *
    omega

theorem dayOf_jd {y : ℤ} (h1 : -4700 ≤ y) (h2 : y ≤ 99997) {i : ℕ} (hi : i < 368) :
    toJD (noon (dayOf y i)) = some ((dayNum y 1 1 + i : ℤ) : ℚ) ∧
    jd2str ((dayNum y 1 1 + i : ℤ) : ℚ) = some (dateText (dayOf y i).y (dayOf y i).m (dayOf y i).d ++ ' ' :: clockText 43200) := by
  obtain ⟨v, e⟩ := dayOf_ok y i
  have b := dayOf_year (y := y) hi
  obtain ⟨j, t1, t2⟩ := c03_text_roundtrip (dayOf y i) v ⟨by omega, by omega⟩ 12 0 0 (by norm_num) (by norm_num) (by norm_num)
  have t3 := toJD_noon (dayOf y i) v ⟨by omega, by omega⟩
  have en : at_ (dayOf y i) 12 ((0 : ℤ)) ((0 : ℤ) : ℚ) = noon (dayOf y i) := by simp [at_, noon]
  rw [en] at t1
  rw [e] at t3
  have t3' : toJD (noon (dayOf y i)) = some ((dayNum y 1 1 + i : ℤ) : ℚ) := t3
  rw [t3'] at t1
  cases t1
  exact ⟨t3', t2⟩

theorem dateText_length {y m d : ℤ} (h1 : -9999 ≤ y) (h2 : y ≤ 99999) : (dateText y m d).length = 11 := by
  have := decimal_length5 y h1 h2
  unfold dateText dd
  simp
  omega

/-- the sum `jd + i` is exact -/
theorem sum_exact {a : ℤ} {i : ℕ} (h1 : -3000000 ≤ a) (h2 : a ≤ 40000000) (hi : i < 368) : (a : ℚ) ⊞ (i : ℚ) = ((a + i : ℤ) : ℚ) := by
  have : (a : ℚ) + (i : ℚ) = ((a + i : ℤ) : ℚ) := by push_cast; ring
  unfold fadd
  rw [this]
  exact rnd_intCast _ (by rw [abs_le]; constructor <;> omega)

theorem mapM_some {α β : Type} {f : α → Option β} {g : α → β} : ∀ {l : List α}, (∀ x ∈ l, f x = some (g x)) → l.mapM f = some (l.map g)
  | [], _ => rfl
  | x :: l, h => by
    rw [List.mapM_cons, h x (List.mem_cons_self ..)]
    show (l.mapM f).bind _ = _
    rw [mapM_some (fun y hy => h y (List.mem_cons_of_mem _ hy))]
    rfl

theorem jan1_bounds {y : ℤ} (h1 : -4700 ≤ y) (h2 : y ≤ 99997) : 4000 ≤ dayNum y 1 1 ∧ dayNum y 1 1 ≤ 39000000 := by
  unfold dayNum
  simp only []
  norm_num
  split_ifs <;> constructor <;> omega

/-- noon Beijing time of the Julian day `n`, in days from J2000, as the code computes it -/
def beijingNoon (n : ℤ) : ℚ := ((n : ℚ) ⊟ zone) ⊟ 2451545

theorem beijingNoon_near {n : ℤ} (h1 : -3000000 ≤ n) (h2 : n ≤ 40000000) : |beijingNoon n - (n - 1/3 - 2451545)| ≤ 1e-8 := by
  have z := abs_le.1 zone_near
  have n1 : (-3000000 : ℚ) ≤ n := by exact_mod_cast h1
  have n2 : (n : ℚ) ≤ 40000000 := by exact_mod_cast h2
  norm_num at z
  have a : |rnd ((n : ℚ) - zone) - ((n : ℚ) - zone)| ≤ 40000001 / 9007199254740992 := rnd_err1 (by rw [abs_le]; constructor <;> linarith [z.1, z.2]) (by norm_num)
  obtain ⟨a1, a2⟩ := abs_le.1 a
  obtain ⟨x, hx⟩ : ∃ x, x = rnd ((n : ℚ) - zone) := ⟨_, rfl⟩
  rw [← hx] at a1 a2
  have e : beijingNoon n = rnd (x - 2451545) := by rw [hx]; rfl
  norm_num at a1 a2
  have b : |rnd (x - 2451545) - (x - 2451545)| ≤ 45000000 / 9007199254740992 := rnd_err1 (by rw [abs_le]; constructor <;> linarith [z.1, z.2]) (by norm_num)
  obtain ⟨b1, b2⟩ := abs_le.1 b
  rw [← e] at b1 b2
  norm_num at b1 b2
  rw [abs_le]
  constructor <;> norm_num <;> linarith [z.1, z.2]

/-- **C95 (equation of time).**  For every year the table has 368 rows, row `i` for the day `i` days after 1 January: its date, and the value at noon Beijing time of that day (to a
thousandth of a second), ΔT added. -/
theorem c95_eq_table (dt : ℚ → ℚ) (eq : ℚ → Str) {y : ℤ} (h1 : -4700 ≤ y) (h2 : y ≤ 99997) :
    ∃ D : ℕ → ℚ, (∀ i < 368, ∃ n : ℤ, toJD (noon (dayOf y i)) = some (n : ℚ) ∧ |D i - (n - 1/3 - 2451545)| ≤ 1e-8) ∧
    shengjiang3 dt eq y = some ("太阳时差表(所用时间为北京时间每日12点)\n".toList ++ ((List.range 368).map fun i =>
      dateText (dayOf y i).y (dayOf y i).m (dayOf y i).d ++ " \u001b[31m".toList ++ eq (D i ⊞ dt (D i)) ++ "\u001b[0m\n".toList).flatten) := by
  have hb := jan1_bounds h1 h2
  refine ⟨fun i => beijingNoon (dayNum y 1 1 + i), fun i hi => ⟨dayNum y 1 1 + i, (dayOf_jd h1 h2 hi).1, beijingNoon_near (by omega) (by omega)⟩, ?_⟩
  have row : ∀ i ∈ List.range 368, eqRow dt eq ((dayNum y 1 1 : ℤ) : ℚ) i = some (dateText (dayOf y i).y (dayOf y i).m (dayOf y i).d ++ " \u001b[31m".toList
      ++ eq (beijingNoon (dayNum y 1 1 + i) ⊞ dt (beijingNoon (dayNum y 1 1 + i))) ++ "\u001b[0m\n".toList) := by
    intro i hi
    rw [List.mem_range] at hi
    have e := sum_exact (a := dayNum y 1 1) (i := i) (by omega) (by omega) hi
    have b := dayOf_year (y := y) hi
    have t := (dayOf_jd h1 h2 hi).2
    have len := dateText_length (y := (dayOf y i).y) (m := (dayOf y i).m) (d := (dayOf y i).d) (by omega) (by omega)
    show (jd2str (((dayNum y 1 1 : ℤ) : ℚ) ⊞ (i : ℚ))).bind _ = _
    rw [e, t]
    have u : ∀ (X : Str) (g : Str → Option Str), (some X).bind g = g X := fun _ _ => rfl
    rw [u]
    show (substr (dateText (dayOf y i).y (dayOf y i).m (dayOf y i).d ++ ' ' :: clockText 43200) 0 11).bind _ = _
    have sb : substr (dateText (dayOf y i).y (dayOf y i).m (dayOf y i).d ++ ' ' :: clockText 43200) 0 11 = some (dateText (dayOf y i).y (dayOf y i).m (dayOf y i).d) := by
      unfold substr
      rw [if_pos (Nat.zero_le _), List.drop_zero, List.take_append_of_le_length (by omega), List.take_of_length_le (by omega)]
    rw [sb]
    rfl
  show (toJD (noon ⟨y, 1, 1⟩)).bind _ = _
  have t : toJD (noon ⟨y, 1, 1⟩) = some ((dayNum y 1 1 : ℤ) : ℚ) := toJD_noon _ (jan1_valid y) ⟨by simp only; omega, by simp only; omega⟩
  rw [t]
  show ((List.range 368).mapM (eqRow dt eq ((dayNum y 1 1 : ℤ) : ℚ))).bind _ = _
  rw [mapM_some row]
  rfl

/-- **C95 (whole year).**  Every day of the year has its row. -/
theorem c95_whole_year {y : ℤ} {c : CDate} (hv : c.Valid) (hy : c.y = y) : ∃ i < 368, dayOf y i = c := by
  obtain ⟨cy, m, d⟩ := c
  simp only at hy
  subst hy
  have up : dayNum cy 1 1 ≤ dayNum cy m d := by
    by_cases h : (⟨cy, 1, 1⟩ : CDate) = ⟨cy, m, d⟩
    · rw [CDate.mk.injEq] at h
      rw [← h.2.1, ← h.2.2]
    · have hv' := hv
      obtain ⟨m1, m2, d1, d2, -⟩ := hv'
      simp only at m1 m2 d1 d2
      have : (⟨cy, 1, 1⟩ : CDate).before ⟨cy, m, d⟩ := by
        refine Or.inr ⟨rfl, ?_⟩
        by_contra hc
        push Not at hc
        simp only at hc
        apply h
        rw [CDate.mk.injEq]
        refine ⟨rfl, by omega, ?_⟩
        have := hc.2 (by omega)
        omega
      exact (dayNum_before _ _ (jan1_valid cy) hv this).le
  have lt : dayNum cy m d < dayNum (cy + 1) 1 1 := dayNum_before ⟨cy, m, d⟩ ⟨cy + 1, 1, 1⟩ hv (jan1_valid _) (Or.inl (by simp))
  have year : dayNum (cy + 1) 1 1 ≤ dayNum cy 1 1 + 368 := by
    unfold dayNum
    simp only []
    norm_num
    split_ifs <;> omega
  refine ⟨(dayNum cy m d - dayNum cy 1 1).toNat, by omega, ?_⟩
  obtain ⟨v, e⟩ := dayOf_ok cy (dayNum cy m d - dayNum cy 1 1).toNat
  have e2 : dayNum (dayOf cy (dayNum cy m d - dayNum cy 1 1).toNat).y (dayOf cy (dayNum cy m d - dayNum cy 1 1).toNat).m (dayOf cy (dayNum cy m d - dayNum cy 1 1).toNat).d = dayNum cy m d := by
    rw [e]; omega
  have o1 := ofDay_dayNum _ v
  have o2 := ofDay_dayNum ⟨cy, m, d⟩ hv
  rw [e2] at o1
  rw [o1] at o2
  simp only [Prod.mk.injEq] at o2
  revert o2
  cases dayOf cy (dayNum cy m d - dayNum cy 1 1).toNat
  rintro ⟨rfl, rfl, rfl⟩
  rfl

/-- `c06_jd2str_nearest_partial` with the bounds of the year -/
theorem jd2str_year (jd : ℚ) (h1 : 4096 ≤ jd) (h2 : jd ≤ 30000000) :
    ∃ (c : CDate) (n sec : ℤ), -9999 ≤ c.y ∧ c.y ≤ 99999 ∧ c.Valid ∧ toJD (noon c) = some (n : ℚ) ∧
      (n : ℚ) ≤ rnd (jd + 1/2) ∧ rnd (jd + 1/2) < n + 1 ∧
      0 ≤ sec ∧ sec ≤ 86400 ∧ sec = ⌊(rnd (jd + 1/2) - n) * 86400 + 1/2⌋ ∧
      jd2str jd = some (dateText c.y c.m c.d ++ ' ' :: clockText sec) := by
  obtain ⟨N, h, m, x, e, b1, b2, b3, b4, b5, b6, b7, b8, b9⟩ := setFromJD_eq jd h1 (by linarith)
  have hx0 : (0:ℚ) ≤ x := by exact_mod_cast b7
  have hx1 : (x:ℚ) < 60 * 1099511627776 := by exact_mod_cast b8
  have hh0 : (0:ℚ) ≤ ((h * 3600 + m * 60 : ℤ):ℚ) := by exact_mod_cast (by omega)
  have hh1 : ((h * 3600 + m * 60 : ℤ):ℚ) ≤ 86340 := by exact_mod_cast (by omega)
  unfold fadd at b9
  have hNub : N ≤ 30000001 := by
    have : rnd (jd + 1/2) ≤ (30000001 : ℤ) := rnd_le_int (by norm_num) (by push_cast; linarith)
    rw [b9] at this
    have h3 : (0:ℚ) ≤ (((h * 3600 + m * 60 : ℤ):ℚ) + x / 1099511627776) / 86400 := by positivity
    push_cast at this
    have : (N:ℚ) ≤ 30000001 := by push_cast at *; linarith
    exact_mod_cast this
  obtain ⟨c, hv, hr, hc⟩ := ofDay_spec N (by omega)
  have hof : ofDay N = (c.y, c.m, c.d) := by rw [← hc]; exact ofDay_dayNum c hv
  rw [hof] at e
  have hcy : c.y ≤ 99999 := by
    by_contra hcon
    have := dayNum_lower' c.y c.m c.d hv (by omega)
    omega
  obtain ⟨⟨hM1, hM2⟩, ⟨hD1, hD2⟩, -⟩ := valid_bounds hv
  refine ⟨c, N, h * 3600 + m * 60 + (x + 549755813888) / 1099511627776, by rcases hr with h | h <;> omega, hcy, hv, ?_, ?_, ?_, by omega, by omega, ?_, ?_⟩
  · rw [← hc]; exact toJD_noon c hv ⟨by omega, by omega⟩
  · rw [b9]
    have h3 : (0:ℚ) ≤ (((h * 3600 + m * 60 : ℤ):ℚ) + x / 1099511627776) / 86400 := by positivity
    linarith
  · rw [b9]
    have h4 : (x:ℚ) / 1099511627776 < 60 := by rw [div_lt_iff₀ (by norm_num)]; linarith
    have h3 : (((h * 3600 + m * 60 : ℤ):ℚ) + x / 1099511627776) / 86400 < 1 := by
      rw [div_lt_one (by norm_num)]; linarith
    linarith
  · rw [b9]
    rw [show ((N:ℚ) + (((h * 3600 + m * 60 : ℤ):ℚ) + x / 1099511627776) / 86400 - N) * 86400 + 1/2 =
      ((h * 3600 + m * 60 : ℤ):ℚ) + ((x + 549755813888 : ℤ) : ℚ) / 1099511627776 by push_cast; ring]
    rw [Int.floor_intCast_add, floor_div_pow]
  · unfold jd2str
    rw [e]
    simp only [Option.bind_eq_bind, Option.bind_some]
    exact dd2str_eq _ _ _ _ _ _ (by omega) (by omega) ⟨b3, b4⟩ ⟨b5, b6⟩ ⟨b7, b8⟩ (decimal_length5 _ (by omega) (by omega))

/-- the row `s` of the table shows the setting at `set` to the second, but of the rising at `rise` only the date without the first column of its year, and the hour -/
def SunLine (rise set : ℚ) (s : Str) : Prop := ∃ (c : CDate) (n sec n' sec' : ℤ), c.Valid ∧ toJD (noon c) = some (n : ℚ) ∧ 0 ≤ sec ∧ sec ≤ 86400 ∧ 0 ≤ sec' ∧ sec' ≤ 86400 ∧
  |n - 1/2 + sec / 86400 - (rise + 2451545 + 1/3)| ≤ 0.501 / 86400 ∧ |n' - 1/2 + sec' / 86400 - (set + 2451545 + 1/3)| ≤ 0.501 / 86400 ∧
  s = "  \u001b[31m".toList ++ ((dateText c.y c.m c.d).drop 1 ++ ' ' :: dd (sec / 3600) ++ [':']) ++ "\u001b[0m  ".toList ++ clockText sec' ++ ['\n']

/-- **C95 (rising and setting).**  Row `i` of the table of rising and setting: the moment of setting to the second, but of the moment of rising only the date without the first
column of its year and the hour. -/
theorem c95_sun_row (rise set : ℚ → ℚ) (jd : ℚ) (i : ℕ)
    (hr : -2447000 ≤ rise (jd ⊞ i) ∧ rise (jd ⊞ i) ≤ 27000000) (hs : -2447000 ≤ set (jd ⊞ i) ∧ set (jd ⊞ i) ≤ 27000000) :
    ∃ s, sunRow rise set jd i = some s ∧ SunLine (rise (jd ⊞ i)) (set (jd ⊞ i)) s := by
  have S : ∀ t : ℚ, -2447000 ≤ t ∧ t ≤ 27000000 → |(t ⊞ 2451545) ⊞ zone - (t + 2451545 + 1/3)| ≤ 8e-9 ∧ 4096 ≤ (t ⊞ 2451545) ⊞ zone ∧ (t ⊞ 2451545) ⊞ zone ≤ 30000000 := by
    rintro t ⟨t1, t2⟩
    have z := abs_le.1 zone_near
    norm_num at z
    have a : |rnd (t + 2451545) - (t + 2451545)| ≤ 29500000 / 9007199254740992 := rnd_err1 (by rw [abs_le]; constructor <;> linarith) (by norm_num)
    obtain ⟨x, hx⟩ : ∃ x, x = rnd (t + 2451545) := ⟨_, rfl⟩
    rw [← hx] at a
    obtain ⟨a1, a2⟩ := abs_le.1 a
    norm_num at a1 a2
    have b : |rnd (x + zone) - (x + zone)| ≤ 29500000 / 9007199254740992 := rnd_err1 (by rw [abs_le]; constructor <;> linarith [z.1, z.2]) (by norm_num)
    obtain ⟨b1, b2⟩ := abs_le.1 b
    norm_num at b1 b2
    have e : (t ⊞ 2451545) ⊞ zone = rnd (x + zone) := by rw [hx]; rfl
    rw [e]
    refine ⟨abs_le.2 ⟨?_, ?_⟩, ?_, ?_⟩ <;> norm_num <;> linarith [z.1, z.2]
  obtain ⟨r1, r2, r3⟩ := S _ hr
  obtain ⟨s1, s2, s3⟩ := S _ hs
  obtain ⟨x, hx⟩ : ∃ x, x = (rise (jd ⊞ i) ⊞ 2451545) ⊞ zone := ⟨_, rfl⟩
  obtain ⟨w, hw⟩ : ∃ w, w = (set (jd ⊞ i) ⊞ 2451545) ⊞ zone := ⟨_, rfl⟩
  rw [← hx] at r1 r2 r3
  rw [← hw] at s1 s2 s3
  obtain ⟨c, n, sec, y1, y2, v, hn, a1, a2, p0, p1, hsec, e⟩ := jd2str_year x r2 r3
  obtain ⟨n', sec', b1, b2, q0, q1, hsec', e'⟩ := c07_timeStr_nearest_partial w s2 (by linarith)
  have near : ∀ (x t : ℚ) (n sec : ℤ), 4096 ≤ x → x ≤ 30000000 → |x - t| ≤ 8e-9 → sec = ⌊(rnd (x + 1/2) - n) * 86400 + 1/2⌋ → |n - 1/2 + sec / 86400 - t| ≤ 0.501 / 86400 := by
    intro x t n sec x1 x2 ht hs
    have r := rnd_err1 (q := x + 1/2) (B := 30000001) (by rw [abs_of_nonneg (by linarith)]; linarith) (by norm_num)
    have f1 := Int.floor_le ((rnd (x + 1/2) - n) * 86400 + 1/2)
    have f2 := Int.lt_floor_add_one ((rnd (x + 1/2) - n) * 86400 + 1/2)
    rw [← hs] at f1 f2
    obtain ⟨r1, r2⟩ := abs_le.1 r
    obtain ⟨t1, t2⟩ := abs_le.1 ht
    norm_num at r1 r2 t1 t2
    rw [abs_le]
    constructor <;> norm_num <;> linarith
  refine ⟨"  \u001b[31m".toList ++ ((dateText c.y c.m c.d).drop 1 ++ ' ' :: dd (sec / 3600) ++ [':']) ++ "\u001b[0m  ".toList ++ clockText sec' ++ ['\n'], ?_,
    c, n, sec, n', sec', v, hn, p0, p1, q0, q1, near _ _ _ _ r2 r3 r1 hsec, near _ _ _ _ s2 s3 s1 hsec', rfl⟩
  have len := dateText_length (m := c.m) (d := c.d) y1 y2
  show (jd2str ((rise (jd ⊞ i) ⊞ 2451545) ⊞ zone)).bind _ = _
  rw [← hx, e]
  show (substr (dateText c.y c.m c.d ++ ' ' :: clockText sec) 1 14).bind _ = _
  have sb : substr (dateText c.y c.m c.d ++ ' ' :: clockText sec) 1 14 = some ((dateText c.y c.m c.d).drop 1 ++ ' ' :: dd (sec / 3600) ++ [':']) := by
    unfold substr
    rw [if_pos (by rw [List.length_append, len]; omega), List.drop_append_of_le_length (by omega)]
    have l2 : ((dateText c.y c.m c.d).drop 1).length = 10 := by rw [List.length_drop, len]
    rw [show (14 : ℕ) = ((dateText c.y c.m c.d).drop 1).length + 4 by rw [l2], List.take_length_add_append]
    simp [clockText, dd]
  rw [sb]
  show (timeStr ((set (jd ⊞ i) ⊞ 2451545) ⊞ zone)).bind _ = _
  rw [← hw, e']
  rfl

/-- **C95 (table of rising and setting).**  For every year the table has 368 rows; row `i` asks for the rising and the setting at noon UT of the day `i` days after 1 January (exactly:
the Julian day of that noon minus 2451545) and shows them as `SunLine` says, in Beijing time. -/
theorem c95_sun_table (rise set : ℚ → ℚ) {y : ℤ} (h1 : -4690 ≤ y) (h2 : y ≤ 70000)
    (h : ∀ t, (-2446900 ≤ t ∧ t ≤ 26000000) → (-2447000 ≤ rise t ∧ rise t ≤ 27000000) ∧ (-2447000 ≤ set t ∧ set t ≤ 27000000)) :
    ∃ R : ℕ → Str, shengjiang2 rise set y = some (decimal y ++ "年太阳年度升降表\n        升        降\n".toList ++ ((List.range 368).map R).flatten) ∧
      ∀ i < 368, ∃ n : ℤ, toJD (noon (dayOf y i)) = some (n : ℚ) ∧ SunLine (rise (n - 2451545)) (set (n - 2451545)) (R i) := by
  have hb : 4700 ≤ dayNum y 1 1 ∧ dayNum y 1 1 ≤ 28000000 := by
    unfold dayNum
    simp only []
    norm_num
    split_ifs <;> constructor <;> omega
  have e0 : ((dayNum y 1 1 : ℤ) : ℚ) ⊟ 2451545 = ((dayNum y 1 1 - 2451545 : ℤ) : ℚ) := by
    unfold fsub
    rw [show ((dayNum y 1 1 : ℤ) : ℚ) - 2451545 = ((dayNum y 1 1 - 2451545 : ℤ) : ℚ) by push_cast; ring]
    exact rnd_intCast _ (by rw [abs_le]; constructor <;> omega)
  have row : ∀ i < 368, ∃ s, sunRow rise set ((dayNum y 1 1 - 2451545 : ℤ) : ℚ) i = some s ∧
      SunLine (rise (((dayNum y 1 1 + i : ℤ) : ℚ) - 2451545)) (set (((dayNum y 1 1 + i : ℤ) : ℚ) - 2451545)) s := by
    intro i hi
    have e := sum_exact (a := dayNum y 1 1 - 2451545) (i := i) (by omega) (by omega) hi
    have e' : ((dayNum y 1 1 - 2451545 + i : ℤ) : ℚ) = ((dayNum y 1 1 + i : ℤ) : ℚ) - 2451545 := by push_cast; ring
    have b1 : ((-2446900 : ℤ) : ℚ) ≤ ((dayNum y 1 1 - 2451545 + i : ℤ) : ℚ) := by exact_mod_cast (by omega)
    have b2 : ((dayNum y 1 1 - 2451545 + i : ℤ) : ℚ) ≤ ((26000000 : ℤ) : ℚ) := by exact_mod_cast (by omega)
    have g := h ((dayNum y 1 1 - 2451545 + i : ℤ) : ℚ) ⟨by push_cast at b1 ⊢; linarith, by push_cast at b2 ⊢; linarith⟩
    have r := c95_sun_row rise set ((dayNum y 1 1 - 2451545 : ℤ) : ℚ) i (by rw [e]; exact g.1) (by rw [e]; exact g.2)
    rw [e, e'] at r
    exact r
  have row' : ∀ i, ∃ s, i < 368 → sunRow rise set ((dayNum y 1 1 - 2451545 : ℤ) : ℚ) i = some s ∧
      SunLine (rise (((dayNum y 1 1 + i : ℤ) : ℚ) - 2451545)) (set (((dayNum y 1 1 + i : ℤ) : ℚ) - 2451545)) s := by
    intro i
    by_cases hi : i < 368
    · obtain ⟨s, hs⟩ := row i hi
      exact ⟨s, fun _ => hs⟩
    · exact ⟨[], fun h => absurd h hi⟩
  choose R hR using row'
  refine ⟨R, ?_, fun i hi => ⟨dayNum y 1 1 + i, (dayOf_jd (by omega) (by omega) hi).1, (hR i hi).2⟩⟩
  show (toJD (noon ⟨y, 1, 1⟩)).bind _ = _
  have t : toJD (noon ⟨y, 1, 1⟩) = some ((dayNum y 1 1 : ℤ) : ℚ) := toJD_noon _ (jan1_valid y) ⟨by simp only; omega, by simp only; omega⟩
  rw [t]
  show ((List.range 368).mapM (sunRow rise set (((dayNum y 1 1 : ℤ) : ℚ) ⊟ 2451545))).bind _ = _
  rw [e0, mapM_some (fun i hi => (hR i (List.mem_range.1 hi)).1)]
  rfl

/-- **C95 (defect).**  The column of risings shows neither the minute nor the sign of the year: a rising at 07:36 Beijing time and another at 07:59 read alike, and the years −1000 and 1000
differ in nothing else than the first column cut off. -/
theorem c95_rise_column_short :
    sunRow (fun _ => -1/60) (fun _ => 1/4) 0 0 = sunRow (fun _ => -1/3600) (fun _ => 1/4) 0 0 ∧
    (sunRow (fun _ => -1/60) (fun _ => 1/4) 0 0).isSome ∧
    jd2str (((-1/60) ⊞ 2451545) ⊞ zone) ≠ jd2str (((-1/3600) ⊞ 2451545) ⊞ zone) := by decide +kernel

/-- a case: 1 January 2024 -/
example : ∃ R : ℕ → Str, shengjiang2 (fun t => t - 1/3 - 1/5) (fun t => t + 1/5) 2024 = some (decimal 2024 ++ "年太阳年度升降表\n        升        降\n".toList ++ ((List.range 368).map R).flatten) ∧
      ∀ i < 368, ∃ n : ℤ, toJD (noon (dayOf 2024 i)) = some (n : ℚ) ∧ SunLine ((n - 2451545 : ℚ) - 1/3 - 1/5) ((n - 2451545 : ℚ) + 1/5) (R i) :=
  c95_sun_table (fun t => t - 1/3 - 1/5) (fun t => t + 1/5) (by norm_num) (by norm_num) fun t ht => by
    obtain ⟨a, b⟩ := ht
    refine ⟨⟨?_, ?_⟩, ?_, ?_⟩ <;> norm_num <;> linarith

example : dayOf 2024 59 = ⟨2024, 2, 29⟩ := by decide +kernel

/-- the hypotheses of `c95_panel`: 1 January 2000, a sun up from six hours before to six hours after noon, twilight of half an hour -/
example : let r : SJ := ⟨0, 1/2, -1/4, 1/4, -17/64, 17/64, -18/64, 18/64, -19/64, 19/64, []⟩
    (⟨2000, 1, 1⟩ : CDate).Valid ∧ (⟨2000, 1, 1⟩ : CDate).InRange ∧ r.Good ∧ 0 ≤ r.j ⊟ r.s ∧ r.j ⊟ r.s < 1 ∧ 0 ≤ r.h ⊟ r.c ∧ r.h ⊟ r.c < 1 := by
  refine ⟨by simp [CDate.Valid, lastDay], by simp [CDate.InRange], ?_, by decide +kernel, by decide +kernel, by decide +kernel, by decide +kernel⟩
  intro t ht
  simp only [List.mem_cons, List.not_mem_nil, or_false] at ht
  rcases ht with rfl | rfl | rfl | rfl | rfl | rfl | rfl | rfl | rfl | rfl <;> norm_num

end Verif.Cal
