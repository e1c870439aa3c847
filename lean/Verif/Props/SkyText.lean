import Verif.SkyText
import Verif.Props.DayTables
import Verif.Props.AngleText

/-!
# C111: the text of the sun-moon panel
-/

namespace Verif.SkyText
open Verif.Fp Verif.Cal Verif.Dtoa

/-! ## Specification -/

/-- A piece of the text: fixed words, or a quantity with its format. -/
inductive Piece where
  | words (t : String)
  /-- an angle in radians, in degrees or (`tim`) hours, minutes, seconds with 2 decimals -/
  | angle (x : ℚ) (tim : Bool)
  /-- a number with `p` decimals -/
  | number (x : ℚ) (p : ℕ)
  /-- seconds (of time or of arc), in minutes and seconds with 2 decimals and the marks given -/
  | minSec (v : ℚ) (m s : Char)
  /-- the time of the day of an instant in days (0 is noon) -/
  | time (t : ℚ)
  /-- date and time of a Julian day -/
  | date (t : ℚ)

/-- the minus sign of a negative number -/
def minus (x : ℚ) : Str := if x < 0 then ['-'] else []

/-- The text shows the piece: to half a unit of the last place printed (and what the rounding of doubles adds). -/
def Fits : Piece → Str → Prop
  | .words t, s => s = t.toList
  | .angle x tim, s => ∃ a b c D : ℕ, b < 60 ∧ c < 60 ∧ D < 100 ∧
      s = (if x < 0 then '-' else ' ') :: AngleText.blankK 3 a ++ [if tim then 'h' else '°'] ++ padDigits 2 b ++ [if tim then 'm' else '\''] ++
        padDigits 2 c ++ '.' :: padDigits 2 D ++ [if tim then 's' else '"'] ∧
      |((a : ℝ) + b/60 + c/3600 + D/360000) - |(x : ℝ)| * ((if tim then 12 else 180) / Real.pi)| ≤ 1/720000 + 5e-13
  | .number x p, s => ∃ N : ℕ, abs ((N : ℚ) / 10^p - |x|) ≤ 1/2 / 10^p + |x| / 2^52 ∧ s = minus x ++ fixedText p N
  | .minSec v m k, s => ∃ f N : ℕ, N < 6000 ∧ abs (60 * (f : ℚ) + N / 100 - |v|) ≤ 0.0050001 ∧
      s = minus v ++ Nat.toDigits 10 f ++ [m] ++ fixedText 2 N ++ [k]
  | .time t, s => ∃ n sec : ℤ, 0 ≤ sec ∧ sec ≤ 86400 ∧ |(n : ℚ) + sec / 86400 - (t + 1/2)| ≤ 0.501 / 86400 ∧ s = clockText sec
  | .date t, s => Clock t s

/-- The text is the pieces, in this order and nothing else. -/
def Shows (ps : List Piece) (s : Str) : Prop := ∃ ss : List Str, List.Forall₂ Fits ps ss ∧ s = ss.flatten

/-- Seconds of arc of an angle, in doubles -/
def secs (x : ℚ) : ℚ := rnd (rnd (rnd (x / AngleNorm.P) * 360) * 3600)

/-- The panel: every label with its quantities, moon left, sun right. -/
def panel (r : Sky) : List Piece :=
  [.words "-------------------------------------------\n",
   .words "平太阳 ", .time r.pty, .words " 真太阳 ", .time r.zty, .words "\n",
   .words "时差 ", .minSec (rnd (r.sc * 86400)) '分' '秒', .words " 月亮被照亮 ", .number (rnd (r.mIll * 100)) 2, .words "% ", .words "\n",
   .words "-------------------------------------------\n表一       月亮            太阳\n",
   .words "视黄经 ", .angle r.mHJ false, .words "  ", .angle r.sHJ false, .words "\n",
   .words "视黄纬 ", .angle r.mHW false, .words "  ", .angle r.sHW false, .words "\n",
   .words "视赤经 ", .angle r.mCJ true, .words "  ", .angle r.sCJ true, .words "\n",
   .words "视赤纬 ", .angle r.mCW false, .words "  ", .angle r.sCW false, .words "\n",
   .words "距离    ", .number r.mR 2, .words "千米    ", .number r.sR 8, .words "AU", .words "\n",
   .words "-------------------------------------------\n表二       月亮            太阳\n",
   .words "方位角 ", .angle r.mPJ false, .words "  ", .angle r.sPJ false, .words "\n",
   .words "高度角 ", .angle r.mPW false, .words "  ", .angle r.sPW false, .words "\n",
   .words "时角   ", .angle r.mShiJ false, .words "  ", .angle r.sShiJ false, .words "\n",
   .words "视半径   ", .minSec r.mRad '\'' '"', .words "       ", .minSec r.sRad '\'' '"', .words " (观测点)\n"]

/-- The second part, printed on request. -/
def more (r : Sky) : List Piece :=
  [.words "-------------------------------------------\n",
   .words "力学时", .date (r.T + 2451545), .words " ΔT=", .number (rnd (r.dt * 86400)) 1, .words "秒\n",
   .words "黄经章 ", .number (secs r.dL) 2, .words "\" ", .words "交角章 ", .number (secs r.dE) 2, .words "\" ",
   .words "ε=", .angle r.E false, .words "\n", .words "-------------------------------------------\n"]

/-- A number that `to_str` prints rightly (C29): not below 10⁻⁶, below 10¹², and not just below a round number, where the carry defect strikes. -/
def Printable (x : ℚ) (p : ℕ) : Prop := IsDouble x ∧ 1/10^6 * (1 + 1/10^15) ≤ |x| ∧ |x| ≤ 10^11 ∧ ¬ Grisu.NearRound |x| p

/-- Seconds that `m2fm` prints rightly (C35): the same for what exceeds the whole minutes. -/
def PrintableMS (v : ℚ) : Prop := IsDouble v ∧ |v| < 2147483640 ∧
  ∃ (f : ℕ) (m : ℚ), |v| = 60 * f + m ∧ 1/10^6 * (1 + 1/10^15) ≤ m ∧ m < 60 ∧ ¬ Grisu.NearRound m 2

/-- What can be printed: the pieces within the range of their formats. -/
def Fine : Piece → Prop
  | .words _ => True
  | .angle x _ => |x| ≤ 17
  | .number x p => Printable x p
  | .minSec v _ _ => PrintableMS v
  | .time t => |t| ≤ 30000000
  | .date t => -2446990 + 2451545 ≤ t ∧ t ≤ 26999990 + 2451545

/-! ## Proof -/

theorem timeStr_any {x : ℚ} (hx : |x| ≤ 30000000) :
    ∃ n sec : ℤ, 0 ≤ sec ∧ sec ≤ 86400 ∧ |(n : ℚ) + sec / 86400 - (x + 1/2)| ≤ 0.501 / 86400 ∧ timeStr x = some (clockText sec) := by
  obtain ⟨z, hz⟩ : ∃ z, z = x ⊞ (1/2) := ⟨_, rfl⟩
  have hz' : z = rnd (x + 1/2) := hz
  obtain ⟨x1, x2⟩ := abs_le.1 hx
  have e1 : |z - (x + 1/2)| ≤ 30000001 / 9007199254740992 := by
    rw [hz']; exact rnd_err1 (by rw [abs_le]; constructor <;> linarith) (by norm_num)
  have hzb := abs_le.1 e1
  norm_num at hzb
  obtain ⟨n, hn⟩ : ∃ n, n = ⌊z⌋ := ⟨_, rfl⟩
  have n1 := Int.floor_le z
  have n2 := Int.lt_floor_add_one z
  rw [← hn] at n1 n2
  have hD : int2 z = some n := by
    refine int2_eq hn.symm ?_ ?_
    · have : (-30000003 : ℚ) < n := by linarith
      have : (-30000003 : ℤ) < n := by exact_mod_cast this
      omega
    · have : (n : ℚ) < 30000003 := by linarith
      have : n < (30000003 : ℤ) := by exact_mod_cast this
      omega
  obtain ⟨y, hy⟩ : ∃ y, y = z ⊟ (n : ℚ) := ⟨_, rfl⟩
  have hy' : y = rnd (z - n) := hy
  have y0 : 0 ≤ y := by rw [hy']; exact rnd_nonneg (by linarith)
  have y1' : y ≤ 1 := by
    have := rnd_le_of_double (isDouble_int (n := 1) (by norm_num)) (x := z - n) (by push_cast; linarith)
    rw [hy']; push_cast at this; exact this
  have e2 : |y - (z - n)| ≤ 1 / 9007199254740992 := by
    rw [hy']; exact rnd_err1 (by rw [abs_le]; constructor <;> linarith) (by norm_num)
  obtain ⟨p, hp⟩ : ∃ p, p = y ⊠ 86400 := ⟨_, rfl⟩
  have hp' : p = rnd (y * 86400) := hp
  have p0 : 0 ≤ p := by rw [hp']; exact rnd_nonneg (by linarith)
  have p1 : p ≤ 86400 := by
    have := rnd_le_of_double (isDouble_int (n := 86400) (by norm_num)) (x := y * 86400) (by push_cast; linarith)
    rw [hp']; push_cast at this; exact this
  have e3 : |p - y * 86400| ≤ 86400 / 9007199254740992 := by
    rw [hp']; exact rnd_err1 (by rw [abs_of_nonneg (by linarith)]; linarith) (by norm_num)
  obtain ⟨q, hq⟩ : ∃ q, q = p ⊞ (1/2) := ⟨_, rfl⟩
  have hq' : q = rnd (p + 1/2) := hq
  have q0 : 0 ≤ q := by rw [hq']; exact rnd_nonneg (by linarith)
  have q1 : q ≤ 86400 + 1/2 := by
    have d4 : IsDouble ((86400:ℚ) + 1/2) := by unfold IsDouble; decide +kernel
    rw [hq']; exact rnd_le_of_double d4 (by linarith)
  have e4 : |q - (p + 1/2)| ≤ 86401 / 9007199254740992 := by
    rw [hq']; exact rnd_err1 (by rw [abs_of_nonneg (by linarith)]; linarith) (by norm_num)
  obtain ⟨sec, hsec⟩ : ∃ s, s = ⌊q⌋ := ⟨_, rfl⟩
  have f1 := Int.floor_le q
  have f2 := Int.lt_floor_add_one q
  rw [← hsec] at f1 f2
  have s0 : 0 ≤ sec := by rw [hsec]; exact Int.floor_nonneg.2 q0
  have s1 : sec ≤ 86400 := by
    have : (sec : ℚ) < 86401 := by linarith
    have : sec < 86401 := by exact_mod_cast this
    omega
  have hS : int2 q = some sec := int2_eq hsec.symm (by omega) (by omega)
  refine ⟨n, sec, s0, s1, ?_, ?_⟩
  · obtain ⟨a1, a2⟩ := abs_le.1 e1
    obtain ⟨b1, b2⟩ := abs_le.1 e2
    obtain ⟨c1, c2⟩ := abs_le.1 e3
    obtain ⟨g1, g2⟩ := abs_le.1 e4
    norm_num at a1 a2 b1 b2 c1 c2 g1 g2
    rw [abs_le]
    constructor <;> norm_num <;> linarith
  · unfold timeStr
    simp only
    rw [← hz, hD]
    simp only [Option.bind_eq_bind, Option.bind_some]
    rw [← hy, ← hp, ← hq, hS]
    simp only [Option.bind_some]
    have q1 : int2 ((sec:ℚ) ⊘ 3600) = some (sec / 3600) := by
      apply int2_eq
      · have := floor_rnd_div sec 3600 (by rw [abs_of_nonneg s0]; omega) (by norm_num) (by norm_num)
        push_cast at this; exact this
      · omega
      · omega
    rw [q1]
    simp only [Option.bind_some]
    rw [i32_some (by omega) (by omega)]
    simp only [Option.bind_some]
    have q2 : int2 (((sec - sec / 3600 * 3600 : ℤ):ℚ) ⊘ 60) = some (sec % 3600 / 60) := by
      apply int2_eq
      · have := floor_rnd_div (sec - sec / 3600 * 3600) 60 (by rw [abs_of_nonneg (by omega)]; omega) (by norm_num) (by norm_num)
        push_cast at this ⊢
        unfold fdiv
        rw [this]; omega
      · omega
      · omega
    rw [q2]
    simp only [Option.bind_some]
    rw [i32_some (by omega) (by omega)]
    simp only [Option.bind_some]
    rw [two_eq _ (by omega) (by omega), two_eq _ (by omega) (by omega), two_eq _ (by omega) (by omega)]
    simp only [Option.bind_some, Option.pure_def, Option.some.injEq]
    unfold clockText
    rw [show sec - sec / 3600 * 3600 - sec % 3600 / 60 * 60 = sec % 60 by omega]

/-- a text, present and showing the pieces (the last one first) -/
def Ok (ps : List Piece) (s : Option Str) : Prop := ∃ t, s = some t ∧ Shows ps.reverse t

theorem Ok.cat {ps : List Piece} {s a : Option Str} {p : Piece} (h : Ok ps s) (ha : ∃ t, a = some t ∧ Fits p t) : Ok (p :: ps) (cat s a) := by
  obtain ⟨t, rfl, ss, h1, rfl⟩ := h
  obtain ⟨u, rfl, hu⟩ := ha
  refine ⟨ss.flatten ++ u, rfl, ss ++ [u], ?_, by simp⟩
  rw [List.reverse_cons]
  exact List.rel_append h1 (.cons hu .nil)

theorem Ok.lit {ps : List Piece} {s : Option Str} (h : Ok ps s) (t : String) : Ok (.words t :: ps) (lit s t) := h.cat ⟨_, rfl, rfl⟩

theorem Ok.start : Ok [] (some []) := ⟨[], rfl, [], .nil, rfl⟩

theorem time_ok {t : ℚ} (h : Fine (.time t)) : ∃ s, timeStr t = some s ∧ Fits (.time t) s := by
  obtain ⟨n, sec, a, b, c, d⟩ := timeStr_any h
  exact ⟨_, d, n, sec, a, b, c, rfl⟩

theorem angle_ok {x : ℚ} (tim : Bool) (h : Fine (.angle x tim)) : ∃ s, rad2str x tim = some s ∧ Fits (.angle x tim) s := by
  obtain ⟨a, b, c, D, h1, h2, h3, h4, h5⟩ := AngleText.c34_rad2strE x tim 2 h (by norm_num) (by norm_num)
  refine ⟨_, h4, a, b, c, D, h1, h2, h3, rfl, ?_⟩
  norm_num at h5 ⊢
  exact h5

theorem number_ok {mem : ℕ → Option ℕ} (hmem : Grisu.Readable mem) {x : ℚ} {p : ℕ} (hp : 0 < p) (hp2 : p ≤ 8) (h : Fine (.number x p)) :
    ∃ s, num mem x p = some s ∧ Fits (.number x p) s := by
  obtain ⟨h1, h2, h3, h4⟩ := h
  have hd : IsDouble |x| := by
    rcases abs_cases x with ⟨h, -⟩ | ⟨h, -⟩ <;> rw [h]
    · exact h1
    · exact h1.neg
  obtain ⟨N, s, a, b, c⟩ := Grisu.c29_double_partial mem hmem (decide (x < 0)) |x| hd h2 12 (by norm_num) (by norm_num)
    (by norm_num at h3 ⊢; linarith) p hp (by have : (sgn (decide (x < 0))).length ≤ 1 := by unfold sgn; split <;> simp
                                             omega) h4 0 (le_refl _) (by norm_num) false
  refine ⟨s, b, N, a, ?_⟩
  have e : sgn (decide (x < 0)) = minus x := by unfold sgn minus; by_cases hx : x < 0 <;> simp [hx]
  rw [← e]
  obtain ⟨k, c1, c2⟩ : ∃ k : ℕ, s = (sgn (decide (x < 0)) ++ fixedText p N) ++ List.replicate k ' ' ∧ k = 0 := by
    obtain ⟨k, c1, c2⟩ := c
    exact ⟨k, by simpa using c1, by simp only [List.length_append] at c2; push_cast at c2; omega⟩
  rw [c1, c2]; simp

theorem minSec_ok {mem : ℕ → Option ℕ} (hmem : Grisu.Readable mem) {v : ℚ} {fs : ℤ} {m k : Char} (hfs : (fs = 0 ∧ m = '\'' ∧ k = '"') ∨ (fs = 1 ∧ m = '分' ∧ k = '秒'))
    (h : Fine (.minSec v m k)) : ∃ s, fm mem v 2 fs = some s ∧ Fits (.minSec v m k) s := by
  obtain ⟨h1, h2, f, x, h3, h4, h5, h6⟩ := h
  obtain ⟨N, a, b, c⟩ := Grisu.c35_double_partial mem hmem v 2 fs h1 h2 (by norm_num) (by rcases hfs with h | h <;> simp [h.1]) f x h3 h4 h5 h6
  refine ⟨_, c, f, N, by norm_num at b; exact b, ?_, ?_⟩
  · rw [h3]
    norm_num at a ⊢
    refine a.trans ?_
    linarith
  · rcases hfs with ⟨rfl, rfl, rfl⟩ | ⟨rfl, rfl, rfl⟩ <;> rfl

theorem date_ok {T : ℚ} (h : Fine (.date (T + 2451545))) : ∃ s, jd2str (T ⊞ 2451545) = some s ∧ Fits (.date (T + 2451545)) s := by
  obtain ⟨h1, h2⟩ := h
  have e : |T ⊞ 2451545 - (T + 2451545)| ≤ 30000000 / 9007199254740992 := rnd_err1 (by rw [abs_le]; constructor <;> linarith) (by norm_num)
  have e' := abs_le.1 e
  norm_num at e'
  exact near_jd (by linarith) (by linarith) (e.trans (by norm_num))

/-- **C111.**  Every label of the panel is followed by its quantities, moon first, each within half a unit of the last place printed — when
all the quantities are within the range of their formats. -/
theorem c111_text (mem : ℕ → Option ℕ) (hmem : Grisu.Readable mem) (r : Sky) (fs : Bool) (h1 : ∀ p ∈ panel r, Fine p)
    (h2 : fs = true → ∀ p ∈ more r, Fine p) :
    ∃ s, skyText mem r fs = some s ∧ Shows (panel r ++ if fs then more r else []) s := by
  have p : ∀ {x}, x ∈ panel r → Fine x := fun h => h1 _ h
  simp only [panel, List.forall_mem_cons] at h1
  obtain ⟨-, -, t1, -, t2, -, -, m1, -, n1, -, -, -, -, a1, -, a2, -, -, a3, -, a4, -, -, a5, -, a6, -, -, a7, -, a8, -, -, n2, -, n3, -, -, -,
    -, a9, -, a10, -, -, a11, -, a12, -, -, a13, -, a14, -, -, m2, -, m3, -⟩ := h1
  have base := ((((((((((((((((((((((((((((((((((((((((((((((((((((((((((((Ok.start.lit "-------------------------------------------\n").lit "平太阳 ").cat (time_ok t1)).lit " 真太阳 ").cat (time_ok t2)).lit "\n"
    ).lit "时差 ").cat (minSec_ok hmem (Or.inr ⟨rfl, rfl, rfl⟩) m1)).lit " 月亮被照亮 ").cat (number_ok hmem (by norm_num) (by norm_num) n1)).lit "% ").lit "\n"
    ).lit "-------------------------------------------\n表一       月亮            太阳\n"
    ).lit "视黄经 ").cat (angle_ok false a1)).lit "  ").cat (angle_ok false a2)).lit "\n"
    ).lit "视黄纬 ").cat (angle_ok false a3)).lit "  ").cat (angle_ok false a4)).lit "\n"
    ).lit "视赤经 ").cat (angle_ok true a5)).lit "  ").cat (angle_ok true a6)).lit "\n"
    ).lit "视赤纬 ").cat (angle_ok false a7)).lit "  ").cat (angle_ok false a8)).lit "\n"
    ).lit "距离    ").cat (number_ok hmem (by norm_num) (by norm_num) n2)).lit "千米    ").cat (number_ok hmem (by norm_num) (by norm_num) n3)).lit "AU").lit "\n"
    ).lit "-------------------------------------------\n表二       月亮            太阳\n"
    ).lit "方位角 ").cat (angle_ok false a9)).lit "  ").cat (angle_ok false a10)).lit "\n"
    ).lit "高度角 ").cat (angle_ok false a11)).lit "  ").cat (angle_ok false a12)).lit "\n"
    ).lit "时角   ").cat (angle_ok false a13)).lit "  ").cat (angle_ok false a14)).lit "\n"
    ).lit "视半径   ").cat (minSec_ok hmem (Or.inl ⟨rfl, rfl, rfl⟩) m2)).lit "       ").cat (minSec_ok hmem (Or.inl ⟨rfl, rfl, rfl⟩) m3)).lit " (观测点)\n")
  cases fs with
  | false =>
    obtain ⟨t, e, h⟩ := base
    exact ⟨t, e, h⟩
  | true =>
    have h2 := h2 rfl
    simp only [more, List.forall_mem_cons] at h2
    obtain ⟨-, -, d1, -, n4, -, -, n5, -, -, n6, -, -, a15, -, -, -⟩ := h2
    have full := ((((((((((((((((base.lit "-------------------------------------------\n").lit "力学时").cat (date_ok d1)).lit " ΔT=").cat
      (number_ok hmem (by norm_num) (by norm_num) n4)).lit "秒\n").lit "黄经章 ").cat (number_ok hmem (by norm_num) (by norm_num) n5)).lit "\" "
      ).lit "交角章 ").cat (number_ok hmem (by norm_num) (by norm_num) n6)).lit "\" ").lit "ε=").cat (angle_ok false a15)).lit "\n"
      ).lit "-------------------------------------------\n")
    obtain ⟨t, e, h⟩ := full
    exact ⟨t, e, h⟩

/-! A case that meets the hypotheses -/

theorem small_fine {x : ℚ} {p : ℕ} (hp : 1 ≤ p) (h1 : IsDouble x) (h2 : 1/1000 ≤ |x|) (h3 : |x| ≤ 19) : Printable x p := by
  refine ⟨h1, le_trans (by norm_num) h2, le_trans h3 (by norm_num), ?_⟩
  rintro ⟨c, m, hc, -, hm, h⟩
  have a : (2 : ℚ) ≤ c := by exact_mod_cast hc
  have b : (10 : ℚ) ≤ 10^m := by
    calc (10 : ℚ) = 10^1 := by norm_num
      _ ≤ 10^m := pow_le_pow_right₀ (by norm_num) hm
  have ab : (20 : ℚ) ≤ c * 10^m := by nlinarith
  have q : (1 : ℚ)/2 / 10^p ≤ 1/20 := by
    have : (10 : ℚ) ≤ 10^p := by
      calc (10 : ℚ) = 10^1 := by norm_num
        _ ≤ 10^p := pow_le_pow_right₀ (by norm_num) hp
    rw [div_le_iff₀ (by positivity)]
    linarith
  have := (abs_le.1 h).1
  norm_num at this
  linarith

theorem small_ms {v : ℚ} (h1 : IsDouble v) (h2 : 1/1000 ≤ |v|) (h3 : |v| ≤ 19) : PrintableMS v := by
  refine ⟨h1, by linarith, 0, |v|, by simp, le_trans (by norm_num) h2, by linarith, ?_⟩
  have := small_fine (p := 2) (by norm_num) h1 h2 h3
  exact this.2.2.2

def caseSky : Sky :=
  { pty := 1/4, zty := -7/4, sc := -1/65536, mIll := 1/64, mHJ := 1, sHJ := 2, mHW := -1/16, sHW := 0, mCJ := 3/2, sCJ := 5/2, mCW := -1/4, sCW := 1/8,
    mR := 19, sR := 1, mPJ := 3, sPJ := 6, mPW := 1/2, sPW := -1, mShiJ := 4, sShiJ := 5, mRad := 15, sRad := 16, T := 0, dt := 1/8192,
    dL := -1/65536, dE := 1/65536, E := 3/8 }

example : (∀ p ∈ panel caseSky, Fine p) ∧ ∀ p ∈ more caseSky, Fine p := by
  have n : ∀ x : ℚ, ∀ p, 1 ≤ p → IsDouble x ∧ 1/1000 ≤ |x| ∧ |x| ≤ 19 → Fine (.number x p) := fun x p hp h => small_fine hp h.1 h.2.1 h.2.2
  have m : ∀ v a b, IsDouble v ∧ 1/1000 ≤ |v| ∧ |v| ≤ 19 → Fine (.minSec v a b) := fun v a b h => small_ms h.1 h.2.1 h.2.2
  constructor
  · simp only [panel, List.forall_mem_cons]
    refine ⟨trivial, trivial, ?_, trivial, ?_, trivial, trivial, m _ _ _ ?_, trivial, n _ _ (by norm_num) ?_, trivial, trivial, trivial, trivial, ?_, trivial, ?_, trivial,
      trivial, ?_, trivial, ?_, trivial, trivial, ?_, trivial, ?_, trivial, trivial, ?_, trivial, ?_, trivial, trivial, n _ _ (by norm_num) ?_, trivial, n _ _ (by norm_num) ?_, trivial,
      trivial, trivial, trivial, ?_, trivial, ?_, trivial, trivial, ?_, trivial, ?_, trivial, trivial, ?_, trivial, ?_, trivial, trivial, m _ _ _ ?_, trivial, m _ _ _ ?_, trivial,
      fun _ h => absurd h List.not_mem_nil⟩ <;>
      first
        | (unfold IsDouble; decide +kernel)
        | (show |_| ≤ _; norm_num [caseSky, abs_le])
  · simp only [more, List.forall_mem_cons]
    refine ⟨trivial, trivial, ?_, trivial, n _ _ (by norm_num) ?_, trivial, trivial, n _ _ (by norm_num) ?_, trivial, trivial, n _ _ (by norm_num) ?_, trivial, trivial, ?_, trivial, trivial,
      fun _ h => absurd h List.not_mem_nil⟩ <;>
      first
        | (unfold IsDouble; decide +kernel)
        | (show |_| ≤ _; norm_num [caseSky, abs_le])
        | (show _ ∧ _; norm_num [caseSky])

end Verif.SkyText
