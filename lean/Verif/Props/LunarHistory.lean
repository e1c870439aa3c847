import Verif.Props.LunarDay

/-!
# Property C21: month sheets do not depend on earlier calls
-/

namespace Verif.Lunar
open Verif.Fp Verif.GanZhi

theorem cYear_tight : |cYear - 3652422/10000| ≤ 1/1000000000000 := by decide +kernel
theorem c1521_tight : |rnd (152184/10000) - 152184/10000| ≤ 1/1000000000000 := by decide +kernel
theorem c152_tight : |rnd (152/10) - 152/10| ≤ 1/1000000000000 := by decide +kernel
theorem c304_tight : |rnd (304/10) - 304/10| ≤ 1/1000000000000 := by decide +kernel

/-- estimate of the `n`-th solstice -/
def Near (W : ℚ) (n : ℤ) : Prop := |W - (355 + 3652422/10000 * n)| ≤ 1/1000

theorem near_mean (W : ℚ) (n : ℤ) (h : Near W n) : |W - meanTerm (24 * n)| ≤ 1/1000 := by
  unfold Near at h; unfold meanTerm; push_cast
  rw [show (355 + 3652422 / 10000 / 24 * (24 * (n:ℚ)) : ℚ) = 355 + 3652422/10000 * n by ring]; exact h

theorem abs_le' {a b : ℚ} (h1 : -b ≤ a) (h2 : a ≤ b) : |a| ≤ b := abs_le.mpr ⟨h1, h2⟩

/-- years the term index range covers -/
def InR (m1 m2 n : ℤ) : Prop := |n| ≤ 29000 ∧ m1 + 60 ≤ 24 * n ∧ 24 * n + 60 ≤ m2

/-- days the term index range covers -/
def DayR (m1 m2 d : ℤ) : Prop := |d| ≤ 10000100 ∧ meanTerm m1 + 1900 ≤ d ∧ d ≤ meanTerm m2 - 1900

theorem InR.bounds {m1 m2 n : ℤ} (h : InR m1 m2 n) : -29000 ≤ n ∧ n ≤ 29000 ∧ 24 * n + 60 ≤ m2 ∧ m1 + 60 ≤ 24 * n := by
  obtain ⟨h1, h2⟩ := h
  have := abs_le.mp h1
  omega

theorem InR.mk' {m1 m2 n : ℤ} (h1 : -29000 ≤ n) (h2 : n ≤ 29000) (h3 : 24 * n + 60 ≤ m2) (h4 : m1 + 60 ≤ 24 * n) : InR m1 m2 n :=
  ⟨abs_le.mpr ⟨h1, h2⟩, h4, h3⟩

theorem DayR.bounds {m1 m2 d : ℤ} (h : DayR m1 m2 d) : -10000100 ≤ d ∧ d ≤ 10000100 := by
  obtain ⟨h1, h2⟩ := h
  have := abs_le.mp h1
  omega

theorem TermsOK.near {ssq : Calc} {m1 m2 : ℤ} {Q : ℤ → ℤ} (h : TermsOK ssq m1 m2 Q) {m : ℤ} (h1 : m1 ≤ m) (h2 : m ≤ m2) :
    |((Q m : ℤ) : ℚ) - meanTerm m| ≤ 20 := le_trans (h m h1 h2).1 (by norm_num)

/-- the two candidate years of a day, once the estimate `W` of the nearest solstice is known -/
theorem solstice_cases (m1 m2 : ℤ) (Q : ℤ → ℤ) (d n0 : ℤ) (W : ℚ) (hR1 : 24 * n0 + 84 ≤ m2) (hR2 : m1 + 84 ≤ 24 * n0) (hn1 : n0 ≤ 28001) (hn2 : -28002 ≤ n0)
    (hWn : |W - (355 + 3652422/10000 * (n0 : ℚ))| ≤ 1/10000)
    (dlo : 3652422/10000 * (n0 : ℚ) ≤ d - 172 + 1/100) (dhi : (d : ℚ) - 172 ≤ 3652422/10000 * ((n0 : ℚ) + 1) + 1/100)
    (q1 : |((Q (24 * (n0 + 1)) : ℤ) : ℚ) - (355 + 3652422/10000 * ((n0 : ℚ) + 1))| ≤ 20)
    (qm : |((Q (24 * (n0 - 1)) : ℤ) : ℚ) - (355 + 3652422/10000 * ((n0 : ℚ) - 1))| ≤ 20) :
    ∃ W' n, some (if ((Q (24 * n0) : ℤ) : ℚ) > d then W ⊟ cYear else W) = some W' ∧ Near W' n ∧ InR m1 m2 n ∧
      Q (24 * n) ≤ d ∧ d < Q (24 * (n + 1)) := by
  have hc := abs_le.mp cYear_tight
  have hWn' := abs_le.mp hWn
  have q1' := abs_le.mp q1
  have qm' := abs_le.mp qm
  have hn1q : (n0 : ℚ) ≤ 28001 := by exact_mod_cast hn1
  have hn2q : (-28002 : ℚ) ≤ n0 := by exact_mod_cast hn2
  by_cases hgt : ((Q (24 * n0) : ℤ) : ℚ) > d
  · have wb : |W - cYear| ≤ 12000000 := by
      rw [abs_le]; constructor <;> linarith [hc.1, hc.2, hWn'.1, hWn'.2]
    have w1 := abs_le.mp (rnd_err1 wb (by norm_num))
    refine ⟨W ⊟ cYear, n0 - 1, by rw [if_pos hgt], ?_, InR.mk' (by omega) (by omega) (by omega) (by omega), ?_, ?_⟩
    · unfold Near fsub
      push_cast
      rw [abs_le]
      constructor <;> linarith [w1.1, w1.2, hWn'.1, hWn'.2, hc.1, hc.2]
    · have : ((Q (24 * (n0 - 1)) : ℤ) : ℚ) ≤ d := by linarith [qm'.2]
      exact_mod_cast this
    · rw [show n0 - 1 + 1 = n0 by ring]
      exact_mod_cast hgt
  · refine ⟨W, n0, by rw [if_neg hgt], le_trans hWn (by norm_num), InR.mk' (by omega) (by omega) (by omega) (by omega), ?_, ?_⟩
    · have : ((Q (24 * n0) : ℤ) : ℚ) ≤ d := not_lt.mp hgt
      exact_mod_cast this
    · have : (d : ℚ) < ((Q (24 * (n0 + 1)) : ℤ) : ℚ) := by linarith [q1'.1]
      exact_mod_cast this

/-- rounding the estimate -/
theorem solstice_est (n0 : ℤ) (hn1 : n0 ≤ 28001) (hn2 : -28002 ≤ n0) :
    |((n0 : ℚ) ⊠ cYear ⊞ 355) - (355 + 3652422/10000 * (n0 : ℚ))| ≤ 1/10000 := by
  have hc := abs_le.mp cYear_tight
  have hn1q : (n0 : ℚ) ≤ 28001 := by exact_mod_cast hn1
  have hn2q : (-28002 : ℚ) ≤ n0 := by exact_mod_cast hn2
  have mb : |(n0 : ℚ) * cYear| ≤ 11000000 := by rw [abs_le]; constructor <;> nlinarith [hc.1, hc.2]
  have m1 := abs_le.mp (rnd_err1 mb (by norm_num))
  have s1 : (11000000 : ℚ) / 9007199254740992 ≤ 1/100000 := by norm_num
  have mb2 : |rnd ((n0 : ℚ) * cYear) + 355| ≤ 12000000 := by
    have := abs_le.mp mb
    rw [abs_le]; constructor <;> linarith [m1.1, m1.2]
  have m2 := abs_le.mp (rnd_err1 mb2 (by norm_num))
  have s2 : (12000000 : ℚ) / 9007199254740992 ≤ 1/100000 := by norm_num
  have pc : |(n0 : ℚ) * (cYear - 3652422/10000)| ≤ 1/100000 := by
    rw [abs_mul]
    calc |(n0 : ℚ)| * |cYear - 3652422/10000| ≤ 30000 * (1/1000000000000) :=
          mul_le_mul (by rw [abs_le]; constructor <;> linarith) cYear_tight (abs_nonneg _) (by norm_num)
      _ ≤ 1/100000 := by norm_num
  have pc' := abs_le.mp pc
  unfold fmul fadd
  have e : (n0 : ℚ) * (cYear - 3652422/10000) = (n0 : ℚ) * cYear - 3652422/10000 * (n0 : ℚ) := by ring
  rw [e] at pc'
  rw [abs_le]
  constructor <;> linarith [m1.1, m1.2, m2.1, m2.2, pc'.1, pc'.2]

/-- the year found for a day: the solstice at or before it -/
theorem solsticeW_spec (ssq : Calc) (m1 m2 : ℤ) (Q : ℤ → ℤ) (hT : TermsOK ssq m1 m2 Q) (d : ℤ) (hd : DayR m1 m2 d) :
    ∃ W n, solsticeW ssq (d : ℚ) = some W ∧ Near W n ∧ InR m1 m2 n ∧ Q (24 * n) ≤ d ∧ d < Q (24 * (n + 1)) := by
  obtain ⟨hd1, hd2⟩ := hd.bounds
  obtain ⟨-, hd3, hd4⟩ := hd
  unfold meanTerm at hd3 hd4
  have hdq1 : (-10000100 : ℚ) ≤ d := by exact_mod_cast hd1
  have hdq2 : (d : ℚ) ≤ 10000100 := by exact_mod_cast hd2
  have hc := abs_le.mp cYear_tight
  have hc0 : 0 < cYear := by linarith [hc.1]
  unfold solsticeW
  -- the numerator is exact
  have e1 : (d : ℚ) ⊟ 355 = ((d - 355 : ℤ) : ℚ) := by
    unfold fsub; rw [show (d : ℚ) - 355 = ((d - 355 : ℤ) : ℚ) by push_cast; ring]
    exact rnd_intCast _ (by rw [abs_le]; constructor <;> omega)
  have e2 : ((d - 355 : ℤ) : ℚ) ⊞ 183 = ((d - 172 : ℤ) : ℚ) := by
    unfold fadd; rw [show ((d - 355 : ℤ) : ℚ) + 183 = ((d - 172 : ℤ) : ℚ) by push_cast; ring]
    exact rnd_intCast _ (by rw [abs_le]; constructor <;> omega)
  rw [e1, e2]
  obtain ⟨x, hx⟩ : ∃ x : ℚ, x = ((d - 172 : ℤ) : ℚ) / cYear := ⟨_, rfl⟩
  have hxc : x * cYear = d - 172 := by rw [hx]; push_cast; field_simp
  have hxb : |x| ≤ 28000 := by
    rw [hx, abs_div, abs_of_pos hc0, div_le_iff₀ hc0]
    push_cast
    rw [abs_le]; constructor <;> nlinarith [hc.1, hc.2]
  have hxb' := abs_le.mp hxb
  have re := abs_le.mp (rnd_err1 hxb (by norm_num))
  have hsmall : (28000 : ℚ) / 9007199254740992 ≤ 1/10000000 := by norm_num
  obtain ⟨n0, hn0⟩ : ∃ n0 : ℤ, n0 = ⌊rnd x⌋ := ⟨_, rfl⟩
  have f1 := Int.floor_le (rnd x)
  have f2 := Int.lt_floor_add_one (rnd x)
  rw [← hn0] at f1 f2
  have hn1 : (n0 : ℚ) ≤ 28001 := by linarith [re.2]
  have hn2 : (-28002 : ℚ) ≤ n0 := by linarith [re.1]
  have hn1' : n0 ≤ 28001 := by exact_mod_cast hn1
  have hn2' : -28002 ≤ n0 := by exact_mod_cast hn2
  have ei : int2 (((d - 172 : ℤ) : ℚ) ⊘ cYear) = some n0 := by
    unfold int2 fdiv; rw [← hx, ← hn0]; exact i32_some (by omega) (by omega)
  rw [ei]
  simp only [Option.bind_eq_bind, Option.bind_some]
  have hWn := solstice_est n0 hn1' hn2'
  have px : |x * (cYear - 3652422/10000)| ≤ 1/100000 := by
    rw [abs_mul]
    calc |x| * |cYear - 3652422/10000| ≤ 30000 * (1/1000000000000) :=
          mul_le_mul (le_trans hxb (by norm_num)) cYear_tight (abs_nonneg _) (by norm_num)
      _ ≤ 1/100000 := by norm_num
  have px' := abs_le.mp px
  have pe : x * (cYear - 3652422/10000) = (d - 172) - 3652422/10000 * x := by rw [← hxc]; ring
  rw [pe] at px'
  have dlo : 3652422/10000 * (n0 : ℚ) ≤ d - 172 + 1/100 := by linarith [re.2, px'.1, px'.2]
  have dhi : (d : ℚ) - 172 ≤ 3652422/10000 * ((n0 : ℚ) + 1) + 1/100 := by linarith [re.1, px'.1, px'.2]
  have hR1q : 24 * (n0 : ℚ) + 84 ≤ m2 := by linarith
  have hR2q : (m1 : ℚ) + 84 ≤ 24 * (n0 : ℚ) := by linarith
  have hR1 : 24 * n0 + 84 ≤ m2 := by exact_mod_cast hR1q
  have hR2 : m1 + 84 ≤ 24 * n0 := by exact_mod_cast hR2q
  obtain ⟨q0, hq0⟩ := hT (24 * n0) (by omega) (by omega)
  have q1 := hT.near (m := 24 * (n0 + 1)) (by omega) (by omega)
  have qm := hT.near (m := 24 * (n0 - 1)) (by omega) (by omega)
  have mt : ∀ n : ℤ, meanTerm (24 * n) = 355 + 3652422/10000 * n := by
    intro n; unfold meanTerm; push_cast; ring
  rw [hq0 _ (by rw [mt]; exact le_trans hWn (by norm_num))]
  simp only [Option.bind_some]
  rw [mt] at q1 qm
  push_cast at q1 qm
  exact solstice_cases m1 m2 Q d n0 _ hR1 hR2 hn1' hn2' hWn dlo dhi q1 qm

/-- the year of a day is unique -/
theorem year_unique (ssq : Calc) (m1 m2 : ℤ) (Q : ℤ → ℤ) (hT : TermsOK ssq m1 m2 Q) (d n n' : ℤ) (hn : InR m1 m2 n) (hn' : InR m1 m2 n')
    (h1 : Q (24 * n) ≤ d) (h2 : d < Q (24 * (n + 1))) (h3 : Q (24 * n') ≤ d) (h4 : d < Q (24 * (n' + 1))) : n = n' := by
  have key : ∀ a b : ℤ, InR m1 m2 a → InR m1 m2 b → Q (24 * b) ≤ d → d < Q (24 * (a + 1)) → b ≤ a := by
    intro a b ha hb h1 h2
    by_contra hcon
    have ha' := ha.bounds
    have hb' := hb.bounds
    have qa := hT.near (m := 24 * (a + 1)) (by omega) (by omega)
    have qb := hT.near (m := 24 * b) (by omega) (by omega)
    by_cases he : a + 1 = b
    · rw [he] at h2; omega
    · have qa' := abs_le.mp qa
      have qb' := abs_le.mp qb
      unfold meanTerm at qa' qb'
      have h5 : a + 2 ≤ b := by omega
      have h5q : (a : ℚ) + 2 ≤ b := by exact_mod_cast h5
      have h6 : ((Q (24 * b) : ℤ) : ℚ) < Q (24 * (a + 1)) := by exact_mod_cast lt_of_le_of_lt h1 h2
      push_cast at qa' qb'
      linarith [qa'.2, qb'.1]
  exact le_antisymm (key n' n hn' hn h1 h4) (key n n' hn hn' h3 h2)

theorem terms_eq (ssq : Calc) (m1 m2 : ℤ) (Q : ℤ → ℤ) (hT : TermsOK ssq m1 m2 Q) (W : ℚ) (n : ℤ) (hn : InR m1 m2 n) (hW : Near W n) :
    terms ssq W = some (tab 25 (fun i => Q (24 * n + i))) ∧ ssq (W ⊟ rnd (152/10)) true = some (Q (24 * n - 1)) ∧
      ssq (W ⊟ rnd (304/10)) true = some (Q (24 * n - 2)) := by
  have hn' := hn.bounds
  have hnq1 : (-29000 : ℚ) ≤ n := by exact_mod_cast hn'.1
  have hnq2 : (n : ℚ) ≤ 29000 := by exact_mod_cast hn'.2.1
  have hW' := abs_le.mp hW
  have wb : |W| ≤ 11000000 := by rw [abs_le]; constructor <;> linarith [hW'.1, hW'.2]
  have wb' := abs_le.mp wb
  refine ⟨?_, ?_, ?_⟩
  · unfold terms tab
    apply Cal.mapM_some
    intro i hi
    have hi : i < 25 := by simpa using hi
    have hiq : (i : ℚ) ≤ 24 := by exact_mod_cast (by omega : i ≤ 24)
    have hi0 : (0 : ℚ) ≤ i := by positivity
    obtain ⟨-, hq⟩ := hT (24 * n + i) (by omega) (by omega)
    apply hq
    have c := abs_le.mp c1521_tight
    have pb : |rnd (152184/10000) * (i : ℚ)| ≤ 400 := by
      rw [abs_le]; constructor <;> nlinarith [c.1, c.2]
    have pb' := abs_le.mp pb
    have p1 := abs_le.mp (rnd_err1 pb (by norm_num))
    have s1 : (400 : ℚ) / 9007199254740992 ≤ 1/100000 := by norm_num
    have sb : |W + rnd (rnd (152184/10000) * (i : ℚ))| ≤ 12000000 := by
      rw [abs_le]; constructor <;> linarith [p1.1, p1.2, wb'.1, wb'.2, pb'.1, pb'.2]
    have p2 := abs_le.mp (rnd_err1 sb (by norm_num))
    have s2 : (12000000 : ℚ) / 9007199254740992 ≤ 1/100000 := by norm_num
    have pm : |(rnd (152184/10000) - 152184/10000) * (i : ℚ)| ≤ 1/100000 := by
      rw [abs_mul]
      calc |rnd (152184/10000) - 152184/10000| * |(i : ℚ)| ≤ 1/1000000000000 * 24 :=
            mul_le_mul c1521_tight (by rw [abs_of_nonneg hi0]; exact hiq) (abs_nonneg _) (by norm_num)
        _ ≤ 1/100000 := by norm_num
    have pm' := abs_le.mp pm
    unfold meanTerm fadd fmul
    push_cast
    rw [abs_le]
    constructor <;> nlinarith [p1.1, p1.2, p2.1, p2.2, pm'.1, pm'.2, hW'.1, hW'.2]
  · obtain ⟨-, hq⟩ := hT (24 * n - 1) (by omega) (by omega)
    apply hq
    have c := abs_le.mp c152_tight
    have sb : |W - rnd (152/10)| ≤ 12000000 := by rw [abs_le]; constructor <;> linarith [wb'.1, wb'.2, c.1, c.2]
    have p2 := abs_le.mp (rnd_err1 sb (by norm_num))
    have s2 : (12000000 : ℚ) / 9007199254740992 ≤ 1/100000 := by norm_num
    unfold meanTerm fsub
    push_cast
    rw [abs_le]
    constructor <;> linarith [p2.1, p2.2, c.1, c.2, hW'.1, hW'.2]
  · obtain ⟨-, hq⟩ := hT (24 * n - 2) (by omega) (by omega)
    apply hq
    have c := abs_le.mp c304_tight
    have sb : |W - rnd (304/10)| ≤ 12000000 := by rw [abs_le]; constructor <;> linarith [wb'.1, wb'.2, c.1, c.2]
    have p2 := abs_le.mp (rnd_err1 sb (by norm_num))
    have s2 : (12000000 : ℚ) / 9007199254740992 ≤ 1/100000 := by norm_num
    unfold meanTerm fsub
    push_cast
    rw [abs_le]
    constructor <;> linarith [p2.1, p2.2, c.1, c.2, hW'.1, hW'.2]

theorem yearFrom_congr (ssq : Calc) (m1 m2 : ℤ) (Q : ℤ → ℤ) (hT : TermsOK ssq m1 m2 Q) (W W' : ℚ) (n : ℤ) (hn : InR m1 m2 n) (hW : Near W n) (hW' : Near W' n) :
    yearFrom ssq W = yearFrom ssq W' := by
  obtain ⟨a1, a2, a3⟩ := terms_eq ssq m1 m2 Q hT W n hn hW
  obtain ⟨b1, b2, b3⟩ := terms_eq ssq m1 m2 Q hT W' n hn hW'
  unfold yearFrom
  rw [a1, a2, a3, b1, b2, b3]

theorem yearFrom_zq (ssq : Calc) (m1 m2 : ℤ) (Q : ℤ → ℤ) (hT : TermsOK ssq m1 m2 Q) (W : ℚ) (n : ℤ) (hn : InR m1 m2 n) (hW : Near W n) (t : Tables)
    (h : yearFrom ssq W = some t) : t.ZQ = tab 25 (fun i => Q (24 * n + i)) := by
  obtain ⟨a1, a2, a3⟩ := terms_eq ssq m1 m2 Q hT W n hn hW
  unfold yearFrom at h
  rw [a1, a2, a3, Option.bind_eq_bind, Option.bind_some, Option.bind_eq_bind, Option.bind_some, Option.bind_eq_bind, Option.bind_some] at h
  obtain ⟨A0, -, h⟩ := Option.bind_eq_some_iff.mp h
  obtain ⟨B, -, h⟩ := Option.bind_eq_some_iff.mp h
  obtain ⟨dx, -, h⟩ := Option.bind_eq_some_iff.mp h
  obtain ⟨YY, -, h⟩ := Option.bind_eq_some_iff.mp h
  split_ifs at h
  · obtain ⟨ns, -, h⟩ := Option.bind_eq_some_iff.mp h
    obtain ⟨ym, -, h⟩ := Option.bind_eq_some_iff.mp h
    simp only [Option.pure_def, Option.some.injEq] at h
    rw [← h]
  · obtain ⟨ns, -, h⟩ := Option.bind_eq_some_iff.mp h
    obtain ⟨ym, -, h⟩ := Option.bind_eq_some_iff.mp h
    simp only [Option.pure_def, Option.some.injEq] at h
    rw [← h]

/-- two days of the same solstice year give the same tables -/
theorem calcY_same (ssq : Calc) (m1 m2 : ℤ) (Q : ℤ → ℤ) (hT : TermsOK ssq m1 m2 Q) (d e : ℤ) (hd : DayR m1 m2 d) (he : DayR m1 m2 e)
    (t : Tables) (h : calcY ssq (e : ℚ) = some t) (z0 z24 : ℤ) (hz0 : t.ZQ[0]? = some z0) (hz24 : t.ZQ[24]? = some z24) (h0 : z0 ≤ d) (h24 : d < z24) :
    calcY ssq (d : ℚ) = some t := by
  obtain ⟨W, n, w1, w2, w3, w4, w5⟩ := solsticeW_spec ssq m1 m2 Q hT e he
  obtain ⟨W', n', v1, v2, v3, v4, v5⟩ := solsticeW_spec ssq m1 m2 Q hT d hd
  unfold calcY at h ⊢
  rw [w1, Option.bind_eq_bind, Option.bind_some] at h
  rw [v1, Option.bind_eq_bind, Option.bind_some]
  have hz := yearFrom_zq ssq m1 m2 Q hT W n w3 w2 t h
  rw [hz, tab_get 25 _ 0 (by omega)] at hz0
  rw [hz, tab_get 25 _ 24 (by omega)] at hz24
  simp only [Option.some.injEq] at hz0 hz24
  have hnn : n = n' := by
    apply year_unique ssq m1 m2 Q hT d n n' w3 v3 _ _ v4 v5
    · have : Q (24 * n) = z0 := by rw [← hz0]; congr 1; push_cast; ring
      omega
    · have : Q (24 * (n + 1)) = z24 := by rw [← hz24]; congr 1; push_cast; ring
      omega
  subst hnn
  rw [← yearFrom_congr ssq m1 m2 Q hT W W' n w3 w2 v2]
  exact h

/-- a reachable state is the initial one or the tables of some day -/
def CacheOK (ssq : Calc) (m1 m2 : ℤ) (t : Tables) : Prop := t = Tables.init ∨ ∃ e : ℤ, DayR m1 m2 e ∧ calcY ssq (e : ℚ) = some t

theorem ensure_eq (ssq : Calc) (m1 m2 : ℤ) (Q : ℤ → ℤ) (hT : TermsOK ssq m1 m2 Q) (t : Tables) (ht : CacheOK ssq m1 m2 t) (d : ℤ) (hd : DayR m1 m2 d) :
    ensure ssq t d = calcY ssq (d : ℚ) := by
  rcases ht with rfl | ⟨e, he, h⟩
  · rfl
  · obtain ⟨W, n, w1, w2, w3, w4, w5⟩ := solsticeW_spec ssq m1 m2 Q hT e he
    have h' := h
    unfold calcY at h'
    rw [w1, Option.bind_eq_bind, Option.bind_some] at h'
    have hz := yearFrom_zq ssq m1 m2 Q hT W n w3 w2 t h'
    have g0 : t.ZQ[0]? = some (Q (24 * n + (0:ℕ))) := by rw [hz]; exact tab_get 25 _ 0 (by omega)
    have g24 : t.ZQ[24]? = some (Q (24 * n + (24:ℕ))) := by rw [hz]; exact tab_get 25 _ 24 (by omega)
    unfold ensure
    rw [g0, g24]
    simp only [Option.bind_eq_bind, Option.bind_some]
    split_ifs with hc
    · rfl
    · rw [not_or, not_or] at hc
      rw [calcY_same ssq m1 m2 Q hT d e hd he t h _ _ g0 g24 (by omega) (by omega)]; rfl

theorem ensure_ok (ssq : Calc) (m1 m2 : ℤ) (Q : ℤ → ℤ) (hT : TermsOK ssq m1 m2 Q) (t t' : Tables) (ht : CacheOK ssq m1 m2 t) (d : ℤ) (hd : DayR m1 m2 d)
    (h : ensure ssq t d = some t') : CacheOK ssq m1 m2 t' := by
  rw [ensure_eq ssq m1 m2 Q hT t ht d hd] at h
  exact Or.inr ⟨d, hd, h⟩

theorem sheetLoop_ok (ssq : Calc) (m1 m2 : ℤ) (Q : ℤ → ℤ) (hT : TermsOK ssq m1 m2 Q) (Bd0 : ℤ) : ∀ (n : ℕ) (d : ℤ) (prev : Option MonthInfo) (t : Tables) (r : List LunarDay × Tables),
    CacheOK ssq m1 m2 t → (∀ i : ℕ, i < n → DayR m1 m2 (d + i)) → sheetLoop ssq Bd0 n d prev t = some r → CacheOK ssq m1 m2 r.2 := by
  intro n
  induction n with
  | zero =>
    intro d prev t r ht _ h
    simp only [sheetLoop, Option.some.injEq] at h
    rw [← h]; exact ht
  | succ n ih =>
    intro d prev t r ht hd h
    rw [sheetLoop, Option.bind_eq_bind] at h
    obtain ⟨t1, h1, h⟩ := Option.bind_eq_some_iff.mp h
    obtain ⟨o, h2, h⟩ := Option.bind_eq_some_iff.mp h
    obtain ⟨r1, h3, h⟩ := Option.bind_eq_some_iff.mp h
    simp only [Option.pure_def, Option.some.injEq] at h
    have c1 := ensure_ok ssq m1 m2 Q hT t t1 ht d (by simpa using hd 0 (by omega)) h1
    have := ih (d + 1) (some o.month) t1 r1 c1 (by
      intro i hi
      have := hd (i + 1) (by omega)
      rwa [show d + 1 + (i : ℤ) = d + ((i + 1 : ℕ) : ℤ) by push_cast; ring]) h3
    rw [← h]; exact this

theorem dayR_of {m1 m2 lo hi d : ℤ} (hlo : -10000000 ≤ lo) (hhi : hi ≤ 10000000) (h1 : meanTerm m1 + 2000 ≤ lo) (h2 : hi ≤ meanTerm m2 - 2000)
    (hd1 : lo ≤ d) (hd2 : d ≤ hi + 31) : DayR m1 m2 d := by
  have e1 : (lo : ℚ) ≤ d := by exact_mod_cast hd1
  have e2 : (d : ℚ) ≤ hi + 31 := by exact_mod_cast hd2
  refine ⟨by rw [abs_le]; constructor <;> omega, by linarith, by linarith⟩

theorem reachable_ok (ssq : Calc) (m1 m2 lo hi : ℤ) (Q : ℤ → ℤ) (hlo : -10000000 ≤ lo) (hhi : hi ≤ 10000000)
    (h1 : meanTerm m1 + 2000 ≤ lo) (h2 : hi ≤ meanTerm m2 - 2000) (hT : TermsOK ssq m1 m2 Q) (t : Tables)
    (h : Reachable ssq lo hi t) : CacheOK ssq m1 m2 t := by
  induction h with
  | init => exact Or.inl rfl
  | sheet Bd0 n hr hB hn h ih =>
    exact sheetLoop_ok ssq m1 m2 Q hT Bd0 n Bd0 none _ _ ih (fun i hi => dayR_of hlo hhi h1 h2 (by omega) (by omega)) h
  | year d hr hd h ih => exact Or.inr ⟨d, dayR_of hlo hhi h1 h2 (by omega) (by omega), h⟩

/-- C21: whatever month sheets and year texts were computed before (for days between `lo` and `hi`), a month sheet has the same
lunar data. `m1`..`m2` is the range of term numbers on which the solar-term calculator must be sane. -/
theorem c21_history (ssq : Calc) (m1 m2 lo hi : ℤ) (Q : ℤ → ℤ) (hlo : -10000000 ≤ lo) (hhi : hi ≤ 10000000)
    (h1 : meanTerm m1 + 2000 ≤ lo) (h2 : hi ≤ meanTerm m2 - 2000) (hT : TermsOK ssq m1 m2 Q)
    (t t' : Tables) (h : Reachable ssq lo hi t) (h' : Reachable ssq lo hi t') (Bd0 : ℤ) (hB : lo ≤ Bd0 ∧ Bd0 ≤ hi) (n : ℕ) :
    (lunarSheet ssq t Bd0 n).map Prod.fst = (lunarSheet ssq t' Bd0 n).map Prod.fst := by
  unfold lunarSheet
  cases n with
  | zero => rfl
  | succ n =>
    have hd := dayR_of hlo hhi h1 h2 hB.1 (by omega)
    rw [sheetLoop, sheetLoop, ensure_eq ssq m1 m2 Q hT t (reachable_ok ssq m1 m2 lo hi Q hlo hhi h1 h2 hT t h) Bd0 hd,
      ensure_eq ssq m1 m2 Q hT t' (reachable_ok ssq m1 m2 lo hi Q hlo hhi h1 h2 hT t' h') Bd0 hd]

end Verif.Lunar
