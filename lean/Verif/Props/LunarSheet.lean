import Verif.Props.LunarHistory

/-!
# Properties C18-C21 together: every month sheet after every history

From a sane calculator of terms and new moons to the lunar records of all the days of a month sheet.
-/

namespace Verif.Lunar
open Verif.Fp Verif.GanZhi

/-! ## names and the first day of the year -/

/-- C18: the name the program gives to a month is the one of the rule -/
theorem c18_name_rule (Dm : ℤ) (v : ℕ) : monthName Dm v = some (nameRule Dm v) := by
  obtain ⟨h1, h2, h3, h4⟩ := c18_name_historic Dm v
  unfold nameRule
  by_cases a : Dm = 1729794 ∨ Dm = 1808699
  · rw [if_pos a]; exact h4 a
  rw [if_neg a]
  by_cases b : (1724360 ≤ Dm ∧ Dm < 1729794) ∨ (1807724 ≤ Dm ∧ Dm < 1808699)
  · rw [if_pos b]; exact h1 b
  rw [if_neg b]
  by_cases c : 1999349 ≤ Dm ∧ Dm ≤ 1999467
  · rw [if_pos c]; exact h2 c
  rw [if_neg c]
  by_cases e : 1973067 ≤ Dm ∧ Dm ≤ 1977052
  · rw [if_pos e]; exact h3 e
  rw [if_neg e]
  exact c18_name Dm v (by unfold SpecialDate; omega)

/-- months twelve apart have the same name -/
theorem nameRule_12 (Dm : ℤ) : nameRule Dm 12 = nameRule Dm 0 := rfl

theorem springFrom_general (t : Tables) (nm : ℕ → String) (h : ℕ → ℤ) (l : ℕ) (hym : ∀ i, i < 14 → t.ym[i]? = some (nm i)) (hhs : t.HS = tab 15 h) (hl : t.leap = l) (d : ℤ) :
    ∀ (f j : ℕ) (D : ℤ), f + j = 14 → (∀ i, i < j → Opens nm l i → h i ≤ d) →
      ((∃ i, i < j ∧ Opens nm l i ∧ (∀ k, k < j → i < k → ¬ Opens nm l k) ∧ D = h i) ∨ ((∀ i, i < j → ¬ Opens nm l i) ∧ D = h 2)) →
      ∃ D', springFrom t d f j D = some D' ∧ SpringDay nm l h d D' := by
  intro f
  induction f with
  | zero =>
    intro j D hj h1 h2
    have : j = 14 := by omega
    subst this
    exact ⟨D, rfl, Or.inr ⟨h1, h2⟩⟩
  | succ f ih =>
    intro j D hj h1 h2
    by_cases ho : Opens nm l j
    · have ho' : ¬ (nm j ≠ "正" ∨ (t.leap = j ∧ j ≠ 0)) := by
        rw [hl]; unfold Opens at ho; rw [not_or, not_not]; exact ho
      rw [springFrom, hym j (by omega)]
      simp only [Option.bind_eq_bind, Option.bind_some]
      rw [if_neg ho', hhs, tab_get 15 h j (by omega)]
      simp only [Option.bind_some]
      by_cases hd : d < h j
      · rw [if_pos hd]
        exact ⟨h j - 365, rfl, Or.inl ⟨j, by omega, ho, hd, h1, rfl⟩⟩
      · rw [if_neg hd]
        refine ih (j + 1) (h j) (by omega) ?_ (Or.inl ⟨j, by omega, ho, ?_, rfl⟩)
        · intro i hi hoi
          by_cases he : i = j
          · subst he; omega
          · exact h1 i (by omega) hoi
        · intro k hk hjk; omega
    · have ho' : nm j ≠ "正" ∨ (t.leap = j ∧ j ≠ 0) := by
        rw [hl]; unfold Opens at ho; by_contra hc; rw [not_or, not_not] at hc; exact ho hc
      rw [springFrom_skip t d f j D (nm j) (hym j (by omega)) ho']
      refine ih (j + 1) D (by omega) ?_ ?_
      · intro i hi hoi
        by_cases he : i = j
        · subst he; exact absurd hoi ho
        · exact h1 i (by omega) hoi
      · rcases h2 with ⟨i, a1, a2, a3, a4⟩ | ⟨a1, a2⟩
        · refine Or.inl ⟨i, by omega, a2, ?_, a4⟩
          intro k hk hik
          by_cases he : k = j
          · subst he; exact ho
          · exact a3 k (by omega) hik
        · refine Or.inr ⟨?_, a2⟩
          intro i hi
          by_cases he : i = j
          · subst he; exact ho
          · exact a1 i (by omega)

theorem yearRound_total (D : ℤ) (hD : |D| ≤ 10000000) : ∃ Y : ℤ, yearRound D = some Y ∧ |(D : ℚ) - 3652422/10000 * Y| ≤ 183 ∧ |Y| ≤ 28000 := by
  have hD' := abs_le.mp hD
  have d1 : (-10000000 : ℚ) ≤ D := by exact_mod_cast hD'.1
  have d2 : (D : ℚ) ≤ 10000000 := by exact_mod_cast hD'.2
  have hc := abs_le.mp cYear_tight
  have hc0 : 0 < cYear := by linarith [hc.1]
  obtain ⟨x, hx⟩ : ∃ x : ℚ, x = (D : ℚ) / cYear := ⟨_, rfl⟩
  have hxc : x * cYear = D := by rw [hx]; field_simp
  have hxb : |x| ≤ 27500 := by
    rw [hx, abs_div, abs_of_pos hc0, div_le_iff₀ hc0, abs_le]
    constructor <;> linarith [hc.1]
  have hxb' := abs_le.mp hxb
  have r1 := abs_le.mp (rnd_err1 hxb (by norm_num))
  have s1 : (27500 : ℚ) / 9007199254740992 ≤ 1/1000000 := by norm_num
  have hyb : |rnd x + 1/2| ≤ 27600 := by rw [abs_le]; constructor <;> linarith [r1.1, r1.2]
  have r2 := abs_le.mp (rnd_err1 hyb (by norm_num))
  have s2 : (27600 : ℚ) / 9007199254740992 ≤ 1/1000000 := by norm_num
  obtain ⟨Y, hY⟩ : ∃ Y : ℤ, Y = ⌊rnd (rnd x + 1/2)⌋ := ⟨_, rfl⟩
  have f1 := Int.floor_le (rnd (rnd x + 1/2))
  have f2 := Int.lt_floor_add_one (rnd (rnd x + 1/2))
  rw [← hY] at f1 f2
  have y1 : (Y : ℚ) ≤ 28000 := by linarith [r1.2, r2.2]
  have y2 : (-28000 : ℚ) ≤ Y := by linarith [r1.1, r2.1]
  have y1' : Y ≤ 28000 := by exact_mod_cast y1
  have y2' : -28000 ≤ Y := by exact_mod_cast y2
  refine ⟨Y, ?_, ?_, by rw [abs_le]; omega⟩
  · unfold yearRound int2 fadd fdiv
    rw [rnd_half, ← hx, ← hY]
    exact i32_some (by omega) (by omega)
  · have px : |x * (cYear - 3652422/10000)| ≤ 1/100000 := by
      rw [abs_mul]
      calc |x| * |cYear - 3652422/10000| ≤ 30000 * (1/1000000000000) :=
            mul_le_mul (le_trans hxb (by norm_num)) cYear_tight (abs_nonneg _) (by norm_num)
        _ ≤ 1/100000 := by norm_num
    have px' := abs_le.mp px
    rw [show x * (cYear - 3652422/10000) = D - 3652422/10000 * x by rw [← hxc]; ring] at px'
    rw [abs_le]
    constructor <;> linarith [r1.1, r1.2, r2.1, r2.2, px'.1, px'.2]

/-! ## the new moons of a year -/

theorem c29530_tight : |rnd (295306/10000) - 295306/10000| ≤ 1/1000000000000 := by decide +kernel
theorem c2953_tight : |rnd (2953/100) - 2953/100| ≤ 1/1000000000000 := by decide +kernel

theorem moons_eq (ssq : Calc) (j1 j2 : ℤ) (Mn : ℤ → ℤ) (hM : MoonsOK ssq j1 j2 Mn) (A0 : ℤ) (hA : |A0| ≤ 11000000)
    (h1 : Mn j1 ≤ A0) (h2 : A0 + 500 ≤ Mn j2) :
    ∃ a, j1 ≤ a ∧ a + 15 ≤ j2 ∧ Mn a ≤ A0 ∧ A0 < Mn (a + 1) ∧ moons ssq A0 = some (tab 15 (fun i => Mn (a + i))) := by
  have hA' := abs_le.mp hA
  have h1q : ((Mn j1 : ℤ) : ℚ) ≤ A0 := by exact_mod_cast h1
  have h2q : (A0 : ℚ) ≤ Mn j2 := by exact_mod_cast (by omega : A0 ≤ Mn j2)
  obtain ⟨j, b1, b2, b3, b4⟩ := hM.some (A0 : ℚ) h1q h2q
  have b4' := abs_le.mp b4
  have b5 : Mn j - A0 ≤ 18 := by
    have : ((Mn j - A0 : ℤ) : ℚ) ≤ 18 := by push_cast; linarith [b4'.1]
    exact_mod_cast this
  have b6 : A0 - Mn j ≤ 18 := by
    have : ((A0 - Mn j : ℤ) : ℚ) ≤ 18 := by push_cast; linarith [b4'.2]
    exact_mod_cast this
  have room : ∀ a, j1 ≤ a → a ≤ j2 → Mn a ≤ A0 → a + 15 ≤ j2 := by
    intro a ha ha2 hle
    by_contra hc
    have := hM.months a j2 ha ha2 (le_refl _) (by omega)
    omega
  -- the common part: from an estimate of the first new moon
  have key : ∀ (a : ℤ) (w : ℚ), j1 ≤ a → a + 15 ≤ j2 → |((Mn a : ℤ) : ℚ)| ≤ 11000100 → |w - Mn a| ≤ 16/10 →
      (List.range 15).mapM (fun (i : ℕ) => ssq (w ⊞ rnd (295306/10000) ⊠ (i : ℚ)) false) = some (tab 15 (fun i => Mn (a + i))) := by
    intro a w ha1 ha2 hab hw
    unfold tab
    apply Cal.mapM_some
    intro i hi
    have hi : i < 15 := by simpa using hi
    have hiq : (i : ℚ) ≤ 14 := by exact_mod_cast (by omega : i ≤ 14)
    have hi0 : (0 : ℚ) ≤ i := by positivity
    apply hM.here (a + i) (by omega) (by omega)
    have nr := abs_le.mp (hM.near a (a + i) ha1 (by omega) (by omega) (by omega))
    have hw' := abs_le.mp hw
    have hab' := abs_le.mp hab
    have c := abs_le.mp c29530_tight
    have p0 : |(rnd (295306/10000) - 295306/10000) * (i : ℚ)| ≤ 1/100000 := by
      rw [abs_mul]
      calc |rnd (295306/10000) - 295306/10000| * |(i : ℚ)| ≤ 1/1000000000000 * 14 :=
            mul_le_mul c29530_tight (by rw [abs_of_nonneg hi0]; exact hiq) (abs_nonneg _) (by norm_num)
        _ ≤ 1/100000 := by norm_num
    have p0' := abs_le.mp p0
    have pb : |rnd (295306/10000) * (i : ℚ)| ≤ 500 := by
      rw [abs_le]
      have e : (rnd (295306/10000) - 295306/10000) * (i : ℚ) = rnd (295306/10000) * i - 295306/10000 * i := by ring
      rw [e] at p0'
      constructor <;> linarith [p0'.1, p0'.2]
    have pb' := abs_le.mp pb
    have p1 := abs_le.mp (rnd_err1 pb (by norm_num))
    have s1 : (500 : ℚ) / 9007199254740992 ≤ 1/100000 := by norm_num
    have sb : |w + rnd (rnd (295306/10000) * (i : ℚ))| ≤ 12000000 := by
      rw [abs_le]; constructor <;> linarith [p1.1, p1.2, pb'.1, pb'.2]
    have p2 := abs_le.mp (rnd_err1 sb (by norm_num))
    have s2 : (12000000 : ℚ) / 9007199254740992 ≤ 1/100000 := by norm_num
    have e : (rnd (295306/10000) - 295306/10000) * (i : ℚ) = rnd (295306/10000) * i - 295306/10000 * i := by ring
    rw [e] at p0'
    push_cast at nr
    unfold fadd fmul
    rw [abs_le]
    constructor <;> linarith [p1.1, p1.2, p2.1, p2.2, p0'.1, p0'.2, nr.1, nr.2]
  unfold moons
  rw [b3]
  simp only [Option.bind_eq_bind, Option.bind_some]
  by_cases hgt : Mn j > A0
  · rw [if_pos hgt]
    have hj : j1 ≤ j - 1 := by
      by_contra hc
      have : j = j1 := by omega
      subst this; omega
    have st := hM.months (j - 1) j hj (by omega) b2 (by omega)
    have rm := room (j - 1) hj (by omega) (by omega)
    refine ⟨j - 1, hj, rm, by omega, by rw [show j - 1 + 1 = j by ring]; omega, ?_⟩
    have mb : |((Mn j : ℤ) : ℚ)| ≤ 11000050 := by
      have : |Mn j| ≤ 11000050 := by rw [abs_le]; omega
      exact_mod_cast this
    have mb' := abs_le.mp mb
    apply key (j - 1) _ hj rm
    · have : |Mn (j - 1)| ≤ 11000100 := by rw [abs_le]; omega
      exact_mod_cast this
    · have c := abs_le.mp c2953_tight
      have sb : |((Mn j : ℤ) : ℚ) - rnd (2953/100)| ≤ 12000000 := by rw [abs_le]; constructor <;> linarith [c.1, c.2]
      have p2 := abs_le.mp (rnd_err1 sb (by norm_num))
      have s2 : (12000000 : ℚ) / 9007199254740992 ≤ 1/100000 := by norm_num
      have st1 : ((Mn j - Mn (j - 1) : ℤ) : ℚ) ≤ 30 := by exact_mod_cast (by omega : Mn j - Mn (j - 1) ≤ 30)
      have st2 : (28 : ℚ) ≤ ((Mn j - Mn (j - 1) : ℤ) : ℚ) := by exact_mod_cast (by omega : 28 ≤ Mn j - Mn (j - 1))
      push_cast at st1 st2
      unfold fsub
      rw [abs_le]
      constructor <;> linarith [p2.1, p2.2, c.1, c.2]
  · rw [if_neg hgt]
    have rm := room j b1 b2 (by omega)
    have st := hM.months j (j + 1) b1 (by omega) (by omega) (by omega)
    refine ⟨j, b1, rm, by omega, by omega, ?_⟩
    apply key j _ b1 rm
    · have : |Mn j| ≤ 11000100 := by rw [abs_le]; omega
      exact_mod_cast this
    · simp; norm_num

theorem lengths_eq (h : ℕ → ℤ) : lengths (tab 15 h) = some (tab 14 (fun i => h (i + 1) - h i)) := by
  unfold lengths
  show _ = some ((List.range 14).map _)
  apply Cal.mapM_some
  intro i hi
  have hi : i < 14 := by simpa using hi
  rw [tab_get 15 h (i + 1) (by omega), tab_get 15 h i (by omega)]
  rfl

/-! ## the year of a day -/

/-- the leap month the program finds -/
def leapFn (z h : ℕ → ℤ) : ℕ := ((monthNumbers (tab 25 z) (tab 15 h)).map Prod.fst).getD 0

/-- day `d` lies in solstice year `N`, whose months are counted from new moon `a`, in month `k` -/
structure At (Q Mn : ℤ → ℤ) (m1 m2 j1 j2 d N a : ℤ) (k : ℕ) : Prop where
  inR : InR m1 m2 N
  year : Q (24 * N) ≤ d ∧ d < Q (24 * (N + 1))
  ja : j1 ≤ a ∧ a + 15 ≤ j2
  first : Mn a ≤ Q (24 * N) ∧ Q (24 * N) < Mn (a + 1)
  kk : k < 14
  inm : InMonth (hOf Mn a) k d

section
variable {ssq : Calc} {m1 m2 j1 j2 : ℤ} {Q Mn : ℤ → ℤ}

theorem MoonsOK.mono (hM : MoonsOK ssq j1 j2 Mn) {i j : ℤ} (h1 : j1 ≤ i) (hij : i < j) (h2 : j ≤ j2) : Mn i < Mn j := by
  obtain ⟨n, hn⟩ := Int.le.dest (show i + 1 ≤ j from hij)
  induction n generalizing j with
  | zero =>
    have := hM.months i j h1 (by omega) h2 (by omega)
    have e : j = i + 1 := by omega
    subst e; omega
  | succ n ih =>
    have a1 := ih (j := j - 1) (by omega) (by omega) (by omega)
    have := hM.months (j - 1) j (by omega) (by omega) h2 (by omega)
    omega

theorem month_unique (hM : MoonsOK ssq j1 j2 Mn) {i j d : ℤ} (hi : j1 ≤ i ∧ i + 1 ≤ j2) (hj : j1 ≤ j ∧ j + 1 ≤ j2) (h1 : Mn i ≤ d) (h2 : d < Mn (i + 1))
    (h3 : Mn j ≤ d) (h4 : d < Mn (j + 1)) : i = j := by
  have key : ∀ a b : ℤ, j1 ≤ a → b ≤ j2 → a + 1 ≤ j2 → Mn b ≤ d → d < Mn (a + 1) → b ≤ a := by
    intro a b ha hb ha1 hb1 had
    by_contra hc
    by_cases he : b = a + 1
    · subst he; omega
    · have := hM.mono (show j1 ≤ a + 1 by omega) (show a + 1 < b by omega) hb
      omega
  have := key i j hi.1 (by omega) hi.2 h3 h2
  have := key j i hj.1 (by omega) hj.2 h1 h4
  omega

theorem near_of (hN : TermsNear Q m1 m2) {N : ℤ} (hR : InR m1 m2 N) : NearMean (zOf Q N) := by
  have hb := hR.bounds
  refine ⟨?_, ?_⟩
  · intro i hi
    have := hN.1 (24 * N + i) (by omega) (by omega)
    unfold zOf
    rw [show 24 * N + ((i + 1 : ℕ) : ℤ) = 24 * N + i + 1 by push_cast; ring]
    exact this
  · intro k hk
    have := hN.2 (24 * N) (24 * N + k) (by omega) (by omega) (by omega) (by omega)
    unfold zOf
    simp only [Nat.cast_zero, add_zero]
    rw [show ((24 * N + (k : ℤ) - 24 * N : ℤ) : ℚ) = k by push_cast; ring] at this
    exact this

theorem anchored_of (hT : TermsOK ssq m1 m2 Q) {N : ℤ} (hR : InR m1 m2 N) : Anchored (zOf Q N) N := by
  have hb := hR.bounds
  intro k hk
  have := abs_le.mp (hT (24 * N + k) (by omega) (by omega)).1
  have hkq : (k : ℚ) ≤ 24 := by exact_mod_cast hk
  have hk0 : (0 : ℚ) ≤ k := by positivity
  unfold meanTerm at this
  push_cast at this
  unfold zOf
  rw [abs_le]
  constructor <;> linarith [this.1, this.2]

theorem consistent_of (hN : TermsNear Q m1 m2) (hM : MoonsOK ssq j1 j2 Mn) {d N a : ℤ} {k : ℕ} (h : At Q Mn m1 m2 j1 j2 d N a k) :
    Consistent (zOf Q N) (hOf Mn a) := by
  have hj := h.ja
  refine ⟨(near_of hN h.inR).terms, ?_, ?_⟩
  · intro i j hij hj14
    have := hM.months (a + i) (a + j) (by omega) (by omega) (by omega) (by omega)
    unfold hOf
    omega
  · have := h.first
    unfold hOf zOf
    simpa using this

/-- what the program finds as leap month and month numbers -/
theorem numbers_of (hN : TermsNear Q m1 m2) (hM : MoonsOK ssq j1 j2 Mn) {d N a : ℤ} {k : ℕ} (h : At Q Mn m1 m2 j1 j2 d N a k) :
    ∃ num, monthNumbers (tab 25 (zOf Q N)) (tab 15 (hOf Mn a)) = some (leapFn (zOf Q N) (hOf Mn a), num) ∧
      (∀ i, i < 14 → num[i]? = some (numOf (leapFn (zOf Q N) (hOf Mn a)) i)) ∧ LeapRule (zOf Q N) (hOf Mn a) (leapFn (zOf Q N) (hOf Mn a)) := by
  have hc := consistent_of hN hM h
  have hnm := near_of hN h.inR
  obtain ⟨l, num, e, l1, l2⟩ := c18_leap _ _ hc
  have h1213 : InMonth (hOf Mn a) 12 (zOf Q N 24) ∨ InMonth (hOf Mn a) 13 (zOf Q N 24) := by
    have b := abs_le.mp (hnm.near 24 (by omega))
    have hj := h.ja
    have mo := abs_le.mp (hM.near a (a + 12) (by omega) (by omega) (by omega) (by omega))
    have m14 := hc.hmono (show 1 ≤ 14 by omega) (by omega)
    have hf := hc.first
    push_cast at b m14
    have e1 : (359 : ℤ) ≤ zOf Q N 24 - zOf Q N 0 := by
      have : (358 : ℚ) < ((zOf Q N 24 - zOf Q N 0 : ℤ) : ℚ) := by push_cast; linarith [b.1]
      have : 358 < zOf Q N 24 - zOf Q N 0 := by exact_mod_cast this
      omega
    have e2 : zOf Q N 24 - zOf Q N 0 ≤ 373 := by
      have : ((zOf Q N 24 - zOf Q N 0 : ℤ) : ℚ) ≤ 373 := by push_cast; linarith [b.2]
      exact_mod_cast this
    have e3 : hOf Mn a 12 - hOf Mn a 0 ≤ 358 := by
      have : ((Mn (a + 12) - Mn a : ℤ) : ℚ) ≤ 358 := by push_cast at mo ⊢; linarith [mo.2]
      have : Mn (a + 12) - Mn a ≤ 358 := by exact_mod_cast this
      unfold hOf; simpa using this
    unfold InMonth
    simp only [Nat.reduceAdd]
    omega
  have hleap : leapFn (zOf Q N) (hOf Mn a) = l := by unfold leapFn; rw [e]; rfl
  rw [hleap]
  have hnum : ∀ i, i < 14 → num[i]? = some (numOf l i) := by
    intro i hi
    rcases h1213 with hh | hh
    · obtain ⟨c1, c2⟩ := l1 hh
      rw [c2 i hi, c1]; rfl
    · obtain ⟨c1, c2, c3, c4, c5⟩ := l2 hh
      rw [c5 i hi]; unfold numOf; rw [if_neg (show ¬ l = 0 by omega)]
  have hrule : LeapRule (zOf Q N) (hOf Mn a) l := by
    rcases h1213 with hh | hh
    · exact Or.inl ⟨hh, (l1 hh).1⟩
    · obtain ⟨c1, c2, c3, c4, c5⟩ := l2 hh
      exact Or.inr ⟨hh, c1, c2, c3, c4⟩
  exact ⟨num, e, hnum, hrule⟩

theorem leapRule_of (hN : TermsNear Q m1 m2) (hM : MoonsOK ssq j1 j2 Mn) {d N a : ℤ} {k : ℕ} (h : At Q Mn m1 m2 j1 j2 d N a k) :
    LeapRule (zOf Q N) (hOf Mn a) (leapFn (zOf Q N) (hOf Mn a)) := by
  obtain ⟨num, -, -, hh⟩ := numbers_of hN hM h
  exact hh

/-- the year number by which the program chooses the month names -/
theorem yearOf_eq (hT : TermsOK ssq m1 m2 Q) {N : ℤ} (hR : InR m1 m2 N) : yearOf (Q (24 * N)) = some (N + 2001) := by
  have hb := hR.bounds
  have hA := abs_le.mp (hT (24 * N) (by omega) (by omega)).1
  unfold meanTerm at hA
  push_cast at hA
  unfold yearOf
  rw [int2_floor (Q (24 * N) + 10 + 180) (N + 1) (by push_cast; linarith [hA.1]) (by push_cast; linarith [hA.2]) (by rw [abs_le]; omega)]
  simp only [Option.bind_eq_bind, Option.bind_some]
  show some _ = some _
  congr 1
  ring

/-- ordinary days are in ordinary years -/
theorem ordinary_year (hT : TermsOK ssq m1 m2 Q) {d N a : ℤ} {k : ℕ} (h : At Q Mn m1 m2 j1 j2 d N a k) (hord : Ordinary d) :
    ¬ (-721 ≤ N + 2001 ∧ N + 2001 ≤ -104) := by
  have hb := h.inR.bounds
  have hA := abs_le.mp (hT (24 * N) (by omega) (by omega)).1
  have hA1 := abs_le.mp (hT (24 * (N + 1)) (by omega) (by omega)).1
  unfold meanTerm at hA hA1
  push_cast at hA hA1
  rcases hord with ho | ho
  · have h1 : ((Q (24 * N) : ℤ) : ℚ) ≤ -994100 := by exact_mod_cast le_trans h.year.1 ho
    have h2 : (N : ℚ) < -2722 := by linarith [hA.1]
    have : N < -2722 := by exact_mod_cast h2
    omega
  · have h1 : (-767700 : ℚ) < ((Q (24 * (N + 1)) : ℤ) : ℚ) := by exact_mod_cast lt_of_le_of_lt ho h.year.2
    have h2 : (-2105 : ℚ) < N := by linarith [hA1.2]
    have : -2105 < N := by exact_mod_cast h2
    omega

/-- the whole table of a year -/
theorem tables_of (hT : TermsOK ssq m1 m2 Q) (hN : TermsNear Q m1 m2) (hM : MoonsOK ssq j1 j2 Mn) {d N a : ℤ} {k : ℕ} (h : At Q Mn m1 m2 j1 j2 d N a k)
    (hmoons : moons ssq (Q (24 * N)) = some (tab 15 (hOf Mn a))) (W : ℚ) (hW : Near W N) (hnot : ¬ (-721 ≤ N + 2001 ∧ N + 2001 ≤ -104)) :
    ∃ t, yearFrom ssq W = some t ∧ YearTables t (zOf Q N) (hOf Mn a) (leapFn (zOf Q N) (hOf Mn a)) (nmOf Mn a (leapFn (zOf Q N) (hOf Mn a))) ∧
      LeapRule (zOf Q N) (hOf Mn a) (leapFn (zOf Q N) (hOf Mn a)) := by
  obtain ⟨t1, t2, t3⟩ := terms_eq ssq m1 m2 Q hT W N h.inR hW
  have hb := h.inR.bounds
  obtain ⟨num, e, hnum, hrule⟩ := numbers_of hN hM h
  obtain ⟨l, hl⟩ : ∃ l, l = leapFn (zOf Q N) (hOf Mn a) := ⟨_, rfl⟩
  rw [← hl] at e hnum hrule ⊢
  -- the year number
  have hA := abs_le.mp (hT (24 * N) (by omega) (by omega)).1
  have hA1 := abs_le.mp (hT (24 * (N + 1)) (by omega) (by omega)).1
  unfold meanTerm at hA hA1
  push_cast at hA hA1
  have hY := yearOf_eq hT h.inR
  have hA0 : (tab 25 (fun (i : ℕ) => Q (24 * N + i)))[0]? = some (Q (24 * N)) := by
    rw [tab_get 25 _ 0 (by omega)]; simp
  refine ⟨⟨l, (List.range 14).map (nmOf Mn a l), tab 25 (zOf Q N), tab 15 (hOf Mn a), tab 14 (fun i => hOf Mn a (i + 1) - hOf Mn a i), [Q (24 * N - 1), Q (24 * N - 2)]⟩, ?_, ⟨rfl, rfl, rfl, rfl, rfl⟩, hrule⟩
  unfold yearFrom
  refine bind_ok t1 ?_
  refine bind_ok t2 ?_
  refine bind_ok t3 ?_
  refine bind_ok hA0 ?_
  refine bind_ok hmoons ?_
  refine bind_ok (lengths_eq _) ?_
  refine bind_ok hY ?_
  rw [if_neg hnot]
  refine bind_ok e ?_
  refine bind_ok (x := (List.range 14).map (nmOf Mn a l)) ?_ rfl
  apply Cal.mapM_some
  intro i hi
  have hi : i < 14 := by simpa using hi
  refine bind_ok (tab_get 15 _ i (by omega)) ?_
  refine bind_ok (hnum i hi) ?_
  exact c18_name_rule _ _

/-- every day of the range has its year and month, and the program computes the tables of that year -/
theorem day_tables {lo hi : ℤ} (hr : Range Q Mn m1 m2 j1 j2 lo hi) (hT : TermsOK ssq m1 m2 Q) (hN : TermsNear Q m1 m2) (hM : MoonsOK ssq j1 j2 Mn)
    (d : ℤ) (h1 : lo ≤ d) (h2 : d ≤ hi + 31) :
    ∃ N a k W, At Q Mn m1 m2 j1 j2 d N a k ∧ Near W N ∧ solsticeW ssq (d : ℚ) = some W ∧ moons ssq (Q (24 * N)) = some (tab 15 (hOf Mn a)) := by
  have hb := hr.big
  have hd : DayR m1 m2 d := dayR_of (by omega) (by omega) hr.terms.1 hr.terms.2 h1 h2
  obtain ⟨W, N, w1, w2, w3, w4, w5⟩ := solsticeW_spec ssq m1 m2 Q hT d hd
  have hm := hr.moons
  have hR := w3.bounds
  have nm := near_of hN w3
  have len : Q (24 * (N + 1)) - Q (24 * N) ≤ 373 := by
    have b := abs_le.mp (nm.near 24 (by omega))
    have : ((zOf Q N 24 - zOf Q N 0 : ℤ) : ℚ) ≤ 373 := by push_cast at b ⊢; linarith [b.2]
    have : zOf Q N 24 - zOf Q N 0 ≤ 373 := by exact_mod_cast this
    unfold zOf at this
    rw [show 24 * N + ((24 : ℕ) : ℤ) = 24 * (N + 1) by push_cast; ring, show 24 * N + ((0 : ℕ) : ℤ) = 24 * N by simp] at this
    exact this
  obtain ⟨a, a1, a2, a3, a4, a5⟩ := moons_eq ssq j1 j2 Mn hM (Q (24 * N)) (by rw [abs_le]; constructor <;> omega) (by omega) (by omega)
  have h14 : d < hOf Mn a 14 := by
    have m := hM.months (a + 1) (a + 14) (by omega) (by omega) (by omega) (by omega)
    unfold hOf
    push_cast
    omega
  obtain ⟨k, hk, hin⟩ := exists_month (hOf Mn a) 14 d (by unfold hOf; simp; omega) h14
  exact ⟨N, a, k, W, ⟨w3, ⟨w4, w5⟩, ⟨a1, a2⟩, ⟨a3, a4⟩, hk, hin⟩, w2, w1, a5⟩

/-- what the month fields of a record must say -/
structure MonthOK (Mn : ℤ → ℤ) (a : ℤ) (l : ℕ) (nm : ℕ → String) (k : ℕ) (p : MonthInfo) : Prop where
  name : p.Lmc = nm k
  len : p.Ldn = Mn (a + k + 1) - Mn (a + k)
  leap : p.Lleap = decide (l ≠ 0 ∧ l = k)
  next : 1 ≤ k → k < 13 → p.Lmc2 = nm (k + 1)

/-- a naming: leap month and month names of each year, such that the program finds them (on the days `P`) and the month of a solstice has
the same name in the year before and in the year after it -/
structure Naming (ssq : Calc) (m1 m2 j1 j2 : ℤ) (Q Mn : ℤ → ℤ) (P : ℤ → Prop) (L : ℤ → ℤ → ℕ) (NM : ℤ → ℤ → ℕ → String) : Prop where
  tables : ∀ {d N a : ℤ} {k : ℕ}, P d → At Q Mn m1 m2 j1 j2 d N a k → moons ssq (Q (24 * N)) = some (tab 15 (hOf Mn a)) → ∀ W, Near W N →
    ∃ t, yearFrom ssq W = some t ∧ YearTables t (zOf Q N) (hOf Mn a) (L N a) (NM N a)
  joins : ∀ {d N a a' : ℤ} {k : ℕ}, P d → P (d + 1) → At Q Mn m1 m2 j1 j2 d N a k → At Q Mn m1 m2 j1 j2 (d + 1) (N + 1) a' 0 → zOf Q N 24 = d + 1 → a + k = a' →
    NM N a k = NM (N + 1) a' 0 ∧ ¬ (L N a ≠ 0 ∧ L N a = k)

/-- the month fields of the day before serve for a day in the same month -/
theorem month_carry {P : ℤ → Prop} {L : ℤ → ℤ → ℕ} {NM : ℤ → ℤ → ℕ → String} (hnm : Naming ssq m1 m2 j1 j2 Q Mn P L NM)
    (hM : MoonsOK ssq j1 j2 Mn) (hT : TermsOK ssq m1 m2 Q) {d N a N' a' : ℤ} {k k' : ℕ} (hP : P d) (hP' : P (d + 1))
    (h : At Q Mn m1 m2 j1 j2 d N a k) (h' : At Q Mn m1 m2 j1 j2 (d + 1) N' a' k')
    (hne : d + 1 ≠ hOf Mn a' k') (p : MonthInfo) (hp : MonthOK Mn a (L N a) (NM N a) k p) :
    MonthOK Mn a' (L N' a') (NM N' a') k' p := by
  obtain ⟨i1, i2⟩ := h.inm
  obtain ⟨i1', i2'⟩ := h'.inm
  have hj := h.ja
  have hj' := h'.ja
  have hk := h.kk
  have hk' := h'.kk
  unfold hOf at i1 i2 i1' i2' hne
  rw [Nat.cast_add, Nat.cast_one, ← add_assoc] at i2 i2'
  have hsame : a + k = a' + k' := month_unique hM (d := d) ⟨by omega, by omega⟩ ⟨by omega, by omega⟩ i1 (by omega) (by omega) (by omega)
  by_cases hNN : N = N'
  · subst hNN
    have haa : a = a' := month_unique hM (d := Q (24 * N)) ⟨by omega, by omega⟩ ⟨by omega, by omega⟩ h.first.1 h.first.2 h'.first.1 h'.first.2
    subst haa
    have : k = k' := by omega
    subst this
    exact hp
  · -- the solstice falls on day `d + 1`
    have hN' : N' = N + 1 := by
      have b := h.inR.bounds
      have b' := h'.inR.bounds
      have q1 := abs_le.mp (hT (24 * N) (by omega) (by omega)).1
      have q2 := abs_le.mp (hT (24 * (N + 1)) (by omega) (by omega)).1
      have q3 := abs_le.mp (hT (24 * N') (by omega) (by omega)).1
      have q4 := abs_le.mp (hT (24 * (N' + 1)) (by omega) (by omega)).1
      unfold meanTerm at q1 q2 q3 q4
      push_cast at q1 q2 q3 q4
      have y1 : ((Q (24 * N') : ℤ) : ℚ) ≤ Q (24 * (N + 1)) := by exact_mod_cast (by have := h.year.2; have := h'.year.1; omega : Q (24 * N') ≤ Q (24 * (N + 1)))
      have y2 : ((Q (24 * N) : ℤ) : ℚ) < Q (24 * (N' + 1)) := by exact_mod_cast (by have := h.year.1; have := h'.year.2; omega : Q (24 * N) < Q (24 * (N' + 1)))
      have z1 : (N' : ℚ) < N + 2 := by linarith [q2.2, q3.1]
      have z2 : (N : ℚ) < N' + 2 := by linarith [q4.2, q1.1]
      have z1' : N' < N + 2 := by exact_mod_cast z1
      have z2' : N < N' + 2 := by exact_mod_cast z2
      by_contra hc
      have : N = N' + 1 := by omega
      subst this
      have := h.year.1
      have := h'.year.2
      omega
    subst hN'
    have hd : Q (24 * (N + 1)) = d + 1 := by
      have := h.year.2
      have := h'.year.1
      omega
    have hfst := h'.first
    rw [hd] at hfst
    have ha0 : a' = a' + k' := month_unique hM (d := d + 1) ⟨by omega, by omega⟩ ⟨by omega, by omega⟩ hfst.1 hfst.2 (by omega) (by omega)
    have hk0 : k' = 0 := by omega
    subst hk0
    have z24 : zOf Q N 24 = d + 1 := by unfold zOf; rw [← hd]; congr 1; push_cast; ring
    obtain ⟨c1, c2⟩ := hnm.joins hP hP' h h' z24 (by omega)
    refine ⟨?_, ?_, ?_, fun hh => absurd hh (by omega)⟩
    · rw [hp.name, c1]
    · rw [hp.len, hsame]
    · rw [hp.leap]
      have e2 : ¬ (L (N + 1) a' ≠ 0 ∧ L (N + 1) a' = 0) := fun hh => hh.1 hh.2
      rw [decide_eq_false c2, decide_eq_false e2]

/-- in ordinary years the month of a solstice has the same name in the year before and in the year after it -/
theorem ordinary_joins (hN : TermsNear Q m1 m2) (hM : MoonsOK ssq j1 j2 Mn) {d N a a' : ℤ} {k : ℕ} (h : At Q Mn m1 m2 j1 j2 d N a k)
    (h' : At Q Mn m1 m2 j1 j2 (d + 1) (N + 1) a' 0) (z24 : zOf Q N 24 = d + 1) (hsame : a + k = a') :
    nmOf Mn a (leapFn (zOf Q N) (hOf Mn a)) k = nmOf Mn a' (leapFn (zOf Q (N + 1)) (hOf Mn a')) 0 ∧
      ¬ (leapFn (zOf Q N) (hOf Mn a) ≠ 0 ∧ leapFn (zOf Q N) (hOf Mn a) = k) := by
  have hj := h.ja
  have hj' := h'.ja
  have hk := h.kk
  have i' := h'.inm
  unfold InMonth hOf at i'
  have hrule := leapRule_of hN hM h
  -- in the old count the month is the last one
  have hcast : ∀ x : ℕ, hOf Mn a x = Mn (a + x) := fun x => rfl
  obtain ⟨l, hl⟩ : ∃ l, l = leapFn (zOf Q N) (hOf Mn a) := ⟨_, rfl⟩
  rw [← hl] at hrule ⊢
  have i1 : Mn (a + k) ≤ d + 1 := by rw [hsame]; simpa using i'.1
  have i2 : d + 1 < Mn (a + k + 1) := by rw [hsame]; simpa using i'.2
  have hk12 : numOf l k = 12 ∧ l ≠ k := by
    rcases hrule with ⟨r1, r2⟩ | ⟨r1, r2, r3, -⟩
    · unfold InMonth at r1
      rw [z24, hcast, hcast] at r1
      have : a + 12 = a + k := month_unique hM (d := d + 1) ⟨by omega, by omega⟩ ⟨by omega, by omega⟩ r1.1 (by have := r1.2; push_cast at this; rwa [add_assoc]) i1 i2
      have : k = 12 := by omega
      subst this
      unfold numOf; rw [if_pos r2]; omega
    · unfold InMonth at r1
      rw [z24, hcast, hcast] at r1
      have : a + 13 = a + k := month_unique hM (d := d + 1) ⟨by omega, by omega⟩ ⟨by omega, by omega⟩ r1.1 (by have := r1.2; push_cast at this; rwa [add_assoc]) i1 i2
      have : k = 13 := by omega
      subst this
      unfold numOf; rw [if_neg (by omega), if_neg (by omega)]; omega
  have hnum0 : ∀ l', numOf l' 0 = 0 := by intro l'; unfold numOf; split_ifs <;> omega
  refine ⟨?_, fun hh => hk12.2 hh.2⟩
  unfold nmOf
  rw [hnum0, hk12.1, nameRule_12, hsame]
  simp

/-- the ordinary naming -/
theorem ordinary_naming (hT : TermsOK ssq m1 m2 Q) (hN : TermsNear Q m1 m2) (hM : MoonsOK ssq j1 j2 Mn) :
    Naming ssq m1 m2 j1 j2 Q Mn Ordinary (fun N a => leapFn (zOf Q N) (hOf Mn a)) (fun N a => nmOf Mn a (leapFn (zOf Q N) (hOf Mn a))) := by
  refine ⟨?_, ?_⟩
  · intro d N a k hP h hmo W hW
    obtain ⟨t, t1, t2, -⟩ := tables_of hT hN hM h hmo W hW (ordinary_year hT h hP)
    exact ⟨t, t1, t2⟩
  · intro d N a a' k _ _ h h' z24 hsame
    exact ordinary_joins hN hM h h' z24 hsame

/-- on the first day of a sheet the fields of the day before are not used -/
theorem dayFields_first (t : Tables) (d : ℤ) (p : MonthInfo) : dayFields t d d none = dayFields t d d (some p) := by
  unfold dayFields
  simp only [or_true, if_true]

/-- one day -/
theorem day_ok {lo hi : ℤ} (hr : Range Q Mn m1 m2 j1 j2 lo hi) (hT : TermsOK ssq m1 m2 Q) (hN : TermsNear Q m1 m2) (hM : MoonsOK ssq j1 j2 Mn)
    (rule : ℤ → ℤ → ℕ → (ℕ → String) → Prop) (d Bd0 : ℤ) (h1 : lo ≤ d) (h2 : d ≤ hi + 31) {N a : ℤ} {k : ℕ} (h : At Q Mn m1 m2 j1 j2 d N a k) (t : Tables) (l : ℕ) (nm : ℕ → String)
    (ht : YearTables t (zOf Q N) (hOf Mn a) l nm) (hrule : rule N a l nm) (prev : MonthInfo)
    (hprev : d ≠ Bd0 → d ≠ hOf Mn a k → MonthOK Mn a l nm k prev) :
    ∃ o, dayFields t Bd0 d (some prev) = some o ∧ RecordOK Q Mn rule d o ∧ MonthOK Mn a l nm k o.month := by
  have hc := consistent_of hN hM h
  have hnr := near_of hN h.inR
  have hanc := anchored_of hT h.inR
  have hb := hr.big
  have hj := h.ja
  have hym : ∀ i, i < 14 → t.ym[i]? = some (nm i) := by
    intro i hi
    rw [ht.ym, List.getElem?_map, List.getElem?_range hi]; rfl
  obtain ⟨D, hD, hSD⟩ := springFrom_general t (nm) (hOf Mn a) l hym ht.hs ht.leap d 14 0 (hOf Mn a 2) rfl (fun i hi => absurd hi (by omega)) (Or.inr ⟨fun i hi => absurd hi (by omega), rfl⟩)
  have hyr := h.year
  have hlen : Q (24 * (N + 1)) - Q (24 * N) ≤ 373 := by
    have b := abs_le.mp (hnr.near 24 (by omega))
    have : ((zOf Q N 24 - zOf Q N 0 : ℤ) : ℚ) ≤ 373 := by push_cast at b ⊢; linarith [b.2]
    have : zOf Q N 24 - zOf Q N 0 ≤ 373 := by exact_mod_cast this
    unfold zOf at this
    rw [show 24 * N + ((24 : ℕ) : ℤ) = 24 * (N + 1) by push_cast; ring, show 24 * N + ((0 : ℕ) : ℤ) = 24 * N by simp] at this
    exact this
  have hfirst := hc.first
  have hz0 : zOf Q N 0 = Q (24 * N) := by unfold zOf; simp
  have hz24 : zOf Q N 24 = Q (24 * (N + 1)) := by unfold zOf; congr 1; push_cast; ring
  have hDb : |D + 5810| ≤ 10000000 := by
    have hm : ∀ i, i < 14 → -3600000 ≤ hOf Mn a i ∧ hOf Mn a i ≤ 3600000 := by
      intro i hi
      have m := hc.hmono (show 0 ≤ i by omega) (by omega)
      push_cast at m
      have m1 := hc.hmono (show 0 ≤ 1 by omega) (by omega)
      push_cast at m1
      rw [hz0] at hfirst
      omega
    rw [abs_le]
    rcases hSD with ⟨i, i1, -, -, -, i2⟩ | ⟨-, ⟨i, i1, -, -, i2⟩ | ⟨-, i2⟩⟩
    · have := hm i i1; omega
    · have := hm i i1; omega
    · have := hm 2 (by omega); omega
  obtain ⟨Y, hY, hYb, hY2⟩ := yearRound_total (D + 5810) hDb
  have hYlo : -12000 ≤ Y := by
    have hDlo : -3610000 ≤ D := by
      have hm : ∀ i, i < 14 → -3600000 ≤ hOf Mn a i := by
        intro i hi
        have m := hc.hmono (show 0 ≤ i by omega) (by omega)
        have m1 := hc.hmono (show 0 ≤ 1 by omega) (by omega)
        push_cast at m m1
        rw [hz0] at hfirst
        omega
      rcases hSD with ⟨i, i1, -, -, -, i2⟩ | ⟨-, ⟨i, i1, -, -, i2⟩ | ⟨-, i2⟩⟩
      · have := hm i i1; omega
      · have := hm i i1; omega
      · have := hm 2 (by omega); omega
    have hDq : (-3610000 : ℚ) ≤ D := by exact_mod_cast hDlo
    have b := abs_le.mp hYb
    push_cast at b
    have : (-12000 : ℚ) ≤ Y := by linarith [b.2]
    exact_mod_cast this
  have es : yearSpring t d = some Y := by
    unfold yearSpring
    rw [ht.hs, tab_get 15 _ 2 (by omega)]
    refine bind_ok rfl ?_
    refine bind_ok hD ?_
    exact hY
  have hN10 : |N| ≤ 10000 := by
    have q1 := abs_le.mp (hT (24 * N) (by have := h.inR.bounds; omega) (by have := h.inR.bounds; omega)).1
    unfold meanTerm at q1
    push_cast at q1
    have e1 : (-3501000 : ℚ) ≤ Q (24 * N) := by exact_mod_cast (by omega : -3501000 ≤ Q (24 * N))
    have e2 : ((Q (24 * N) : ℤ) : ℚ) ≤ 3501000 := by exact_mod_cast (by omega : Q (24 * N) ≤ 3501000)
    have n1 : (-10000 : ℚ) ≤ N := by linarith [q1.1, q1.2]
    have n2 : (N : ℚ) ≤ 10000 := by linarith [q1.1, q1.2]
    rw [abs_le]
    exact ⟨by exact_mod_cast n1, by exact_mod_cast n2⟩
  obtain ⟨o, ho, hspec⟩ := c20_day t (zOf Q N) (hOf Mn a) l (nm) ht hc hnr N hN10 hanc d Bd0 (by rw [hz0]; exact hyr.1) (by rw [hz24]; exact hyr.2) prev Y es hYlo
  have hmonth : MonthOK Mn a l nm k o.month := by
    obtain ⟨k', k1, k2, -, -, -, k6⟩ := hspec.month
    have hkk : k' = k := by
      have i := h.inm
      have hk := h.kk
      unfold InMonth hOf at k2 i
      have := month_unique hM (i := a + k') (j := a + k) (d := d) ⟨by omega, by omega⟩ ⟨by omega, by omega⟩ k2.1 (by have := k2.2; push_cast at this; rwa [add_assoc]) i.1 (by have := i.2; push_cast at this; rwa [add_assoc])
      omega
    subst hkk
    rw [k6]
    by_cases hh : d = hOf Mn a k' ∨ decide (d = Bd0) = true
    · rw [if_pos hh]
      refine ⟨rfl, ?_, rfl, ?_⟩
      · show hOf Mn a (k' + 1) - hOf Mn a k' = _
        unfold hOf; push_cast; rw [add_assoc]
      · intro _ h13
        show (if k' < 13 then _ else _) = _
        rw [if_pos h13]
    · rw [if_neg hh]
      rw [not_or] at hh
      exact hprev (by simpa using hh.2) hh.1
  refine ⟨o, ho, ⟨N, a, l, nm, k, Y, D, h.year, h.first, hrule, h.kk, h.inm, hmonth.name, hmonth.len, hmonth.leap, hmonth.next, hSD, ?_, _, _, hspec⟩, hmonth⟩
  have := hYb
  push_cast at this
  exact this

theorem sheet_loop {lo hi : ℤ} (hr : Range Q Mn m1 m2 j1 j2 lo hi) (hT : TermsOK ssq m1 m2 Q) (hN : TermsNear Q m1 m2) (hM : MoonsOK ssq j1 j2 Mn)
    {P : ℤ → Prop} {L : ℤ → ℤ → ℕ} {NM : ℤ → ℤ → ℕ → String} (hnm : Naming ssq m1 m2 j1 j2 Q Mn P L NM)
    (rule : ℤ → ℤ → ℕ → (ℕ → String) → Prop) (hrule : ∀ {d N a : ℤ} {k : ℕ}, P d → At Q Mn m1 m2 j1 j2 d N a k → rule N a (L N a) (NM N a)) (Bd0 : ℤ) :
    ∀ (n : ℕ) (d : ℤ) (prev : Option MonthInfo) (t : Tables), CacheOK ssq m1 m2 t → lo ≤ d → d + n ≤ hi + 32 → (∀ i : ℕ, i < n → P (d + i)) →
      (d = Bd0 ∨ ∃ p N a k, prev = some p ∧ P (d - 1) ∧ At Q Mn m1 m2 j1 j2 (d - 1) N a k ∧ MonthOK Mn a (L N a) (NM N a) k p) →
      ∃ days t', sheetLoop ssq Bd0 n d prev t = some (days, t') ∧ days.length = n ∧ ∀ i : ℕ, i < n → ∃ o, days[i]? = some o ∧ RecordOK Q Mn rule (d + i) o := by
  intro n
  induction n with
  | zero =>
    intro d prev t _ _ _ _ _
    exact ⟨[], t, rfl, rfl, fun i hi => absurd hi (by omega)⟩
  | succ n ih =>
    intro d prev t ht h1 h2 hord hprev
    push_cast at h2
    have hb := hr.big
    have hd0 : P d := by simpa using hord 0 (by omega)
    obtain ⟨N, a, k, W, hat, hW, hWs, hmo⟩ := day_tables hr hT hN hM d h1 (by omega)
    obtain ⟨t1, y1, y2⟩ := hnm.tables hd0 hat hmo W hW
    have hdR : DayR m1 m2 d := dayR_of (by omega) (by omega) hr.terms.1 hr.terms.2 h1 (by omega)
    have hens : ensure ssq t d = some t1 := by
      rw [ensure_eq ssq m1 m2 Q hT t ht d hdR]
      unfold calcY
      exact bind_ok hWs y1
    have ht1 : CacheOK ssq m1 m2 t1 := ensure_ok ssq m1 m2 Q hT t t1 ht d hdR hens
    have hex : ∃ p, dayFields t1 Bd0 d prev = dayFields t1 Bd0 d (some p) ∧ (d ≠ Bd0 → d ≠ hOf Mn a k → MonthOK Mn a (L N a) (NM N a) k p) := by
      rcases hprev with rfl | ⟨p, N0, a0, k0, e0, e1, e2, e3⟩
      · cases prev with
        | none => exact ⟨⟨"", 0, false, ""⟩, dayFields_first _ _ _, fun hh => absurd rfl hh⟩
        | some p => exact ⟨p, rfl, fun hh => absurd rfl hh⟩
      · subst e0
        refine ⟨p, rfl, fun _ hne => ?_⟩
        have hd1 : d - 1 + 1 = d := by ring
        exact month_carry hnm hM hT e1 (by rw [hd1]; exact hd0) e2 (by rw [hd1]; exact hat) (by rw [hd1]; exact hne) p e3
    obtain ⟨p, hp1, hp2⟩ := hex
    obtain ⟨o, o1, o2, o3⟩ := day_ok hr hT hN hM rule d Bd0 h1 (by omega) hat t1 (L N a) (NM N a) y2 (hrule hd0 hat) p hp2
    obtain ⟨days, t', d1, d2, d3⟩ := ih (d + 1) (some o.month) t1 ht1 (by omega) (by omega)
      (by
        intro i hi
        have := hord (i + 1) (by omega)
        rwa [show d + 1 + (i : ℤ) = d + ((i + 1 : ℕ) : ℤ) by push_cast; ring])
      (Or.inr ⟨o.month, N, a, k, rfl, by rw [show d + 1 - 1 = d by ring]; exact hd0, by rw [show d + 1 - 1 = d by ring]; exact hat, o3⟩)
    refine ⟨o :: days, t', ?_, by simp [d2], ?_⟩
    · unfold sheetLoop
      refine bind_ok hens ?_
      refine bind_ok (hp1.trans o1) ?_
      refine bind_ok d1 ?_
      rfl
    · intro i hi
      cases i with
      | zero => exact ⟨o, rfl, by simpa using o2⟩
      | succ i =>
        obtain ⟨o', e1, e2⟩ := d3 i (by omega)
        refine ⟨o', by simpa using e1, ?_⟩
        rwa [show d + ((i + 1 : ℕ) : ℤ) = d + 1 + (i : ℤ) by push_cast; ring]

/-- C18–C21: after any history of month sheets and year texts, every month sheet is defined and every day of it has the record it must
have: the month of the solstice year with its name by the leap month rule, its length and leap mark, the day of the month, the solar term,
the year, month and day names, and the zodiac sign. -/
theorem c21_sheet {lo hi : ℤ} (hr : Range Q Mn m1 m2 j1 j2 lo hi) (hT : TermsOK ssq m1 m2 Q) (hN : TermsNear Q m1 m2) (hM : MoonsOK ssq j1 j2 Mn)
    (t : Tables) (ht : Reachable ssq lo hi t) (Bd0 : ℤ) (hB : lo ≤ Bd0 ∧ Bd0 ≤ hi) (n : ℕ) (hn : n ≤ 31) (hord : ∀ i : ℕ, i < n → Ordinary (Bd0 + i)) :
    ∃ days t', lunarSheet ssq t Bd0 n = some (days, t') ∧ days.length = n ∧
      ∀ i : ℕ, i < n → ∃ o, days[i]? = some o ∧ RecordOK Q Mn (OrdinaryRule Q Mn) (Bd0 + i) o := by
  have hb := hr.big
  exact sheet_loop hr hT hN hM (ordinary_naming hT hN hM) _ (fun _ h => ⟨leapRule_of hN hM h, rfl⟩) Bd0 n Bd0 none t
    (reachable_ok ssq m1 m2 lo hi Q (by omega) (by omega) hr.terms.1 hr.terms.2 hT t ht) hB.1 (by omega) hord (Or.inl rfl)

end

end Verif.Lunar
