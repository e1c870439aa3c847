import Verif.Props.LunarSheet

/-!
# Properties C18–C21 for the years 720–104 BC

The months of these years are not named by the leap-month rule: they are counted from the first month of a calendar year whose
start is estimated by a formula.
-/

namespace Verif.Lunar
open Verif.Fp Verif.GanZhi

theorem c295_tight : |rnd (295306/10000) - 295306/10000| ≤ 1/1000000000000 := by decide +kernel
theorem r342 : |rnd (342/1000) - 342/1000| ≤ 1/1000000000000 := by decide +kernel
theorem r500 : |rnd (500/1000) - 500/1000| ≤ 1/1000000000000 := by decide +kernel
theorem r866 : |rnd (866/1000) - 866/1000| ≤ 1/1000000000000 := by decide +kernel
theorem r12368 : |rnd (12368422/1000000) - 12368422/1000000| ≤ 1/100000000000000 := by decide +kernel
theorem r12369 : |rnd (12369/1000) - 12369/1000| ≤ 1/100000000000000 := by decide +kernel

theorem nohit1 : ∀ n, n < 620 → (342000 + 12368422 * n) % 1000000 ≠ 0 := by decide +kernel
theorem nohit2 : ∀ n, n < 620 → (500000 + 12368422 * n) % 1000000 ≠ 0 := by decide +kernel
theorem nohit3 : ∀ n, n < 620 → (866000 + 12369000 * n) % 1000000 ≠ 0 := by decide +kernel

/-- the double computation of the month count is exact -/
theorem count_floor (c r : ℚ) (C R : ℕ) (hc : c = C / 1000000) (hr : r = R / 1000000) (hC : C < 1000000) (hR : R < 20000000) (e1 : |rnd c - c| ≤ 1/1000000000000)
    (e2 : |rnd r - r| ≤ 1/100000000000000) (n : ℕ) (hn : n < 620) (hh : (C + R * n) % 1000000 ≠ 0) (z : ℤ) (hz : z = n) :
    int2 (rnd c ⊞ ((z : ℤ) : ℚ) ⊠ rnd r) = some ⌊c + r * n⌋ := by
  subst hz
  have hnq : (n : ℚ) ≤ 620 := by exact_mod_cast hn.le
  have hn0 : (0 : ℚ) ≤ n := by positivity
  have hCq : (C : ℚ) < 1000000 := by exact_mod_cast hC
  have hRq : (R : ℚ) < 20000000 := by exact_mod_cast hR
  have hC0 : (0 : ℚ) ≤ C := by positivity
  have hR0 : (0 : ℚ) ≤ R := by positivity
  have f1 := abs_le.mp e1
  have f2 := abs_le.mp e2
  have hcb : 0 ≤ c ∧ c ≤ 1 := by rw [hc]; constructor <;> [positivity; linarith]
  have hrb : 0 ≤ r ∧ r ≤ 20 := by rw [hr]; constructor <;> [positivity; linarith]
  have p0 : |(n : ℚ) * (rnd r - r)| ≤ 620 * (1/100000000000000) := by
    rw [abs_mul, abs_of_nonneg hn0]
    exact mul_le_mul hnq e2 (abs_nonneg _) (by norm_num)
  have p0' := abs_le.mp p0
  have rn0 : 0 ≤ r * n := mul_nonneg hrb.1 hn0
  have rn1 : r * n ≤ 20 * 620 := mul_le_mul hrb.2 hnq hn0 (by norm_num)
  have p1 := abs_le.mp (rnd_err1 (show |(n : ℚ) * rnd r| ≤ 13000 by rw [abs_le]; constructor <;> linarith) (by norm_num))
  have p2 := abs_le.mp (rnd_err1 (show |rnd c + rnd ((n : ℚ) * rnd r)| ≤ 14000 by rw [abs_le]; constructor <;> linarith) (by norm_num))
  have key : |rnd (rnd c + rnd ((n : ℚ) * rnd r)) - (c + r * n)| ≤ 1/100000000 := by
    rw [abs_le]; constructor <;> linarith
  have key' := abs_le.mp key
  -- distance of the exact value from the integers
  obtain ⟨k, hk⟩ : ∃ k : ℕ, k = (C + R * n) / 1000000 := ⟨_, rfl⟩
  obtain ⟨m, hm⟩ : ∃ m : ℕ, m = (C + R * n) % 1000000 := ⟨_, rfl⟩
  have hkm : C + R * n = 1000000 * k + m := by rw [hk, hm]; exact (Nat.div_add_mod _ _).symm
  have hm1 : 1 ≤ m := by rw [hm]; omega
  have hm2 : m ≤ 999999 := by rw [hm]; omega
  have hq : c + r * n = k + m / 1000000 := by
    have : ((C + R * n : ℕ) : ℚ) = ((1000000 * k + m : ℕ) : ℚ) := by rw [hkm]
    push_cast at this
    rw [hc, hr]
    linarith
  have m1 : (1 : ℚ) ≤ m := by exact_mod_cast hm1
  have m2 : (m : ℚ) ≤ 999999 := by exact_mod_cast hm2
  have w1 : ⌊c + r * n⌋ = (k : ℤ) := by
    rw [Int.floor_eq_iff, hq]; push_cast; constructor <;> linarith
  have w2 : ⌊rnd (rnd c + rnd ((n : ℚ) * rnd r))⌋ = (k : ℤ) := by
    rw [Int.floor_eq_iff]; push_cast; rw [hq] at key'; constructor <;> linarith
  have hk2 : (k : ℤ) ≤ 13000 := by
    have : (k : ℚ) ≤ 13000 := by linarith
    exact_mod_cast this
  unfold int2 fadd fmul
  simp only [Int.cast_natCast]
  rw [w2, w1]
  unfold i32
  rw [if_pos (by constructor <;> omega)]

/-- the estimated day in doubles -/
theorem est_near (b k : ℤ) (hb : |b| ≤ 1000000) (hk : |k| ≤ 20000) : |(((b : ℤ) : ℚ) ⊞ (k : ℚ) ⊠ rnd (295306/10000)) - ((b : ℚ) + 295306/10000 * k)| ≤ 1/100 := by
  have hbq : |(b : ℚ)| ≤ 1000000 := by exact_mod_cast hb
  have hkq : |(k : ℚ)| ≤ 20000 := by exact_mod_cast hk
  have hb' := abs_le.mp hbq
  have hk' := abs_le.mp hkq
  have p0 : |(k : ℚ) * (rnd (295306/10000) - 295306/10000)| ≤ 20000 * (1/1000000000000) := by
    rw [abs_mul]; exact mul_le_mul hkq c295_tight (abs_nonneg _) (by norm_num)
  have p0' := abs_le.mp p0
  have p1 := abs_le.mp (rnd_err1 (show |(k : ℚ) * rnd (295306/10000)| ≤ 700000 by rw [abs_le]; constructor <;> linarith) (by norm_num))
  have p2 := abs_le.mp (rnd_err1 (show |(b : ℚ) + rnd ((k : ℚ) * rnd (295306/10000))| ≤ 2000000 by rw [abs_le]; constructor <;> linarith) (by norm_num))
  unfold fadd fmul
  rw [abs_le]; constructor <;> linarith

/-! ## estimated starts -/

theorem start_cases (yy : ℤ) : (-220 ≤ yy ∧ ∃ k : ℤ, k = ⌊866/1000 + 12369/1000 * (yy + 220 : ℚ)⌋ ∧ (k : ℚ) ≤ 866/1000 + 12369/1000 * (yy + 220) ∧ 866/1000 + 12369/1000 * (yy + 220 : ℚ) < k + 1 ∧
      ancientStart yy = 1640641 - 2451545 + 295306/10000 * k) ∨
    (-479 ≤ yy ∧ yy < -220 ∧ ∃ k : ℤ, k = ⌊500/1000 + 12368422/1000000 * (yy + 479 : ℚ)⌋ ∧ (k : ℚ) ≤ 500/1000 + 12368422/1000000 * (yy + 479) ∧ 500/1000 + 12368422/1000000 * (yy + 479 : ℚ) < k + 1 ∧
      ancientStart yy = 1546083 - 2451545 + 295306/10000 * k) ∨
    (yy < -479 ∧ ∃ k : ℤ, k = ⌊342/1000 + 12368422/1000000 * (yy + 721 : ℚ)⌋ ∧ (k : ℚ) ≤ 342/1000 + 12368422/1000000 * (yy + 721) ∧ 342/1000 + 12368422/1000000 * (yy + 721 : ℚ) < k + 1 ∧
      ancientStart yy = 1457698 - 2451545 + 295306/10000 * k) := by
  unfold ancientStart
  by_cases h1 : -220 ≤ yy
  · exact Or.inl ⟨h1, _, rfl, Int.floor_le _, Int.lt_floor_add_one _, by rw [if_pos h1]⟩
  · by_cases h2 : -479 ≤ yy
    · exact Or.inr (Or.inl ⟨h2, by omega, _, rfl, Int.floor_le _, Int.lt_floor_add_one _, by rw [if_neg h1, if_pos h2]⟩)
    · exact Or.inr (Or.inr ⟨by omega, _, rfl, Int.floor_le _, Int.lt_floor_add_one _, by rw [if_neg h1, if_neg h2]⟩)

/-- the start of a year lies near the winter solstice of the year before -/
theorem start_mean (yy : ℤ) (h1 : -721 ≤ yy) (h2 : yy ≤ -103) :
    meanTerm (24 * (yy - 2001)) - 90 ≤ ancientStart yy ∧ ancientStart yy ≤ meanTerm (24 * (yy - 2001)) + 50 := by
  have a1 : (-721 : ℚ) ≤ yy := by exact_mod_cast h1
  have a2 : (yy : ℚ) ≤ -103 := by exact_mod_cast h2
  unfold meanTerm
  push_cast
  rcases start_cases yy with ⟨c1, k, -, k1, k2, e⟩ | ⟨c1, c2, k, -, k1, k2, e⟩ | ⟨c1, k, -, k1, k2, e⟩
  · have b1 : (-220 : ℚ) ≤ yy := by exact_mod_cast c1
    rw [e]; constructor <;> linarith
  · have b1 : (-479 : ℚ) ≤ yy := by exact_mod_cast c1
    have b2 : (yy : ℚ) ≤ -221 := by exact_mod_cast (by omega : yy ≤ -221)
    rw [e]; constructor <;> linarith
  · have b2 : (yy : ℚ) ≤ -480 := by exact_mod_cast (by omega : yy ≤ -480)
    rw [e]; constructor <;> linarith

theorem start_step (yy : ℤ) (h1 : -721 ≤ yy) (h2 : yy < -103) :
    ancientStart yy + 300 ≤ ancientStart (yy + 1) ∧ ancientStart (yy + 1) ≤ ancientStart yy + 400 := by
  have a1 : (-721 : ℚ) ≤ yy := by exact_mod_cast h1
  by_cases hA : -220 ≤ yy
  · rcases start_cases yy with ⟨c1, k, -, k1, k2, e⟩ | ⟨c1, c2, k, -, k1, k2, e⟩ | ⟨c1, k, -, k1, k2, e⟩ <;> try omega
    rcases start_cases (yy + 1) with ⟨c1', k', -, k1', k2', e'⟩ | ⟨c1', c2', k', -, k1', k2', e'⟩ | ⟨c1', k', -, k1', k2', e'⟩ <;> try omega
    push_cast at k1' k2'
    rw [e, e']; constructor <;> linarith
  by_cases hB : yy = -221
  · subst hB; unfold ancientStart; norm_num
  by_cases hC : -479 ≤ yy
  · rcases start_cases yy with ⟨c1, k, -, k1, k2, e⟩ | ⟨c1, c2, k, -, k1, k2, e⟩ | ⟨c1, k, -, k1, k2, e⟩ <;> try omega
    rcases start_cases (yy + 1) with ⟨c1', k', -, k1', k2', e'⟩ | ⟨c1', c2', k', -, k1', k2', e'⟩ | ⟨c1', k', -, k1', k2', e'⟩ <;> try omega
    push_cast at k1' k2'
    rw [e, e']; constructor <;> linarith
  by_cases hD : yy = -480
  · subst hD; unfold ancientStart; norm_num
  · rcases start_cases yy with ⟨c1, k, -, k1, k2, e⟩ | ⟨c1, c2, k, -, k1, k2, e⟩ | ⟨c1, k, -, k1, k2, e⟩ <;> try omega
    rcases start_cases (yy + 1) with ⟨c1', k', -, k1', k2', e'⟩ | ⟨c1', c2', k', -, k1', k2', e'⟩ | ⟨c1', k', -, k1', k2', e'⟩ <;> try omega
    push_cast at k1' k2'
    rw [e, e']; constructor <;> linarith

/-! ## the program's start of one year -/

/-- one step of the loop over the three years -/
def yearBody (ssq : Calc) (yy : ℤ) : Option (ℤ × ℕ × ℕ) := do
    let r ← (if yy ≥ -721 then do
        let k ← int2 (rnd (342/1000) ⊞ ((yy + 721 : ℤ) : ℚ) ⊠ rnd (12368422/1000000))
        pure ((← ssq ((1457698 - 2451545 : ℤ) ⊞ (k : ℚ) ⊠ rnd (295306/10000)) false), 0, 2) else pure (0, 0, 0))
    let r ← (if yy ≥ -479 then do
        let k ← int2 (rnd (500/1000) ⊞ ((yy + 479 : ℤ) : ℚ) ⊠ rnd (12368422/1000000))
        pure ((← ssq ((1546083 - 2451545 : ℤ) ⊞ (k : ℚ) ⊠ rnd (295306/10000)) false), 0, 2) else pure r)
    (if yy ≥ -220 then do
        let k ← int2 (rnd (866/1000) ⊞ ((yy + 220 : ℤ) : ℚ) ⊠ rnd (12369/1000))
        pure ((← ssq ((1640641 - 2451545 : ℤ) ⊞ (k : ℚ) ⊠ rnd (295306/10000)) false), 1, 11) else pure r)

theorem ancientYears_body (ssq : Calc) (YY : ℤ) : ancientYears ssq YY = (List.range 3).mapM (fun (i : ℕ) => yearBody ssq (YY + i - 1)) := rfl

section
variable {ssq : Calc} {m1 m2 j1 j2 : ℤ} {Q Mn : ℤ → ℤ} {s : ℤ → ℤ} {y0 : ℤ}

theorem Starts.mean_le (hs : Starts Q Mn j1 j2 y0 s) {yy : ℤ} (h1 : y0 ≤ yy) (h2 : yy ≤ -103) : ancientStart y0 ≤ ancientStart yy ∧ ancientStart yy ≤ ancientStart (-103) := by
  have hl := hs.low
  have up : ∀ n : ℕ, ∀ a : ℤ, -721 ≤ a → a + n ≤ -103 → ancientStart a ≤ ancientStart (a + n) := by
    intro n
    induction n with
    | zero => intro a _ _; simp
    | succ n ih =>
      intro a ha hn
      push_cast at hn
      have i1 := ih a ha (by omega)
      have i2 := (start_step (a + n) (by omega) (by omega)).1
      have : a + ((n + 1 : ℕ) : ℤ) = a + n + 1 := by push_cast; ring
      rw [this]; linarith
  obtain ⟨n, hn⟩ := Int.le.dest h1
  obtain ⟨n', hn'⟩ := Int.le.dest h2
  constructor
  · have := up n y0 hl.1 (by omega)
    rwa [hn] at this
  · have := up n' yy (by omega) (by omega)
    rwa [hn'] at this

theorem start_call (hM : MoonsOK ssq j1 j2 Mn) (hs : Starts Q Mn j1 j2 y0 s) {yy : ℤ} (h1 : y0 ≤ yy) (h2 : yy ≤ -103) (x : ℚ) (hx : |x - ancientStart yy| ≤ 1/100) :
    ssq x false = some (Mn (s yy)) := by
  obtain ⟨n1, n2, n3⟩ := hs.near yy h1 h2
  refine hM.here (s yy) n1 n2 x ?_
  have a := abs_le.mp n3
  have b := abs_le.mp hx
  rw [abs_le]; constructor <;> linarith

theorem old_call (hM : MoonsOK ssq j1 j2 Mn) (hs : Starts Q Mn j1 j2 y0 s) {yy : ℤ} (h1 : y0 ≤ yy) (h2 : yy ≤ -103) (x : ℚ) (hx : |x - ancientStart yy| ≤ 90) :
    ∃ j, ssq x false = some j := by
  have r := hs.room
  have m := hs.mean_le h1 h2
  have b := abs_le.mp hx
  obtain ⟨j, -, -, e, -⟩ := hM.some x (by linarith) (by linarith)
  exact ⟨_, e⟩

theorem pred1 (yy : ℤ) (h1 : -721 ≤ yy) (h2 : yy ≤ -103) : ∃ k : ℤ, int2 (rnd (342/1000) ⊞ ((yy + 721 : ℤ) : ℚ) ⊠ rnd (12368422/1000000)) = some k ∧
    k = ⌊342/1000 + 12368422/1000000 * (yy + 721 : ℚ)⌋ := by
  obtain ⟨n, hn⟩ := Int.eq_ofNat_of_zero_le (show 0 ≤ yy + 721 by omega)
  refine ⟨_, count_floor (342/1000) (12368422/1000000) 342000 12368422 (by norm_num) (by norm_num) (by norm_num) (by norm_num) r342 r12368 n (by omega) (nohit1 n (by omega)) _ hn, ?_⟩
  congr 3
  have : ((yy + 721 : ℤ) : ℚ) = n := by rw [hn]; simp
  push_cast at this; exact this.symm

theorem pred2 (yy : ℤ) (h1 : -479 ≤ yy) (h2 : yy ≤ -103) : ∃ k : ℤ, int2 (rnd (500/1000) ⊞ ((yy + 479 : ℤ) : ℚ) ⊠ rnd (12368422/1000000)) = some k ∧
    k = ⌊500/1000 + 12368422/1000000 * (yy + 479 : ℚ)⌋ := by
  obtain ⟨n, hn⟩ := Int.eq_ofNat_of_zero_le (show 0 ≤ yy + 479 by omega)
  refine ⟨_, count_floor (500/1000) (12368422/1000000) 500000 12368422 (by norm_num) (by norm_num) (by norm_num) (by norm_num) r500 r12368 n (by omega) (nohit2 n (by omega)) _ hn, ?_⟩
  congr 3
  have : ((yy + 479 : ℤ) : ℚ) = n := by rw [hn]; simp
  push_cast at this; exact this.symm

theorem pred3 (yy : ℤ) (h1 : -220 ≤ yy) (h2 : yy ≤ -103) : ∃ k : ℤ, int2 (rnd (866/1000) ⊞ ((yy + 220 : ℤ) : ℚ) ⊠ rnd (12369/1000)) = some k ∧
    k = ⌊866/1000 + 12369/1000 * (yy + 220 : ℚ)⌋ := by
  obtain ⟨n, hn⟩ := Int.eq_ofNat_of_zero_le (show 0 ≤ yy + 220 by omega)
  refine ⟨_, count_floor (866/1000) (12369/1000) 866000 12369000 (by norm_num) (by norm_num) (by norm_num) (by norm_num) r866 r12369 n (by omega) (nohit3 n (by omega)) _ hn, ?_⟩
  congr 3
  have : ((yy + 220 : ℤ) : ℚ) = n := by rw [hn]; simp
  push_cast at this; exact this.symm

/-- the entry of year `yy` -/
theorem yearBody_eq (hM : MoonsOK ssq j1 j2 Mn) (hs : Starts Q Mn j1 j2 y0 s) (yy : ℤ) (h1 : y0 ≤ yy) (h2 : yy ≤ -103) :
    yearBody ssq yy = some (Mn (s yy), (if -220 ≤ yy then 1 else 0), (if -220 ≤ yy then 11 else 2)) := by
  have hl := hs.low
  have a1 : (-721 : ℚ) ≤ yy := by exact_mod_cast (by omega : -721 ≤ yy)
  have a2 : (yy : ℚ) ≤ -103 := by exact_mod_cast h2
  obtain ⟨k1, e1, f1⟩ := pred1 yy (by omega) h2
  have g1 := Int.floor_le (342/1000 + 12368422/1000000 * (yy + 721 : ℚ))
  have g1' := Int.lt_floor_add_one (342/1000 + 12368422/1000000 * (yy + 721 : ℚ))
  rw [← f1] at g1 g1'
  have kb1 : |k1| ≤ 20000 := by
    rw [abs_le]
    constructor
    · have : (-20000 : ℚ) ≤ k1 := by linarith
      exact_mod_cast this
    · have : (k1 : ℚ) ≤ 20000 := by linarith
      exact_mod_cast this
  have n1 := est_near (1457698 - 2451545) k1 (by norm_num) kb1
  have n1' := abs_le.mp n1
  unfold yearBody
  by_cases hA : -479 ≤ yy
  · have b1 : (-479 : ℚ) ≤ yy := by exact_mod_cast hA
    obtain ⟨k2, e2, f2⟩ := pred2 yy hA h2
    have g2 := Int.floor_le (500/1000 + 12368422/1000000 * (yy + 479 : ℚ))
    have g2' := Int.lt_floor_add_one (500/1000 + 12368422/1000000 * (yy + 479 : ℚ))
    rw [← f2] at g2 g2'
    have kb2 : |k2| ≤ 20000 := by
      rw [abs_le]
      constructor
      · have : (-20000 : ℚ) ≤ k2 := by linarith
        exact_mod_cast this
      · have : (k2 : ℚ) ≤ 20000 := by linarith
        exact_mod_cast this
    have n2 := est_near (1546083 - 2451545) k2 (by norm_num) kb2
    have n2' := abs_le.mp n2
    by_cases hB : -220 ≤ yy
    · have b2 : (-220 : ℚ) ≤ yy := by exact_mod_cast hB
      obtain ⟨k3, e3, f3⟩ := pred3 yy hB h2
      have g3 := Int.floor_le (866/1000 + 12369/1000 * (yy + 220 : ℚ))
      have g3' := Int.lt_floor_add_one (866/1000 + 12369/1000 * (yy + 220 : ℚ))
      rw [← f3] at g3 g3'
      have kb3 : |k3| ≤ 20000 := by
        rw [abs_le]
        constructor
        · have : (-20000 : ℚ) ≤ k3 := by linarith
          exact_mod_cast this
        · have : (k3 : ℚ) ≤ 20000 := by linarith
          exact_mod_cast this
      have n3 := est_near (1640641 - 2451545) k3 (by norm_num) kb3
      have n3' := abs_le.mp n3
      have est : ancientStart yy = ((1640641 - 2451545 : ℤ) : ℚ) + 295306/10000 * k3 := by
        unfold ancientStart; rw [if_pos hB, ← f3]; push_cast; ring
      obtain ⟨v1, c1⟩ := old_call hM hs h1 h2 (((1457698 - 2451545 : ℤ) : ℚ) ⊞ (k1 : ℚ) ⊠ rnd (295306/10000)) (by
        push_cast at est n1' ⊢; rw [est, abs_le]; constructor <;> linarith)
      obtain ⟨v2, c2⟩ := old_call hM hs h1 h2 (((1546083 - 2451545 : ℤ) : ℚ) ⊞ (k2 : ℚ) ⊠ rnd (295306/10000)) (by
        push_cast at est n2' ⊢; rw [est, abs_le]; constructor <;> linarith)
      have c3 := start_call hM hs h1 h2 (((1640641 - 2451545 : ℤ) : ℚ) ⊞ (k3 : ℚ) ⊠ rnd (295306/10000)) (by rw [est]; exact n3)
      rw [if_pos hB, if_pos hB]
      refine bind_ok (x := (v1, 0, 2)) (by rw [if_pos (show yy ≥ -721 by omega)]; exact bind_ok e1 (bind_ok c1 rfl)) ?_
      refine bind_ok (x := (v2, 0, 2)) (by rw [if_pos (show yy ≥ -479 from hA)]; exact bind_ok e2 (bind_ok c2 rfl)) ?_
      rw [if_pos (show yy ≥ -220 from hB)]
      exact bind_ok e3 (bind_ok c3 rfl)
    · have est : ancientStart yy = ((1546083 - 2451545 : ℤ) : ℚ) + 295306/10000 * k2 := by
        unfold ancientStart; rw [if_neg hB, if_pos hA, ← f2]; push_cast; ring
      have b2 : (yy : ℚ) ≤ -221 := by exact_mod_cast (by omega : yy ≤ -221)
      obtain ⟨v1, c1⟩ := old_call hM hs h1 h2 (((1457698 - 2451545 : ℤ) : ℚ) ⊞ (k1 : ℚ) ⊠ rnd (295306/10000)) (by
        push_cast at est n1' ⊢; rw [est, abs_le]; constructor <;> linarith)
      have c2 := start_call hM hs h1 h2 (((1546083 - 2451545 : ℤ) : ℚ) ⊞ (k2 : ℚ) ⊠ rnd (295306/10000)) (by rw [est]; exact n2)
      rw [if_neg hB, if_neg hB]
      refine bind_ok (x := (v1, 0, 2)) (by rw [if_pos (show yy ≥ -721 by omega)]; exact bind_ok e1 (bind_ok c1 rfl)) ?_
      refine bind_ok (x := (Mn (s yy), 0, 2)) (by rw [if_pos (show yy ≥ -479 from hA)]; exact bind_ok e2 (bind_ok c2 rfl)) ?_
      rw [if_neg (show ¬ yy ≥ -220 from hB)]; rfl
  · have hB : ¬ -220 ≤ yy := by omega
    have est : ancientStart yy = ((1457698 - 2451545 : ℤ) : ℚ) + 295306/10000 * k1 := by
      unfold ancientStart; rw [if_neg hB, if_neg hA, ← f1]; push_cast; ring
    have c1 := start_call hM hs h1 h2 (((1457698 - 2451545 : ℤ) : ℚ) ⊞ (k1 : ℚ) ⊠ rnd (295306/10000)) (by rw [est]; exact n1)
    rw [if_neg hB, if_neg hB]
    refine bind_ok (x := (Mn (s yy), 0, 2)) (by rw [if_pos (show yy ≥ -721 by omega)]; exact bind_ok e1 (bind_ok c1 rfl)) ?_
    refine bind_ok (x := (Mn (s yy), 0, 2)) (by rw [if_neg (show ¬ yy ≥ -479 from hA)]; rfl) ?_
    rw [if_neg (show ¬ yy ≥ -220 from hB)]; rfl

/-- the table of the three years -/
theorem ancientYears_eq (hM : MoonsOK ssq j1 j2 Mn) (hs : Starts Q Mn j1 j2 y0 s) (YY : ℤ) (h1 : y0 ≤ YY - 1) (h2 : YY + 1 ≤ -103) :
    ancientYears ssq YY = some ((List.range 3).map (fun (i : ℕ) => (Mn (s (YY + i - 1)), (if -220 ≤ YY + i - 1 then 1 else 0), (if -220 ≤ YY + i - 1 then 11 else 2)))) := by
  rw [ancientYears_body]
  apply Cal.mapM_some
  intro i hi
  have hi : i < 3 := by simpa using hi
  exact yearBody_eq hM hs _ (by omega) (by omega)

/-! ## the months of the years -/

theorem idx_le (hM : MoonsOK ssq j1 j2 Mn) {i j : ℤ} (hj : j1 ≤ j) (hi : i ≤ j2) (h : Mn i ≤ Mn j) : i ≤ j := by
  by_contra hc
  have := hM.mono hj (show j < i by omega) hi
  omega

theorem start_index (hM : MoonsOK ssq j1 j2 Mn) (hs : Starts Q Mn j1 j2 y0 s) {yy : ℤ} (h1 : y0 ≤ yy) (h2 : yy < -103) :
    s yy < s (yy + 1) ∧ s (yy + 1) ≤ s yy + 14 := by
  have hl := hs.low
  obtain ⟨a1, a2, a3⟩ := hs.near yy h1 (by omega)
  obtain ⟨b1, b2, b3⟩ := hs.near (yy + 1) (by omega) (by omega)
  have a3' := abs_le.mp a3
  have b3' := abs_le.mp b3
  obtain ⟨s1, s2⟩ := start_step yy (by omega) h2
  have u1 : ((Mn (s yy) : ℤ) : ℚ) < Mn (s (yy + 1)) := by linarith
  have u2 : ((Mn (s (yy + 1)) : ℤ) : ℚ) ≤ Mn (s yy) + 408 := by linarith
  have u1' : Mn (s yy) < Mn (s (yy + 1)) := by exact_mod_cast u1
  have u2' : Mn (s (yy + 1)) ≤ Mn (s yy) + 408 := by exact_mod_cast u2
  constructor
  · have := idx_le hM b1 a2 u1'.le
    by_contra hc
    have : s yy = s (yy + 1) := by omega
    rw [this] at u1'
    omega
  · by_contra hc
    have m1 := hM.months (s yy) (s yy + 14) a1 (by omega) (by omega) (by omega)
    have m2 := hM.months (s yy + 14) (s yy + 15) (by omega) (by omega) (by omega) (by omega)
    have m3 : Mn (s yy + 15) ≤ Mn (s (yy + 1)) := by
      by_cases he : s yy + 15 = s (yy + 1)
      · rw [he]
      · exact (hM.mono (by omega) (show s yy + 15 < s (yy + 1) by omega) b2).le
    omega

/-- the place of a month in its year -/
theorem place_eq (hM : MoonsOK ssq j1 j2 Mn) {i : ℤ} (m : ℕ) (hm : m ≤ 14) (h1 : j1 ≤ i) (h2 : i + m ≤ j2) :
    int2 (((Mn (i + m) - Mn i + 15 : ℤ) : ℚ) ⊘ rnd (295306/10000)) = some (m : ℤ) := by
  have hn := abs_le.mp (hM.near i (i + m) h1 (by omega) h2 (by omega))
  have hc := abs_le.mp c295_tight
  rw [show i + (m : ℤ) - i = m by ring] at hn
  push_cast at hn
  obtain ⟨c, hcd⟩ : ∃ c, c = rnd (295306/10000) := ⟨_, rfl⟩
  rw [← hcd] at hc ⊢
  have c0 : 0 < c := by linarith
  have mq : (m : ℚ) ≤ 14 := by exact_mod_cast hm
  have m0 : (0 : ℚ) ≤ m := by positivity
  obtain ⟨x, hx⟩ : ∃ x : ℚ, x = ((Mn (i + m) - Mn i + 15 : ℤ) : ℚ) := ⟨_, rfl⟩
  have hx' : x = (Mn (i + m) : ℚ) - Mn i + 15 := by rw [hx]; push_cast; ring
  rw [← hx]
  have pm : |(m : ℚ) * (c - 295306/10000)| ≤ 14 * (1/1000000000000) := by
    rw [abs_mul, abs_of_nonneg m0]
    exact mul_le_mul mq (abs_le.mpr hc) (abs_nonneg _) (by norm_num)
  have pm' := abs_le.mp pm
  have q1 : (m : ℚ) + 1/10 ≤ x / c := by
    rw [le_div_iff₀ c0, hx']; linarith
  have q2 : x / c ≤ (m : ℚ) + 9/10 := by
    rw [div_le_iff₀ c0, hx']; linarith
  have r := abs_le.mp (rnd_err1 (show |x / c| ≤ 20 by rw [abs_le]; constructor <;> linarith) (by norm_num))
  have fl : ⌊rnd (x / c)⌋ = (m : ℤ) := by
    rw [Int.floor_eq_iff]; push_cast; constructor <;> linarith
  unfold int2 fdiv
  rw [fl]
  unfold i32
  rw [if_pos (by constructor <;> omega)]

/-- the name of the month, once its year is found -/
theorem name_after (yy : ℤ) (m : ℕ) (hm : m ≤ 14) :
    (if (m : ℤ) < 12 then cget strYmc (((m : ℤ) + ((if -220 ≤ yy then 11 else 2 : ℕ) : ℤ)).tmod 12) else ["十三", "后九"][(if -220 ≤ yy then 1 else 0 : ℕ)]?) = some (ancientMonth yy m) := by
  unfold ancientMonth
  by_cases h : -220 ≤ yy
  · simp only [if_pos h]
    interval_cases m <;> rfl
  · simp only [if_neg h]
    interval_cases m <;> rfl

/-- the year the program finds for month `b` -/
def pickYear (s : ℤ → ℤ) (YY b : ℤ) : ℤ := if s (YY + 1) ≤ b then YY + 1 else if s YY ≤ b then YY else YY - 1

/-- name of month `b` -/
def ancNm (s : ℤ → ℤ) (YY b : ℤ) : String := ancientMonth (pickYear s YY b) (b - s (pickYear s YY b)).toNat

theorem ancientName_eq (hM : MoonsOK ssq j1 j2 Mn) (hs : Starts Q Mn j1 j2 y0 s) (YY : ℤ) (h1 : y0 ≤ YY - 1) (h2 : YY + 1 ≤ -103) (b : ℤ)
    (hb1 : s (YY - 1) ≤ b) (hb2 : b ≤ s (YY + 1) + 14) (hb3 : b ≤ j2) :
    ancientName ((List.range 3).map (fun (i : ℕ) => (Mn (s (YY + i - 1)), (if -220 ≤ YY + i - 1 then 1 else 0), (if -220 ≤ YY + i - 1 then 11 else 2)))) (Mn b) =
      some (ancNm s YY b) := by
  obtain ⟨a1, a2, -⟩ := hs.near (YY - 1) h1 (by omega)
  obtain ⟨b1, b2, -⟩ := hs.near YY (by omega) (by omega)
  obtain ⟨c1, c2, -⟩ := hs.near (YY + 1) (by omega) (by omega)
  have st1 := start_index hM hs (yy := YY - 1) h1 (by omega)
  have st2 := start_index hM hs (yy := YY) (by omega) (by omega)
  rw [show YY - 1 + 1 = YY by ring] at st1
  have hbj : j1 ≤ b := by omega
  have ge : ∀ yy, j1 ≤ s yy → s yy ≤ j2 → (Mn b ≥ Mn (s yy) ↔ s yy ≤ b) := by
    intro yy g1 g2
    constructor
    · intro h; exact idx_le hM hbj g2 h
    · intro h
      by_cases he : s yy = b
      · rw [he]
      · exact (hM.mono g1 (by omega) hb3).le
  have fin : ∀ yy, j1 ≤ s yy → s yy ≤ b → b ≤ s yy + 14 →
      ((int2 (((Mn b - Mn (s yy) + 15 : ℤ) : ℚ) ⊘ rnd (295306/10000))).bind fun f1 => if f1 < 12 then cget strYmc ((f1 + ((if -220 ≤ yy then 11 else 2 : ℕ) : ℤ)).tmod 12)
        else ["十三", "后九"][(if -220 ≤ yy then 1 else 0 : ℕ)]?) = some (ancientMonth yy (b - s yy).toNat) := by
    intro yy g1 g2 g3
    obtain ⟨m, hm⟩ := Int.le.dest g2
    have hm' : (b - s yy).toNat = m := by omega
    rw [← hm, place_eq hM m (by omega) g1 (by omega), Option.bind_some, hm, hm']
    exact name_after yy m (by omega)
  have hl : (List.range 3).map (fun (i : ℕ) => (Mn (s (YY + i - 1)), (if -220 ≤ YY + i - 1 then 1 else 0 : ℕ), (if -220 ≤ YY + i - 1 then 11 else 2 : ℕ))) =
      [(Mn (s (YY - 1)), (if -220 ≤ YY - 1 then 1 else 0), (if -220 ≤ YY - 1 then 11 else 2)), (Mn (s YY), (if -220 ≤ YY then 1 else 0), (if -220 ≤ YY then 11 else 2)),
       (Mn (s (YY + 1)), (if -220 ≤ YY + 1 then 1 else 0), (if -220 ≤ YY + 1 then 11 else 2))] := by
    have e0 : YY + ((0 : ℕ) : ℤ) - 1 = YY - 1 := by push_cast; ring
    have e1 : YY + ((1 : ℕ) : ℤ) - 1 = YY := by push_cast; ring
    have e2 : YY + ((2 : ℕ) : ℤ) - 1 = YY + 1 := by push_cast; ring
    rw [show List.range 3 = [0, 1, 2] from rfl]
    simp only [List.map_cons, List.map_nil, e0, e1, e2]
  rw [hl]
  unfold ancientName ancNm pickYear
  by_cases p2 : s (YY + 1) ≤ b
  · rw [if_pos p2]
    refine bind_ok (x := (Mn (s (YY + 1)), (if -220 ≤ YY + 1 then 1 else 0), (if -220 ≤ YY + 1 then 11 else 2))) ?_ ?_
    · unfold ancientPick
      simp only [List.reverse_cons, List.reverse_nil, List.nil_append, List.cons_append, List.find?_cons, (ge (YY + 1) c1 c2).mpr p2, decide_true]
    · exact fin (YY + 1) c1 p2 hb2
  rw [if_neg p2]
  have n2 : ¬ Mn b ≥ Mn (s (YY + 1)) := fun h => p2 ((ge _ c1 c2).mp h)
  by_cases p1 : s YY ≤ b
  · rw [if_pos p1]
    refine bind_ok (x := (Mn (s YY), (if -220 ≤ YY then 1 else 0), (if -220 ≤ YY then 11 else 2))) ?_ ?_
    · unfold ancientPick
      simp only [List.reverse_cons, List.reverse_nil, List.nil_append, List.cons_append, List.find?_cons, n2, decide_false, (ge YY b1 b2).mpr p1, decide_true]
    · exact fin YY b1 p1 (by omega)
  rw [if_neg p1]
  have n1 : ¬ Mn b ≥ Mn (s YY) := fun h => p1 ((ge _ b1 b2).mp h)
  refine bind_ok (x := (Mn (s (YY - 1)), (if -220 ≤ YY - 1 then 1 else 0), (if -220 ≤ YY - 1 then 11 else 2))) ?_ ?_
  · unfold ancientPick
    simp only [List.reverse_cons, List.reverse_nil, List.nil_append, List.cons_append, List.find?_cons, n2, n1, decide_false, (ge (YY - 1) a1 a2).mpr hb1, decide_true]
  · exact fin (YY - 1) a1 hb1 (by omega)

/-- the months of a solstice year among the ancient years -/
theorem around (hT : TermsOK ssq m1 m2 Q) (hM : MoonsOK ssq j1 j2 Mn) (hs : Starts Q Mn j1 j2 y0 s) {d N a : ℤ} {k : ℕ} (h : At Q Mn m1 m2 j1 j2 d N a k)
    (h1 : y0 + 1 ≤ N + 2001) (h2 : N + 2001 ≤ -103) :
    s (N + 2000) ≤ a ∧ (N + 2002 ≤ -103 → a < s (N + 2002)) ∧ (N + 2003 ≤ -103 → a + 13 < s (N + 2003)) := by
  have hl := hs.low
  have hb := h.inR.bounds
  have hj := h.ja
  have hf := h.first
  have q := abs_le.mp (hT (24 * N) (by omega) (by omega)).1
  have f1 : ((Mn a : ℤ) : ℚ) ≤ Q (24 * N) := by exact_mod_cast hf.1
  have f2 : ((Q (24 * N) : ℤ) : ℚ) < Mn (a + 1) := by exact_mod_cast hf.2
  unfold meanTerm at q
  push_cast at q
  refine ⟨?_, ?_, ?_⟩
  · obtain ⟨n1, n2, n3⟩ := hs.near (N + 2000) (by omega) (by omega)
    have n3' := abs_le.mp n3
    have sm := (start_mean (N + 2000) (by omega) (by omega)).2
    unfold meanTerm at sm
    push_cast at sm
    have : ((Mn (s (N + 2000)) : ℤ) : ℚ) < Mn (a + 1) := by linarith
    have lt : Mn (s (N + 2000)) < Mn (a + 1) := by exact_mod_cast this
    have le := idx_le hM (show j1 ≤ a + 1 by omega) n2 lt.le
    by_contra hc
    have : s (N + 2000) = a + 1 := by omega
    rw [this] at lt
    omega
  · intro hN
    obtain ⟨n1, n2, n3⟩ := hs.near (N + 2002) (by omega) (by omega)
    have n3' := abs_le.mp n3
    have sm := (start_mean (N + 2002) (by omega) (by omega)).1
    unfold meanTerm at sm
    push_cast at sm
    have : ((Mn a : ℤ) : ℚ) < Mn (s (N + 2002)) := by linarith
    have lt : Mn a < Mn (s (N + 2002)) := by exact_mod_cast this
    have le := idx_le hM n1 (show a ≤ j2 by omega) lt.le
    by_contra hc
    have : a = s (N + 2002) := by omega
    rw [← this] at lt
    omega
  · intro hN
    obtain ⟨n1, n2, n3⟩ := hs.near (N + 2003) (by omega) (by omega)
    have n3' := abs_le.mp n3
    have sm := (start_mean (N + 2003) (by omega) (by omega)).1
    unfold meanTerm at sm
    push_cast at sm
    have m := (hM.months a (a + 13) (by omega) (by omega) (by omega) (by omega)).2
    have mq : ((Mn (a + 13) : ℤ) : ℚ) ≤ Mn a + 390 := by exact_mod_cast (by omega : Mn (a + 13) ≤ Mn a + 390)
    have : ((Mn (a + 13) : ℤ) : ℚ) < Mn (s (N + 2003)) := by linarith
    have lt : Mn (a + 13) < Mn (s (N + 2003)) := by exact_mod_cast this
    have le := idx_le hM n1 (show a + 13 ≤ j2 by omega) lt.le
    by_contra hc
    have : a + 13 = s (N + 2003) := by omega
    rw [← this] at lt
    omega

/-- leap month and names the program finds, over the reform -/
def histL (Q Mn : ℤ → ℤ) (N a : ℤ) : ℕ := if N + 2001 ≤ -104 then 0 else leapFn (zOf Q N) (hOf Mn a)
def histNM (Q Mn s : ℤ → ℤ) (N a : ℤ) : ℕ → String :=
  if N + 2001 ≤ -104 then (fun i => ancNm s (N + 2001) (a + i)) else nmOf Mn a (leapFn (zOf Q N) (hOf Mn a))

/-- days from the winter solstice of year `y0` on -/
def Since (y0 : ℤ) (d : ℤ) : Prop := meanTerm (24 * (y0 - 2000)) + 20 ≤ (d : ℚ)

theorem Since.year {d N a : ℤ} {k : ℕ} (hT : TermsOK ssq m1 m2 Q) (hP : Since y0 d) (h : At Q Mn m1 m2 j1 j2 d N a k) : y0 + 1 ≤ N + 2001 := by
  have hb := h.inR.bounds
  have q := abs_le.mp (hT (24 * (N + 1)) (by omega) (by omega)).1
  have y : ((d : ℤ) : ℚ) < Q (24 * (N + 1)) := by exact_mod_cast h.year.2
  unfold Since meanTerm at hP
  unfold meanTerm at q
  push_cast at q hP
  have : (y0 : ℚ) - 2000 < N + 1 := by linarith
  have : y0 - 2000 < N + 1 := by exact_mod_cast this
  omega

theorem ancient_tables (hT : TermsOK ssq m1 m2 Q) (hM : MoonsOK ssq j1 j2 Mn) (hs : Starts Q Mn j1 j2 y0 s) {d N a : ℤ} {k : ℕ} (h : At Q Mn m1 m2 j1 j2 d N a k)
    (h1 : y0 + 1 ≤ N + 2001) (h2 : N + 2001 ≤ -104) (hmoons : moons ssq (Q (24 * N)) = some (tab 15 (hOf Mn a))) (W : ℚ) (hW : Near W N) :
    ∃ t, yearFrom ssq W = some t ∧ YearTables t (zOf Q N) (hOf Mn a) 0 (fun i => ancNm s (N + 2001) (a + i)) := by
  obtain ⟨t1, t2, t3⟩ := terms_eq ssq m1 m2 Q hT W N h.inR hW
  have hl := hs.low
  have hj := h.ja
  have hY := yearOf_eq hT h.inR
  obtain ⟨o1, o2, o3⟩ := around hT hM hs h h1 (by omega)
  have o2 := o2 (by omega)
  have hA0 : (tab 25 (fun (i : ℕ) => Q (24 * N + i)))[0]? = some (Q (24 * N)) := by
    rw [tab_get 25 _ 0 (by omega)]; simp
  refine ⟨⟨0, (List.range 14).map (fun (i : ℕ) => ancNm s (N + 2001) (a + i)), tab 25 (zOf Q N), tab 15 (hOf Mn a), tab 14 (fun i => hOf Mn a (i + 1) - hOf Mn a i), [Q (24 * N - 1), Q (24 * N - 2)]⟩, ?_, ⟨rfl, rfl, rfl, rfl, rfl⟩⟩
  unfold yearFrom
  refine bind_ok t1 ?_
  refine bind_ok t2 ?_
  refine bind_ok t3 ?_
  refine bind_ok hA0 ?_
  refine bind_ok hmoons ?_
  refine bind_ok (lengths_eq _) ?_
  refine bind_ok hY ?_
  rw [if_pos (by constructor <;> omega)]
  refine bind_ok (ancientYears_eq hM hs (N + 2001) (by omega) (by omega)) ?_
  refine bind_ok (x := (List.range 14).map (fun (i : ℕ) => ancNm s (N + 2001) (a + i))) ?_ rfl
  obtain ⟨ns, hns⟩ : ∃ ns, ns = (List.range 3).map (fun (i : ℕ) => (Mn (s (N + 2001 + i - 1)), (if -220 ≤ N + 2001 + i - 1 then 1 else 0 : ℕ), (if -220 ≤ N + 2001 + i - 1 then 11 else 2 : ℕ))) := ⟨_, rfl⟩
  rw [← hns]
  have each : ∀ i : ℕ, i < 14 → ancientName ns (hOf Mn a i) = some (ancNm s (N + 2001) (a + i)) := by
    intro i hi
    rw [hns]
    exact ancientName_eq hM hs (N + 2001) (by omega) (by omega) (a + i) (by rw [show N + 2001 - 1 = N + 2000 by ring]; omega) (by rw [show N + 2001 + 1 = N + 2002 by ring]; omega) (by omega)
  have htake : (tab 15 (hOf Mn a)).take 14 = (List.range 14).map (hOf Mn a) := by
    unfold tab
    rw [← List.map_take]
    rfl
  rw [htake]
  rw [Cal.mapM_some (fun hh => ancientName ns hh) (fun hh => (ancientName ns hh).getD "") _ (by
    intro x hx
    obtain ⟨i, hi, rfl⟩ := List.mem_map.mp hx
    have := each i (by simpa using hi)
    rw [this]; rfl), List.map_map]
  congr 1
  apply List.map_congr_left
  intro i hi
  have := each i (by simpa using hi)
  simp only [Function.comp_apply]
  rw [this]; rfl

/-- the naming over the reform -/
theorem historic_naming (hT : TermsOK ssq m1 m2 Q) (hN : TermsNear Q m1 m2) (hM : MoonsOK ssq j1 j2 Mn) (hs : Starts Q Mn j1 j2 y0 s) :
    Naming ssq m1 m2 j1 j2 Q Mn (Since y0) (histL Q Mn) (histNM Q Mn s) := by
  have hl := hs.low
  refine ⟨?_, ?_⟩
  · intro d N a k hP h hmo W hW
    have hy := Since.year hT hP h
    unfold histL histNM
    by_cases hA : N + 2001 ≤ -104
    · rw [if_pos hA, if_pos hA]
      exact ancient_tables hT hM hs h hy hA hmo W hW
    · rw [if_neg hA, if_neg hA]
      obtain ⟨t, t1, t2, -⟩ := tables_of hT hN hM h hmo W hW (by omega)
      exact ⟨t, t1, t2⟩
  · intro d N a a' k hP hP' h h' z24 hsame
    have hy := Since.year hT hP h
    have hj := h.ja
    have hj' := h'.ja
    have hk := h.kk
    unfold histL histNM
    by_cases hA : N + 2001 ≤ -104
    · rw [if_pos hA, if_pos hA]
      refine ⟨?_, fun hh => hh.1 rfl⟩
      obtain ⟨o1, o2, o3⟩ := around hT hM hs h' (by omega) (by omega)
      rw [show N + 1 + 2000 = N + 2001 by ring] at o1
      rw [show N + 1 + 2002 = N + 2003 by ring] at o2
      by_cases hB : N + 1 + 2001 ≤ -104
      · rw [if_pos hB]
        have o2 := o2 (by omega)
        simp only [Nat.cast_zero, add_zero]
        rw [hsame]
        have st := start_index hM hs (yy := N + 2001) (by omega) (by omega)
        have st2 := start_index hM hs (yy := N + 2002) (by omega) (by omega)
        rw [show N + 2001 + 1 = N + 2002 by ring] at st
        rw [show N + 2002 + 1 = N + 2003 by ring] at st2
        have e : pickYear s (N + 2001) a' = pickYear s (N + 1 + 2001) a' := by
          unfold pickYear
          rw [show N + 1 + 2001 + 1 = N + 2003 by ring, show N + 1 + 2001 = N + 2002 by ring, show N + 2001 + 1 = N + 2002 by ring, show N + 2002 - 1 = N + 2001 by ring]
          rw [if_neg (show ¬ s (N + 2003) ≤ a' by omega)]
          by_cases hc : s (N + 2002) ≤ a'
          · rw [if_pos hc, if_pos hc]
          · rw [if_neg hc, if_neg hc, if_pos o1]
        unfold ancNm
        rw [e]
      · -- the reform
        rw [if_neg hB]
        have hN4 : N = -2105 := by omega
        subst hN4
        obtain ⟨n1, n2, n3⟩ := hs.near (-103) (by omega) (by omega)
        have n3' := abs_le.mp n3
        have rm := hs.room.2
        have hroom : s (-103) + 3 ≤ j2 := by
          by_contra hc
          have m := (hM.months (s (-103)) j2 n1 n2 (by omega) (by omega)).2
          have mq : ((Mn j2 : ℤ) : ℚ) ≤ Mn (s (-103)) + 60 := by exact_mod_cast (by omega : Mn j2 ≤ Mn (s (-103)) + 60)
          linarith
        have hf := h'.first
        rw [show (-2105 + 1 : ℤ) = -2104 by norm_num] at hf
        have hr := hs.reform
        have e : a' = s (-103) + 1 := month_unique hM (d := Q (24 * (-2104))) ⟨by omega, by omega⟩ ⟨by omega, by omega⟩ hf.1 hf.2 hr.1 (by rw [add_assoc]; exact hr.2)
        have hnum0 : ∀ l', numOf l' 0 = 0 := by intro l'; unfold numOf; split_ifs <;> omega
        unfold nmOf ancNm pickYear
        rw [hnum0, hsame, e]
        have hmq : Mn a' ≤ -760000 := by
          have b := h'.inR.bounds
          have q := (hT (24 * (-2104)) (by omega) (by omega)).1
          have f1 := hf.1
          obtain ⟨v, hv⟩ : ∃ v, v = Q (24 * (-2104)) := ⟨_, rfl⟩
          rw [← hv] at q f1
          have q' := abs_le.mp q
          unfold meanTerm at q'
          push_cast at q'
          have f1q : ((Mn a' : ℤ) : ℚ) ≤ v := by exact_mod_cast f1
          have : ((Mn a' : ℤ) : ℚ) ≤ -760000 := by linarith [q'.2]
          exact_mod_cast this
        have hp : (if s (-2105 + 2001 + 1) ≤ s (-103) + 1 then (-2105 + 2001 + 1 : ℤ) else if s (-2105 + 2001) ≤ s (-103) + 1 then -2105 + 2001 else -2105 + 2001 - 1) = -103 := by
          rw [show (-2105 + 2001 + 1 : ℤ) = -103 by norm_num, if_pos (by omega)]
        rw [hp, show (s (-103) + 1 - s (-103)).toNat = 1 by omega]
        simp only [Nat.cast_zero, add_zero]
        rw [e] at hmq
        unfold nameRule
        rw [if_neg (by omega), if_neg (by omega), if_neg (by omega), if_neg (by omega)]
        rfl
    · rw [if_neg hA, if_neg hA, if_neg (by omega), ]
      exact ordinary_joins hN hM h h' z24 hsame

/-- the naming obeys the rule -/
theorem historic_rule (hT : TermsOK ssq m1 m2 Q) (hN : TermsNear Q m1 m2) (hM : MoonsOK ssq j1 j2 Mn) (hs : Starts Q Mn j1 j2 y0 s) {d N a : ℤ} {k : ℕ}
    (hP : Since y0 d) (h : At Q Mn m1 m2 j1 j2 d N a k) : HistoricRule Q Mn s N a (histL Q Mn N a) (histNM Q Mn s N a) := by
  have hl := hs.low
  have hy := Since.year hT hP h
  unfold HistoricRule histL histNM
  by_cases hA : N + 2001 ≤ -104
  · rw [if_pos hA, if_pos hA, if_pos hA]
    obtain ⟨o1, o2, o3⟩ := around hT hM hs h hy (by omega)
    have o2 := o2 (by omega)
    refine ⟨rfl, ?_⟩
    intro i hi
    refine ⟨pickYear s (N + 2001) (a + i), (a + i - s (pickYear s (N + 2001) (a + i))).toNat, ?_, ?_, ?_, rfl⟩
    · have : s (pickYear s (N + 2001) (a + i)) ≤ a + i := by
        unfold pickYear
        split_ifs with g1 g2
        · exact g1
        · exact g2
        · rw [show N + 2001 - 1 = N + 2000 by ring]; omega
      omega
    · unfold pickYear
      split_ifs with g1 g2
      · intro hlt
        have := o3 (by omega)
        rw [show N + 2001 + 1 + 1 = N + 2003 by ring]; omega
      · intro _; omega
      · intro _
        rw [show N + 2001 - 1 + 1 = N + 2001 by ring]; omega
    · unfold pickYear
      split_ifs <;> omega
  · rw [if_neg hA, if_neg hA, if_neg hA]
    exact ⟨leapRule_of hN hM h, rfl⟩

/-- C18–C21 over the reform of 104 BC: after any history of month sheets and year texts, every day of every month sheet from the winter solstice of year `y0`
(721 BC or later) on has the record it must have. -/
theorem c21_sheet_historic {lo hi : ℤ} (hr : Range Q Mn m1 m2 j1 j2 lo hi) (hT : TermsOK ssq m1 m2 Q) (hN : TermsNear Q m1 m2) (hM : MoonsOK ssq j1 j2 Mn)
    (hs : Starts Q Mn j1 j2 y0 s) (hlo : meanTerm (24 * (y0 - 2000)) + 20 ≤ (lo : ℚ))
    (t : Tables) (ht : Reachable ssq lo hi t) (Bd0 : ℤ) (hB : lo ≤ Bd0 ∧ Bd0 ≤ hi) (n : ℕ) (hn : n ≤ 31) :
    ∃ days t', lunarSheet ssq t Bd0 n = some (days, t') ∧ days.length = n ∧
      ∀ i : ℕ, i < n → ∃ o, days[i]? = some o ∧ RecordOK Q Mn (HistoricRule Q Mn s) (Bd0 + i) o := by
  have hb := hr.big
  have hall : ∀ d, lo ≤ d → Since y0 d := fun d hd => le_trans hlo (by exact_mod_cast hd)
  exact sheet_loop hr hT hN hM (historic_naming hT hN hM hs) _ (fun hP h => historic_rule hT hN hM hs hP h) Bd0 n Bd0 none t
    (reachable_ok ssq m1 m2 lo hi Q (by omega) (by omega) hr.terms.1 hr.terms.2 hT t ht) hB.1 (by omega) (fun i _ => hall _ (by omega)) (Or.inl rfl)

end

end Verif.Lunar
