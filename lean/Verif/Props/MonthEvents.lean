import Verif.MonthEventsSpec
import Verif.ClockLemmas
import Verif.Props.LunarDay

/-!
# C62: the moon phases and solar terms of a month sheet
-/

namespace Verif.Cal
open Verif.Fp

theorem half_ex : rnd (1/2) = 1/2 := by decide +kernel

/-- the text of a moment, given the number of seconds of its day -/
theorem timeStr_of (jd : ℚ) (D sec : ℤ) (hD : int2 (jd ⊞ (1/2)) = some D) (hS : int2 ((((jd ⊞ (1/2)) ⊟ (D : ℚ)) ⊠ 86400) ⊞ (1/2)) = some sec) (hs0 : 0 ≤ sec) (hs1 : sec ≤ 86400) :
    timeStr jd = some (clockText sec) := by
  unfold timeStr
  simp only
  rw [hD]
  simp only [Option.bind_eq_bind, Option.bind_some]
  rw [hS]
  simp only [Option.bind_some]
  have q1 : int2 ((sec:ℚ) ⊘ 3600) = some (sec / 3600) := by
    apply int2_eq
    · have := floor_rnd_div sec 3600 (by rw [abs_of_nonneg hs0]; omega) (by norm_num) (by norm_num)
      push_cast at this; exact this
    · omega
    · omega
  rw [q1]
  simp only [Option.bind_some]
  rw [i32_some (by omega) (by omega)]
  simp only [Option.bind_some]
  have q2 : int2 (((sec - sec / 3600 * 3600 : ℤ):ℚ) ⊘ 60) = some (sec % 3600 / 60) := by
    apply int2_eq
    · have := floor_rnd_div (sec - sec / 3600 * 3600) 60 (by rw [abs_of_nonneg (by omega)]; omega) (by norm_num) (by norm_num)
      push_cast at this ⊢
      unfold fdiv
      rw [this]; omega
    · omega
    · omega
  rw [q2]
  simp only [Option.bind_some]
  rw [i32_some (by omega) (by omega)]
  simp only [Option.bind_some]
  rw [two_eq _ (by omega) (by omega), two_eq _ (by omega) (by omega), two_eq _ (by omega) (by omega)]
  simp only [Option.bind_some, Option.pure_def, Option.some.injEq]
  unfold clockText
  rw [show sec - sec / 3600 * 3600 - sec % 3600 / 60 * 60 = sec % 60 by omega]

/-- C07 for every moment near the present, whatever its sign: the text is the nearest second of the day, up to a thousandth of a second (only the last half second
of a day prints 24:00:00) -/
theorem c07_timeStr_any (jd : ℚ) (h : |jd| ≤ 10000000) :
    ∃ n sec : ℤ, n = ⌊jd ⊞ (1/2)⌋ ∧ |(n : ℚ) - jd| ≤ 51/100 ∧ 0 ≤ sec ∧ sec ≤ 86400 ∧ |(sec : ℚ) - 86400 * (jd + 1/2 - n)| ≤ 501/1000 ∧ timeStr jd = some (clockText sec) := by
  have hj := abs_le.mp h
  obtain ⟨a, ha⟩ : ∃ a, a = jd ⊞ (1/2) := ⟨_, rfl⟩
  have e1 := abs_le.mp (rnd_err1 (show |jd + 1/2| ≤ 10000001 by rw [abs_le]; constructor <;> linarith) (by norm_num))
  have ea : a = rnd (jd + 1/2) := ha
  rw [← ea] at e1
  have s1 : (10000001 : ℚ) / 9007199254740992 ≤ 1/500000000 := by norm_num
  have f1 := Int.floor_le a
  have f2 := Int.lt_floor_add_one a
  obtain ⟨n, hn⟩ : ∃ n, n = ⌊a⌋ := ⟨_, rfl⟩
  rw [← hn] at f1 f2
  have nb : -10000002 ≤ n ∧ n ≤ 10000002 := by
    constructor
    · have : (-10000002 : ℚ) < n + 1 := by linarith [e1.1]
      have : (-10000002 : ℤ) < n + 1 := by exact_mod_cast this
      omega
    · have : (n : ℚ) < 10000002 := by linarith [e1.2]
      have : n < 10000002 := by exact_mod_cast this
      omega
  obtain ⟨f, hf⟩ : ∃ f, f = a ⊟ (n : ℚ) := ⟨_, rfl⟩
  have ef := abs_le.mp (rnd_err1 (show |a - n| ≤ 1 by rw [abs_le]; constructor <;> linarith) (by norm_num))
  have ef' : f = rnd (a - n) := hf
  rw [← ef'] at ef
  have g0 : 0 ≤ f := by
    rw [ef']; have := rnd_int_le (n := 0) (q := a - n) (by norm_num) (by push_cast; linarith)
    simpa using this
  have g1 : f ≤ 1 := by
    rw [ef']; have := rnd_le_int (n := 1) (q := a - n) (by norm_num) (by push_cast; linarith)
    simpa using this
  obtain ⟨p, hp⟩ : ∃ p, p = f ⊠ 86400 := ⟨_, rfl⟩
  have ep := abs_le.mp (rnd_err1 (show |f * 86400| ≤ 86400 by rw [abs_le]; constructor <;> linarith) (by norm_num))
  have ep' : p = rnd (f * 86400) := hp
  rw [← ep'] at ep
  have p0 : 0 ≤ p := by
    rw [ep']; have := rnd_int_le (n := 0) (q := f * 86400) (by norm_num) (by push_cast; linarith)
    simpa using this
  have p1 : p ≤ 86400 := by
    rw [ep']; have := rnd_le_int (n := 86400) (q := f * 86400) (by norm_num) (by push_cast; linarith)
    simpa using this
  obtain ⟨q, hq⟩ : ∃ q, q = p ⊞ (1/2) := ⟨_, rfl⟩
  have eq := abs_le.mp (rnd_err1 (show |p + 1/2| ≤ 86401 by rw [abs_le]; constructor <;> linarith) (by norm_num))
  have eq' : q = rnd (p + 1/2) := hq
  rw [← eq'] at eq
  have s2 : (86401 : ℚ) / 9007199254740992 ≤ 1/50000000000 := by norm_num
  have s3 : (86400 : ℚ) / 9007199254740992 ≤ 1/50000000000 := by norm_num
  have s4 : (1 : ℚ) / 9007199254740992 ≤ 1/5000000000000000 := by norm_num
  have c1 := Int.floor_le q
  have c2 := Int.lt_floor_add_one q
  obtain ⟨sec, hsec⟩ : ∃ sec, sec = ⌊q⌋ := ⟨_, rfl⟩
  rw [← hsec] at c1 c2
  have hs0 : 0 ≤ sec := by
    have : (-1 : ℚ) < sec := by linarith [eq.1]
    have : (-1 : ℤ) < sec := by exact_mod_cast this
    omega
  have hs1 : sec ≤ 86400 := by
    have : (sec : ℚ) < 86401 := by linarith [eq.2]
    have : sec < 86401 := by exact_mod_cast this
    omega
  refine ⟨n, sec, by rw [hn, ha], ?_, hs0, hs1, ?_, ?_⟩
  · rw [abs_le]; constructor <;> linarith [e1.1, e1.2]
  · rw [abs_le]; constructor <;> linarith [e1.1, e1.2, ef.1, ef.2, ep.1, ep.2, eq.1, eq.2]
  · refine timeStr_of jd n sec ?_ ?_ hs0 hs1
    · rw [← ha]; exact int2_eq hn.symm (by omega) (by omega)
    · rw [← ha, ← hf, ← hp, ← hq]; exact int2_eq hsec.symm (by omega) (by omega)

end Verif.Cal

namespace Verif.Lunar
open Verif.Fp Verif.Cal Verif.GanZhi Verif.Ssq

theorem pi2_eq : pi2 = 2 * mPi := by decide +kernel
theorem mPi_bounds : 314159/100000 ≤ mPi ∧ mPi ≤ 31416/10000 := by decide +kernel

theorem gap_mono {acc : ℚ → ℚ} {n : ℕ} {g : ℤ} {D : ℤ → ℤ} (h : EventsOK acc n g D) (hg : 0 ≤ g) : ∀ (m : ℕ) (k : ℤ), -600000 ≤ k → k + m ≤ 600000 → D k + g * m ≤ D (k + m)
  | 0, k, _, _ => by simp
  | m + 1, k, h1, h2 => by
    have a := gap_mono h hg m k h1 (by push_cast at h2; omega)
    have b := h.gap (k + m) (by rw [abs_le]; push_cast at h2; omega)
    push_cast
    rw [← add_assoc]
    linarith

/-- the next longitude -/
theorem next_angle (n : ℕ) (hn : 4 ≤ n ∧ n ≤ 24) (k : ℤ) (hk : |k| ≤ 600000) (w e : ℚ) (hw : |w - angle n k| ≤ e) (he : e ≤ 1/1000000) :
    |(w ⊞ (pi2 ⊘ (n : ℚ))) - angle n (k + 1)| ≤ e + 1/100000000 := by
  obtain ⟨p1, p2⟩ := mPi_bounds
  have n4 : (4 : ℚ) ≤ n := by exact_mod_cast hn.1
  have n24 : (n : ℚ) ≤ 24 := by exact_mod_cast hn.2
  have hk' := abs_le.mp hk
  have k1 : (-600000 : ℚ) ≤ k := by exact_mod_cast hk'.1
  have k2 : (k : ℚ) ≤ 600000 := by exact_mod_cast hk'.2
  have u0 : 0 ≤ 2 * mPi / n := by apply div_nonneg <;> linarith
  have u1 : 2 * mPi / n ≤ 2 := by rw [div_le_iff₀ (by linarith)]; linarith
  have hw' := abs_le.mp hw
  have ang : angle n (k + 1) = angle n k + 2 * mPi / n := by unfold angle; push_cast; ring
  have ab : |angle n k| ≤ 1200000 := by
    unfold angle
    rw [abs_mul, abs_of_nonneg u0]
    have : |(k : ℚ)| ≤ 600000 := abs_le.mpr ⟨k1, k2⟩
    calc |(k : ℚ)| * (2 * mPi / n) ≤ 600000 * 2 := mul_le_mul this u1 u0 (by norm_num)
      _ = 1200000 := by norm_num
  have ab' := abs_le.mp ab
  obtain ⟨s, hs⟩ : ∃ s, s = pi2 ⊘ (n : ℚ) := ⟨_, rfl⟩
  have es := abs_le.mp (rnd_err1 (show |2 * mPi / n| ≤ 2 by rw [abs_of_nonneg u0]; exact u1) (by norm_num))
  have es' : s = rnd (2 * mPi / n) := by rw [hs, pi2_eq]; rfl
  rw [← es'] at es
  have er := abs_le.mp (rnd_err1 (show |w + s| ≤ 1200005 by rw [abs_le]; constructor <;> linarith [es.1, es.2, (by norm_num : (2 : ℚ) / 9007199254740992 ≤ 1/1000000000000)]) (by norm_num))
  rw [← hs, ang]
  unfold fadd
  have s1 : (1200005 : ℚ) / 9007199254740992 ≤ 1/1000000000 := by norm_num
  have s2 : (2 : ℚ) / 9007199254740992 ≤ 1/1000000000000 := by norm_num
  rw [abs_le]; constructor <;> linarith [er.1, er.2, es.1, es.2]

/-- the number of an event from its longitude -/
theorem event_number (n : ℕ) (hn : n = 4 ∨ n = 24) (o : ℤ) (off : ℚ) (ho : 0 ≤ o ∧ o ≤ 30000000) (hoff : |off - (o + 1/100)| ≤ 1/1000000) (k : ℤ) (hk : |k| ≤ 600000) (w : ℚ)
    (hw : |w - angle n k| ≤ 1/1000000) : int2 (((w ⊘ pi2) ⊠ (n : ℚ)) ⊞ off) = some (k + o) := by
  obtain ⟨p1, p2⟩ := mPi_bounds
  have n4 : (4 : ℚ) ≤ n ∧ (n : ℚ) ≤ 24 := by rcases hn with h | h <;> rw [h] <;> norm_num
  have hk' := abs_le.mp hk
  have k1 : (-600000 : ℚ) ≤ k := by exact_mod_cast hk'.1
  have k2 : (k : ℚ) ≤ 600000 := by exact_mod_cast hk'.2
  have hw' := abs_le.mp hw
  have hoff' := abs_le.mp hoff
  have pp : (0 : ℚ) < 2 * mPi := by linarith
  have nq : (0 : ℚ) < n := by linarith [n4.1]
  -- w / pi2 * n is near k
  have ex : w / (2 * mPi) * n = k + (w - angle n k) * (n / (2 * mPi)) := by unfold angle; field_simp; ring
  have r0 : 0 ≤ (n : ℚ) / (2 * mPi) := by positivity
  have r1 : (n : ℚ) / (2 * mPi) ≤ 4 := by rw [div_le_iff₀ pp]; linarith [n4.2]
  have dv : |(w - angle n k) * (n / (2 * mPi))| ≤ 1/100000 := by
    rw [abs_mul, abs_of_nonneg r0]
    calc |w - angle n k| * (n / (2 * mPi)) ≤ 1/1000000 * 4 := mul_le_mul hw r1 r0 (by norm_num)
      _ ≤ 1/100000 := by norm_num
  have dv' := abs_le.mp dv
  have b0 : |w / (2 * mPi)| ≤ 600001/4 := by
    have e : w / (2 * mPi) = (w / (2 * mPi) * n) / n := by field_simp
    rw [e, ex, abs_div, abs_of_pos nq, div_le_iff₀ nq]
    have : |(k : ℚ) + (w - angle n k) * (n / (2 * mPi))| ≤ 600001 := by rw [abs_le]; constructor <;> linarith
    linarith [n4.1]
  obtain ⟨a, ha⟩ : ∃ a, a = w ⊘ pi2 := ⟨_, rfl⟩
  have ea := abs_le.mp (rnd_err1 b0 (by norm_num))
  have ea' : a = rnd (w / (2 * mPi)) := by rw [ha, pi2_eq]; rfl
  rw [← ea'] at ea
  have s1 : (600001/4 : ℚ) / 9007199254740992 ≤ 1/50000000000 := by norm_num
  have m1 : |a * n - w / (2 * mPi) * n| ≤ 1/1000000000 := by
    rw [← sub_mul, abs_mul, abs_of_pos nq]
    calc |a - w / (2 * mPi)| * n ≤ 1/50000000000 * 24 := mul_le_mul (by rw [abs_le]; constructor <;> linarith [ea.1, ea.2]) n4.2 nq.le (by norm_num)
      _ ≤ 1/1000000000 := by norm_num
  have m1' := abs_le.mp m1
  obtain ⟨b, hb⟩ : ∃ b, b = a ⊠ (n : ℚ) := ⟨_, rfl⟩
  have eb := abs_le.mp (rnd_err1 (show |a * n| ≤ 600002 by rw [abs_le]; constructor <;> linarith) (by norm_num))
  have eb' : b = rnd (a * n) := hb
  rw [← eb'] at eb
  have s2 : (600002 : ℚ) / 9007199254740992 ≤ 1/1000000000 := by norm_num
  have o1 : (0 : ℚ) ≤ o := by exact_mod_cast ho.1
  have o2 : (o : ℚ) ≤ 30000000 := by exact_mod_cast ho.2
  have ec := abs_le.mp (rnd_err1 (show |b + off| ≤ 31000000 by rw [abs_le]; constructor <;> linarith [eb.1, eb.2]) (by norm_num))
  have s3 : (31000000 : ℚ) / 9007199254740992 ≤ 1/100000000 := by norm_num
  rw [← ha, ← hb]
  apply int2_eq
  · rw [Int.floor_eq_iff]
    unfold fadd
    push_cast
    constructor <;> linarith [ec.1, ec.2, eb.1, eb.2]
  · omega
  · omega

section
variable {acc : ℚ → ℚ} {n : ℕ} {slack : ℤ} {D : ℤ → ℤ} {names : List String} {off : ℚ} {o : ℤ} {name : ℤ → Option String}

/-- the record an event leaves on its day -/
def RecFor (acc : ℚ → ℚ) (n : ℕ) (name : ℤ → Option String) (D : ℤ → ℤ) (k : ℤ) (r : EventRec) : Prop :=
  ∃ w : ℚ, |w - angle n k| ≤ 1/1000000 ∧ r.jd = acc w ∧ some r.name = name k ∧ EventText r (D k)

theorem loop_ok (hn : n = 4 ∨ n = 24) (ho : 0 ≤ o ∧ o ≤ 30000000) (hoff : |off - (o + 1/100)| ≤ 1/1000000) (hE : EventsOK acc n (slack + 1) D) (hs : 0 ≤ slack ∧ slack ≤ 20)
    (hname : ∀ k : ℤ, |k| ≤ 600000 → ∃ s, cget names ((k + o).tmod n) = some s ∧ name k = some s) (Bd0 Bdn : ℤ) (hB : |Bd0| ≤ 10000000) (hBn : 0 ≤ Bdn ∧ Bdn ≤ 31) :
    ∀ (m fuel : ℕ) (k : ℤ) (w : ℚ) (days : List EventRec), m < fuel → m ≤ 50 → |w - angle n k| ≤ 1/1000000 - m/100000000 → -600000 ≤ k → k + m ≤ 600000 →
      Bd0 + Bdn ≤ D k + (slack + 1) * m → days.length = 31 →
      ∃ r, eventLoop acc names n off slack Bd0 Bdn fuel w days = some r ∧ r.length = 31 ∧ ∀ i : ℕ, i < 31 →
        (∀ k', k ≤ k' → k' ≤ 600000 → (i : ℤ) < Bdn → D k' = Bd0 + i → ∃ x, r[i]? = some x ∧ RecFor acc n name D k' x) ∧
        ((∀ k', k ≤ k' → k' ≤ 600000 → D k' ≠ Bd0 + i) ∨ Bdn ≤ i → r[i]? = days[i]?) := by
  have hn' : 4 ≤ n ∧ n ≤ 24 := by omega
  intro m
  induction m with
  | zero =>
    intro fuel k w days hf _ hw hk1 hk2 hD hlen
    obtain ⟨fuel, rfl⟩ : ∃ f', fuel = f' + 1 := ⟨fuel - 1, by omega⟩
    simp only [Nat.cast_zero, zero_div, sub_zero, mul_zero, add_zero] at hw hD hk2
    obtain ⟨d1, d2⟩ := hE.day k (by rw [abs_le]; omega) w hw
    have num := event_number n hn o off ho hoff k (by rw [abs_le]; omega) w hw
    have dn : int2 (acc w ⊞ rnd (1/2)) = some (D k) := by
      obtain ⟨nn, sec, e1, e2, _⟩ := c07_timeStr_any (acc w) d2
      rw [half_ex] at d1 ⊢
      have a := abs_le.mp d2
      have b := abs_le.mp e2
      have : nn = D k := by rw [e1, d1]
      rw [this] at b
      have u1 : (-10000001 : ℚ) < D k := by linarith [b.1]
      have u2 : (D k : ℚ) < 10000001 := by linarith [b.2]
      have u1' : -10000001 < D k := by exact_mod_cast u1
      have u2' : D k < 10000001 := by exact_mod_cast u2
      exact int2_eq d1 (by omega) (by omega)
    refine ⟨days, ?_, hlen, ?_⟩
    · unfold eventLoop
      refine bind_ok dn (bind_ok num ?_)
      rw [if_pos (by omega)]; rfl
    · intro i hi
      refine ⟨?_, fun _ => rfl⟩
      intro k' hk' hk'' hib hDk
      exfalso
      have := gap_mono hE (by omega) (k' - k).toNat k hk1 (by omega)
      rw [show k + ((k' - k).toNat : ℤ) = k' by omega] at this
      have : 0 ≤ (slack + 1) * ((k' - k).toNat : ℤ) := by apply mul_nonneg <;> omega
      omega
  | succ m ih =>
    intro fuel k w days hf hm hw hk1 hk2 hD hlen
    obtain ⟨fuel, rfl⟩ : ∃ f', fuel = f' + 1 := ⟨fuel - 1, by omega⟩
    have hw1 : |w - angle n k| ≤ 1/1000000 := le_trans hw (by have : (0 : ℚ) ≤ ((m + 1 : ℕ) : ℚ) / 100000000 := by positivity
                                                              linarith)
    obtain ⟨d1, d2⟩ := hE.day k (by rw [abs_le]; push_cast at hk2; omega) w hw1
    have num := event_number n hn o off ho hoff k (by rw [abs_le]; push_cast at hk2; omega) w hw1
    obtain ⟨nn, sec, e1, e2, e3, e4, e5, e6⟩ := c07_timeStr_any (acc w) d2
    have hnn : nn = D k := by rw [half_ex] at d1; rw [e1, d1]
    have dn : int2 (acc w ⊞ rnd (1/2)) = some (D k) := by
      have a := abs_le.mp d2
      have b := abs_le.mp e2
      rw [hnn] at b
      have u1 : (-10000001 : ℚ) < D k := by linarith [b.1]
      have u2 : (D k : ℚ) < 10000001 := by linarith [b.2]
      have u1' : -10000001 < D k := by exact_mod_cast u1
      have u2' : D k < 10000001 := by exact_mod_cast u2
      exact int2_eq d1 (by omega) (by omega)
    have later : ∀ k', k < k' → k' ≤ 600000 → D k + (slack + 1) ≤ D k' := by
      intro k' h1 h2
      have a := gap_mono hE (by omega) (k' - k).toNat k hk1 (by omega)
      rw [show k + ((k' - k).toNat : ℤ) = k' by omega] at a
      have : (slack + 1) * 1 ≤ (slack + 1) * ((k' - k).toNat : ℤ) := by apply mul_le_mul_of_nonneg_left <;> omega
      omega
    by_cases hend : D k ≥ Bd0 + Bdn
    · refine ⟨days, ?_, hlen, ?_⟩
      · unfold eventLoop
        refine bind_ok dn (bind_ok num ?_)
        rw [if_pos hend]; rfl
      · intro i hi
        refine ⟨?_, fun _ => rfl⟩
        intro k' hk' hk'' hib hDk
        exfalso
        rcases lt_or_eq_of_le hk' with h | h
        · have := later k' h hk''; omega
        · subst h; omega
    -- the record of this event
    obtain ⟨s, hs1, hs2⟩ := hname k (by rw [abs_le]; push_cast at hk2; omega)
    obtain ⟨days', hd', hl', hrec⟩ : ∃ days', (if D k < Bd0 then pure days else do
          let nm ← cget names ((k + o).tmod n)
          let ts ← timeStr (acc w)
          setDay days (D k - Bd0) ⟨nm, acc w, ts⟩ : Option (List EventRec)) = some days' ∧ days'.length = 31 ∧
          ∀ i : ℕ, i < 31 → (D k = Bd0 + i → ∃ x, days'[i]? = some x ∧ RecFor acc n name D k x) ∧ (D k ≠ Bd0 + i → days'[i]? = days[i]?) := by
      by_cases hb : D k < Bd0
      · refine ⟨days, by rw [if_pos hb]; rfl, hlen, fun i _ => ⟨fun h => by omega, fun _ => rfl⟩⟩
      · refine ⟨days.set (D k - Bd0).toNat ⟨s, acc w, clockText sec⟩, ?_, by rw [List.length_set]; exact hlen, ?_⟩
        · rw [if_neg hb]
          refine bind_ok hs1 (bind_ok e6 ?_)
          unfold setDay
          rw [if_pos ⟨by omega, by rw [hlen]; omega⟩]
        · intro i hi
          constructor
          · intro h
            refine ⟨⟨s, acc w, clockText sec⟩, ?_, w, hw1, rfl, hs2.symm, sec, rfl, e3, e4, ?_⟩
            · rw [show (D k - Bd0).toNat = i by omega, List.getElem?_set_self (by omega)]
            · rw [hnn] at e5; exact e5
          · intro h
            rw [List.getElem?_set_ne (by omega)]
    by_cases hgo : D k + slack < Bd0 + Bdn
    · have hna := next_angle n hn' k (by rw [abs_le]; push_cast at hk2; omega) w _ hw (by have : (0 : ℚ) ≤ ((m + 1 : ℕ) : ℚ) / 100000000 := by positivity
                                                                                          linarith)
      obtain ⟨r, hr, hrl, hri⟩ := ih fuel (k + 1) _ days' (by omega) (by omega) (le_trans hna (by push_cast; linarith)) (by omega) (by push_cast at hk2; omega)
        (by have := later (k + 1) (by omega) (by push_cast at hk2; omega); push_cast at hD; linarith) hl'
      refine ⟨r, ?_, hrl, ?_⟩
      · unfold eventLoop
        refine bind_ok dn (bind_ok num ?_)
        rw [if_neg hend]
        refine bind_ok hd' ?_
        rw [if_pos hgo]; exact hr
      · intro i hi
        obtain ⟨r1, r2⟩ := hri i hi
        obtain ⟨q1, q2⟩ := hrec i hi
        constructor
        · intro k' hk' hk'' hib hDk
          rcases lt_or_eq_of_le hk' with h | h
          · exact r1 k' (by omega) hk'' hib hDk
          · subst h
            obtain ⟨x, x1, x2⟩ := q1 hDk
            refine ⟨x, ?_, x2⟩
            rw [r2 (Or.inl (fun k' h1 h2 => by have := later k' (by omega) h2; omega))]
            exact x1
        · intro h
          rw [r2 (by
            rcases h with h | h
            · exact Or.inl (fun k' h1 h2 => h k' (by omega) h2)
            · exact Or.inr h)]
          refine q2 ?_
          rcases h with h | h
          · exact h k (le_refl _) (by push_cast at hk2; omega)
          · omega
    · refine ⟨days', ?_, hl', ?_⟩
      · unfold eventLoop
        refine bind_ok dn (bind_ok num ?_)
        rw [if_neg hend]
        refine bind_ok hd' ?_
        rw [if_neg hgo]; rfl
      · intro i hi
        obtain ⟨q1, q2⟩ := hrec i hi
        constructor
        · intro k' hk' hk'' hib hDk
          rcases lt_or_eq_of_le hk' with h | h
          · exfalso; have := later k' h hk''; omega
          · subst h; exact q1 hDk
        · intro h
          refine q2 ?_
          rcases h with h | h
          · exact h k (le_refl _) (by push_cast at hk2; omega)
          · omega

end

/-- the first event looked at -/
theorem start_num (w0 c p : ℚ) (q : ℕ) (hp : 314159/100000 ≤ p ∧ p ≤ 2 * (31416/10000)) (hq : 2 ≤ q ∧ q ≤ 24) (hc : 0 ≤ c ∧ c ≤ 1) (hs : |w0| * q ≤ 445700 * p) (hw : |w0| ≤ 700000) :
    ∃ k : ℤ, int2 (((w0 ⊟ rnd c) ⊘ p) ⊠ (q : ℚ)) = some k ∧ |k| ≤ 446000 ∧ (k : ℚ) * (p / q) ≤ w0 - c + 1/1000 ∧ w0 - c - 1/1000 - p / q ≤ k * (p / q) ∧
      |(((k : ℚ) ⊠ p) ⊘ (q : ℚ)) - k * (p / q)| ≤ 1/100000000 := by
  have q2 : (2 : ℚ) ≤ q := by exact_mod_cast hq.1
  have q24 : (q : ℚ) ≤ 24 := by exact_mod_cast hq.2
  have p0 : (0 : ℚ) < p := by linarith [hp.1]
  have q0 : (0 : ℚ) < q := by linarith
  have hw' := abs_le.mp hw
  have ec := abs_le.mp (rnd_err1 (show |c| ≤ 1 by rw [abs_of_nonneg hc.1]; exact hc.2) (by norm_num))
  have s0 : (1 : ℚ) / 9007199254740992 ≤ 1/1000000000000 := by norm_num
  obtain ⟨a, ha⟩ : ∃ a, a = w0 ⊟ rnd c := ⟨_, rfl⟩
  have ea := abs_le.mp (rnd_err1 (show |w0 - rnd c| ≤ 700002 by rw [abs_le]; constructor <;> linarith [ec.1, ec.2]) (by norm_num))
  have ea' : a = rnd (w0 - rnd c) := ha
  rw [← ea'] at ea
  have s1 : (700002 : ℚ) / 9007199254740992 ≤ 1/10000000000 := by norm_num
  have a1 : |a - (w0 - c)| ≤ 1/1000000000 := by rw [abs_le]; constructor <;> linarith [ea.1, ea.2, ec.1, ec.2]
  have a1' := abs_le.mp a1
  -- a / p
  have b0 : |a / p| ≤ 300000 := by
    rw [abs_div, abs_of_pos p0, div_le_iff₀ p0]
    have : |a| ≤ 700003 := by rw [abs_le]; constructor <;> linarith [a1'.1, a1'.2]
    linarith [hp.1]
  obtain ⟨b, hb⟩ : ∃ b, b = a ⊘ p := ⟨_, rfl⟩
  have eb := abs_le.mp (rnd_err1 b0 (by norm_num))
  have eb' : b = rnd (a / p) := hb
  rw [← eb'] at eb
  have s2 : (300000 : ℚ) / 9007199254740992 ≤ 1/20000000000 := by norm_num
  -- times q
  have t0 : |w0 / p * q| ≤ 445700 := by
    rw [abs_mul, abs_div, abs_of_pos p0, abs_of_pos q0, div_mul_eq_mul_div, div_le_iff₀ p0]; exact hs
  have t0' := abs_le.mp t0
  have t1 : |b * q - (w0 - c) / p * q| ≤ 1/10000000 := by
    have e : b * q - (w0 - c) / p * q = (b - a / p) * q + (a - (w0 - c)) * (q / p) := by field_simp; ring
    rw [e]
    have u1 : |(b - a / p) * q| ≤ 1/20000000000 * 24 := by
      rw [abs_mul, abs_of_pos q0]
      exact mul_le_mul (by rw [abs_le]; constructor <;> linarith [eb.1, eb.2]) q24 q0.le (by norm_num)
    have u2 : |(a - (w0 - c)) * (q / p)| ≤ 1/1000000000 * 8 := by
      rw [abs_mul, abs_of_nonneg (by positivity : (0 : ℚ) ≤ q / p)]
      refine mul_le_mul a1 ?_ (by positivity) (by norm_num)
      rw [div_le_iff₀ p0]; linarith [hp.1]
    calc _ ≤ |(b - a / p) * q| + |(a - (w0 - c)) * (q / p)| := abs_add_le _ _
      _ ≤ 1/20000000000 * 24 + 1/1000000000 * 8 := by linarith
      _ ≤ 1/10000000 := by norm_num
  have t1' := abs_le.mp t1
  have cp : |c / p * q| ≤ 8 := by
    rw [abs_of_nonneg (by have := hc.1; positivity), div_mul_eq_mul_div, div_le_iff₀ p0]
    have : c * q ≤ 1 * 24 := mul_le_mul hc.2 q24 q0.le (by norm_num)
    linarith [hp.1]
  have cp' := abs_le.mp cp
  have sp : (w0 - c) / p * q = w0 / p * q - c / p * q := by ring
  rw [sp] at t1'
  obtain ⟨x, hx⟩ : ∃ x, x = b ⊠ (q : ℚ) := ⟨_, rfl⟩
  have ex := abs_le.mp (rnd_err1 (show |b * q| ≤ 445709 by rw [abs_le]; constructor <;> linarith [t1'.1, t1'.2, cp'.1, cp'.2]) (by norm_num))
  have ex' : x = rnd (b * q) := hx
  rw [← ex'] at ex
  have s3 : (445709 : ℚ) / 9007199254740992 ≤ 1/10000000000 := by norm_num
  have f1 := Int.floor_le x
  have f2 := Int.lt_floor_add_one x
  obtain ⟨k, hk⟩ : ∃ k, k = ⌊x⌋ := ⟨_, rfl⟩
  rw [← hk] at f1 f2
  have kb : |k| ≤ 446000 := by
    have g1 : (k : ℚ) < 446000 := by linarith [t1'.1, t1'.2, cp'.1, cp'.2, ex.1, ex.2]
    have g2 : (-446000 : ℚ) < k := by linarith [t1'.1, t1'.2, cp'.1, cp'.2, ex.1, ex.2]
    have g1' : k < 446000 := by exact_mod_cast g1
    have g2' : -446000 < k := by exact_mod_cast g2
    rw [abs_le]; omega
  have kb' := abs_le.mp kb
  have kq : |(k : ℚ)| ≤ 446000 := by
    rw [abs_le]; exact ⟨by exact_mod_cast kb'.1, by exact_mod_cast kb'.2⟩
  have pq0 : (0 : ℚ) < p / q := by positivity
  have pq4 : p / q ≤ 4 := by rw [div_le_iff₀ q0]; linarith [hp.2]
  have near : |x * (p / q) - (w0 - c)| ≤ 1/1000 := by
    have e : x * (p / q) - (w0 - c) = (x - (w0 - c) / p * q) * (p / q) := by field_simp
    rw [e, abs_mul, abs_of_pos pq0]
    have : |x - (w0 - c) / p * q| ≤ 1/5000000 := by rw [sp, abs_le]; constructor <;> linarith [t1'.1, t1'.2, ex.1, ex.2]
    calc _ ≤ 1/5000000 * 4 := mul_le_mul this pq4 pq0.le (by norm_num)
      _ ≤ 1/1000 := by norm_num
  have near' := abs_le.mp near
  refine ⟨k, ?_, kb, ?_, ?_, ?_⟩
  · rw [← ha, ← hb, ← hx]; exact int2_eq hk.symm (by omega) (by omega)
  · have : (k : ℚ) * (p / q) ≤ x * (p / q) := mul_le_mul_of_nonneg_right f1 pq0.le
    linarith [near'.2]
  · have : x * (p / q) ≤ (k + 1) * (p / q) := mul_le_mul_of_nonneg_right f2.le pq0.le
    linarith [near'.1]
  · obtain ⟨y, hy⟩ : ∃ y, y = (k : ℚ) ⊠ p := ⟨_, rfl⟩
    have kp : |(k : ℚ) * p| ≤ 3000000 := by
      rw [abs_mul, abs_of_pos p0]
      calc |(k : ℚ)| * p ≤ 446000 * (2 * (31416/10000)) := mul_le_mul kq hp.2 p0.le (by norm_num)
        _ ≤ 3000000 := by norm_num
    have ey := abs_le.mp (rnd_err1 kp (by norm_num))
    have ey' : y = rnd ((k : ℚ) * p) := hy
    rw [← ey'] at ey
    have s4 : (3000000 : ℚ) / 9007199254740992 ≤ 1/2000000000 := by norm_num
    have kp' := abs_le.mp kp
    have yq : |y / q| ≤ 1500001 := by
      rw [abs_div, abs_of_pos q0, div_le_iff₀ q0]
      have : |y| ≤ 3000001 := by rw [abs_le]; constructor <;> linarith [ey.1, ey.2]
      linarith
    have ez := abs_le.mp (rnd_err1 yq (by norm_num))
    have s5 : (1500001 : ℚ) / 9007199254740992 ≤ 1/2000000000 := by norm_num
    have d : |y / q - k * (p / q)| ≤ 1/2000000000 := by
      have e : y / q - k * (p / q) = (y - k * p) / q := by field_simp
      rw [e, abs_div, abs_of_pos q0, div_le_iff₀ q0]
      have : |y - k * p| ≤ 1/2000000000 := by rw [abs_le]; constructor <;> linarith [ey.1, ey.2]
      linarith
    have d' := abs_le.mp d
    rw [← hy]
    unfold fdiv
    rw [abs_le]; constructor <;> linarith [ez.1, ez.2]

/-- the search, from its first event on -/
theorem search_ok {acc : ℚ → ℚ} {n : ℕ} {slack : ℤ} {D : ℤ → ℤ} {names : List String} {off : ℚ} {o : ℤ} {name : ℤ → Option String}
    (hn : n = 4 ∨ n = 24) (ho : 0 ≤ o ∧ o ≤ 30000000) (hoff : |off - (o + 1/100)| ≤ 1/1000000) (hE : EventsOK acc n (slack + 1) D) (hs : 5 ≤ slack ∧ slack ≤ 20)
    (hname : ∀ k : ℤ, |k| ≤ 600000 → ∃ s, cget names ((k + o).tmod n) = some s ∧ name k = some s) (Bd0 Bdn : ℤ) (hB : |Bd0| ≤ 10000000) (hBn : 0 ≤ Bdn ∧ Bdn ≤ 31)
    (k : ℤ) (w : ℚ) (hk : |k| ≤ 446000) (hw : |w - angle n k| ≤ 1/100000000) (h1 : D k < Bd0) (h2 : Bd0 - 50 ≤ D k) (fuel : ℕ) (hf : 15 ≤ fuel) (old : List EventRec) (hl : old.length = 31) :
    ∃ days, eventLoop acc names n off slack Bd0 Bdn fuel w old = some days ∧ EventsRecorded acc n name D Bd0 Bdn old days := by
  have hk' := abs_le.mp hk
  obtain ⟨r, r1, r2, r3⟩ := loop_ok hn ho hoff hE (by omega) hname Bd0 Bdn hB hBn 14 fuel k w old (by omega) (by norm_num) (le_trans hw (by norm_num)) (by omega) (by push_cast; omega)
    (by push_cast; nlinarith [hs.1]) hl
  refine ⟨r, r1, by rw [r2, hl], ?_⟩
  intro i hi
  rw [hl] at hi
  obtain ⟨q1, q2⟩ := r3 i hi
  have early : ∀ k', -600000 ≤ k' → k' < k → D k' < Bd0 := by
    intro k' g1 g2
    have a := gap_mono hE (by omega) (k - k').toNat k' g1 (by omega)
    rw [show k' + ((k - k').toNat : ℤ) = k by omega] at a
    have : 0 ≤ (slack + 1) * ((k - k').toNat : ℤ) := by apply mul_nonneg <;> omega
    omega
  constructor
  · intro k' g1 g2 g3
    have g1' := abs_le.mp g1
    by_cases hlt : k' < k
    · exfalso; have := early k' g1'.1 hlt; omega
    · obtain ⟨x, x1, w', x2, x3, x4, x5⟩ := q1 k' (by omega) g1'.2 g2 g3
      exact ⟨x, w', x1, x2, x3, x4, x5⟩
  · intro h
    refine q2 ?_
    rcases h with h | h
    · exact Or.inl (fun k' g1 g2 => h k' (by rw [abs_le]; omega))
    · exact Or.inr h

theorem off4 : |rnd (400000001/100) - (((4000000 : ℤ) : ℚ) + 1/100)| ≤ 1/1000000 := by decide +kernel
theorem off24 : |rnd (2400000601/100) - (((24000006 : ℤ) : ℚ) + 1/100)| ≤ 1/1000000 := by decide +kernel

/-- C62, moon phases: whatever the fields held before, after the search every day of the month on which a phase falls has that phase's name, moment and clock time, and every
other day is unchanged. -/
theorem c62_phases (acc : ℚ → ℚ) (D : ℤ → ℤ) (hE : EventsOK acc 4 6 D) (w0 : ℚ) (Bd0 Bdn : ℤ) (hB : |Bd0| ≤ 10000000) (hBn : 0 ≤ Bdn ∧ Bdn ≤ 31)
    (hS : StartOK 4 D w0 (77/100) (5/2) Bd0) (fuel : ℕ) (hf : 15 ≤ fuel) (old : List EventRec) (hl : old.length = 31) :
    ∃ days, monthPhases acc w0 Bd0 Bdn fuel old = some days ∧ EventsRecorded acc 4 (fun k => strYxmc[(k % 4).toNat]?) D Bd0 Bdn old days := by
  obtain ⟨p1, p2⟩ := mPi_bounds
  have sz := hS.size
  push_cast at sz
  obtain ⟨k, k1, k2, k3, k4, k5⟩ := start_num w0 (78/100) mPi 2 ⟨p1, by linarith⟩ (by norm_num) (by norm_num) (by push_cast; linarith) (by linarith)
  have ang : angle 4 k = k * (mPi / ((2 : ℕ) : ℚ)) := by unfold angle; push_cast; ring
  push_cast at k1
  have k2' := abs_le.mp k2
  obtain ⟨days, d1, d2⟩ := search_ok (acc := acc) (D := D) (slack := 5) (name := fun k => strYxmc[(k % 4).toNat]?) (names := strYxmc) (Or.inl rfl) (by norm_num) off4 (by simpa using hE) (by norm_num)
    (fun k hk => by
      have hk' := abs_le.mp hk
      have e : (k + 4000000).tmod ((4 : ℕ) : ℤ) = k % 4 := by rw [Int.tmod_eq_emod_of_nonneg (by omega)]; push_cast; omega
      have c : (k % 4).toNat < strYxmc.length := by show _ < 4; omega
      refine ⟨strYxmc[(k % 4).toNat], ?_, List.getElem?_eq_getElem c⟩
      unfold cget
      rw [e, if_pos (by omega)]; exact List.getElem?_eq_getElem c) Bd0 Bdn hB hBn k _ k2 (by rw [ang]; push_cast at k5 ⊢; exact k5)
    (hS.before k (by rw [abs_le]; omega) (by rw [ang]; linarith))
    (hS.recent k (by rw [abs_le]; omega) (by rw [ang]; push_cast at k4 ⊢; linarith)) fuel hf old hl
  refine ⟨days, ?_, d2⟩
  unfold monthPhases
  exact bind_ok k1 d1

/-- C62, solar terms -/
theorem c62_terms (acc : ℚ → ℚ) (D : ℤ → ℤ) (hE : EventsOK acc 24 13 D) (w0 : ℚ) (Bd0 Bdn : ℤ) (hB : |Bd0| ≤ 10000000) (hBn : 0 ≤ Bdn ∧ Bdn ≤ 31)
    (hS : StartOK 24 D w0 (12/100) (1/2) Bd0) (fuel : ℕ) (hf : 15 ≤ fuel) (old : List EventRec) (hl : old.length = 31) :
    ∃ days, monthTerms acc w0 Bd0 Bdn fuel old = some days ∧ EventsRecorded acc 24 (fun k => strJqmc[((k + 6) % 24).toNat]?) D Bd0 Bdn old days := by
  obtain ⟨p1, p2⟩ := mPi_bounds
  have sz := hS.size
  push_cast at sz
  have w0a := abs_nonneg w0
  obtain ⟨k, k1, k2, k3, k4, k5⟩ := start_num w0 (13/100) (2 * mPi) 24 ⟨by linarith, by linarith⟩ (by norm_num) (by norm_num) (by push_cast; linarith) (by linarith)
  have ang : angle 24 k = k * (2 * mPi / ((24 : ℕ) : ℚ)) := rfl
  push_cast at k1
  have k2' := abs_le.mp k2
  obtain ⟨days, d1, d2⟩ := search_ok (acc := acc) (D := D) (slack := 12) (name := fun k => strJqmc[((k + 6) % 24).toNat]?) (names := strJqmc) (Or.inr rfl) (by norm_num) off24 (by simpa using hE) (by norm_num)
    (fun k hk => by
      have hk' := abs_le.mp hk
      have e : (k + 24000006).tmod ((24 : ℕ) : ℤ) = (k + 6) % 24 := by rw [Int.tmod_eq_emod_of_nonneg (by omega)]; push_cast; omega
      have c : ((k + 6) % 24).toNat < strJqmc.length := by show _ < 24; omega
      refine ⟨strJqmc[((k + 6) % 24).toNat], ?_, List.getElem?_eq_getElem c⟩
      unfold cget
      rw [e, if_pos (by omega)]; exact List.getElem?_eq_getElem c) Bd0 Bdn hB hBn k _ k2 (by rw [ang]; exact k5)
    (hS.before k (by rw [abs_le]; omega) (by rw [ang]; linarith))
    (hS.recent k (by rw [abs_le]; omega) (by rw [ang]; push_cast at k4 ⊢; linarith)) fuel hf old hl
  refine ⟨days, ?_, d2⟩
  unfold monthTerms
  rw [pi2_eq]
  refine bind_ok k1 ?_
  push_cast at d1 ⊢
  exact d1

/-! ## The hypotheses can be met -/

/-- a moon with a phase every seven days at six o'clock -/
def weekMoon (w : ℚ) : ℚ := ((7 * ⌊w / (2 * mPi / 4) + 1/2⌋ : ℤ) : ℚ) + 1/4

theorem weekMoon_ok : EventsOK weekMoon 4 6 (fun k => 7 * k) := by
  obtain ⟨p1, p2⟩ := mPi_bounds
  refine ⟨?_, fun k _ => by show 7 * k + 6 ≤ 7 * (k + 1); omega⟩
  intro k hk w hw
  have hw' := abs_le.mp hw
  have hk' := abs_le.mp hk
  unfold angle at hw'
  push_cast at hw'
  have c : (0 : ℚ) < 2 * mPi / 4 := by linarith
  have e : ⌊w / (2 * mPi / 4) + 1/2⌋ = k := by
    have e1 : w / (2 * mPi / 4) = k + (w - k * (2 * mPi / 4)) / (2 * mPi / 4) := by field_simp; ring
    have b1 : (-1/2 : ℚ) ≤ (w - k * (2 * mPi / 4)) / (2 * mPi / 4) := by rw [le_div_iff₀ c]; linarith [hw'.1]
    have b2 : (w - k * (2 * mPi / 4)) / (2 * mPi / 4) < (1/2 : ℚ) := by rw [div_lt_iff₀ c]; linarith [hw'.2]
    rw [Int.floor_eq_iff, e1]
    constructor <;> linarith
  have v : weekMoon w = ((28 * k + 1 : ℤ) : ℚ) / 4 := by unfold weekMoon; rw [e]; push_cast; ring
  have kq1 : (-600000 : ℚ) ≤ k := by exact_mod_cast hk'.1
  have kq2 : (k : ℚ) ≤ 600000 := by exact_mod_cast hk'.2
  constructor
  · rw [v, half_ex]
    unfold fadd
    have r := rnd_dyadic (28 * k + 3) 2 (by norm_num) (by rw [abs_le]; omega)
    rw [show ((28 * k + 1 : ℤ) : ℚ) / 4 + 1/2 = ((28 * k + 3 : ℤ) : ℚ) / 2 ^ 2 by push_cast; ring, r, Int.floor_eq_iff]
    push_cast
    constructor <;> linarith
  · rw [v]; push_cast; rw [abs_le]; constructor <;> linarith

theorem weekMoon_start : StartOK 4 (fun k => 7 * k) 0 (77/100) (5/2) 0 := by
  obtain ⟨p1, p2⟩ := mPi_bounds
  refine ⟨by norm_num, ?_, ?_⟩
  · intro k _ h
    unfold angle at h
    push_cast at h
    show 7 * k < 0
    by_contra hc
    have : (0 : ℚ) ≤ k := by exact_mod_cast (by omega : 0 ≤ k)
    have := mul_nonneg this (by linarith : (0 : ℚ) ≤ 2 * mPi / 4)
    linarith
  · intro k _ h
    unfold angle at h
    push_cast at h
    show 0 - 50 ≤ 7 * k
    by_contra hc
    have : (k : ℚ) ≤ -2 := by exact_mod_cast (by omega : k ≤ -2)
    have := mul_le_mul_of_nonneg_right this (by linarith : (0 : ℚ) ≤ 2 * mPi / 4)
    linarith

/-- its phases in a month of 31 days beginning on day 0: on days 0, 7, 14, 21 and 28 -/
example : (monthPhases weekMoon 0 0 31 15 (List.replicate 31 ⟨"", 0, []⟩)).map (fun l => l.map (fun r => (r.name, r.time))) =
    some ((List.range 31).map (fun i => if i % 7 = 0 then ((["朔","上弦","望","下弦","朔"][i / 7]?).getD "", "18:00:00".toList) else ("", []))) := by decide +kernel

example (old : List EventRec) (hl : old.length = 31) :
    ∃ days, monthPhases weekMoon 0 0 31 15 old = some days ∧ EventsRecorded weekMoon 4 (fun k => strYxmc[(k % 4).toNat]?) (fun k => 7 * k) 0 31 old days :=
  c62_phases weekMoon _ weekMoon_ok 0 0 31 (by norm_num) (by norm_num) weekMoon_start 15 (by norm_num) old hl

end Verif.Lunar
