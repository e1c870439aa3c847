import Verif.Props.Ssq

/-!
# Properties C23, C24: the mean-motion era of the calculator
-/

namespace Verif.Ssq
open Verif.Fp Verif.StrOps

/-! ## rows of the tables -/

/-- no moment of the row, counted in units of 10⁻⁹ day, is exactly half past a day -/
def noHit (X0 K : ℕ) : ℕ → Bool
  | 0 => !((X0 + 500000000) % 1000000000 == 0)
  | n + 1 => !((X0 + K * (n + 1) + 500000000) % 1000000000 == 0) && noHit X0 K n

theorem noHit_spec (X0 K : ℕ) : ∀ N, noHit X0 K N = true → ∀ n, n ≤ N → (X0 + K * n + 500000000) % 1000000000 ≠ 0 := by
  intro N
  induction N with
  | zero =>
    intro h n hn
    have : n = 0 := by omega
    subst this
    simpa [noHit] using h
  | succ N ih =>
    intro h n hn
    simp only [noHit, Bool.and_eq_true] at h
    by_cases he : n = N + 1
    · subst he; simpa using h.1
    · exact ih h.2 n (by omega)

/-- number of periods of a row -/
def periods (b k e : ℚ) : ℕ := (⌊(e - b) / k⌋).toNat + 1

/-- facts about a row that the proofs need -/
structure RowOK (b k e : ℚ) : Prop where
  b0 : 1000000 ≤ b
  be : b + 100 ≤ e
  e1 : e ≤ 2322148
  len : e - b ≤ 135000
  k0 : 15 ≤ k
  k1 : k ≤ 30
  gb : b * 1000000000 = ((b * 1000000000).num.toNat : ℕ)
  gk : k * 1000000000 = ((k * 1000000000).num.toNat : ℕ)
  hit : noHit (b * 1000000000).num.toNat (k * 1000000000).num.toNat (periods b k e) = true

instance (b k e : ℚ) : Decidable (RowOK b k e) :=
  decidable_of_iff (1000000 ≤ b ∧ b + 100 ≤ e ∧ e ≤ 2322148 ∧ e - b ≤ 135000 ∧ 15 ≤ k ∧ k ≤ 30 ∧
    b * 1000000000 = ((b * 1000000000).num.toNat : ℕ) ∧ k * 1000000000 = ((k * 1000000000).num.toNat : ℕ) ∧
    noHit (b * 1000000000).num.toNat (k * 1000000000).num.toNat (periods b k e) = true)
    ⟨fun ⟨h1, h2, h3, h4, h5, h6, h7, h8, h9⟩ => ⟨h1, h2, h3, h4, h5, h6, h7, h8, h9⟩,
     fun ⟨h1, h2, h3, h4, h5, h6, h7, h8, h9⟩ => ⟨h1, h2, h3, h4, h5, h6, h7, h8, h9⟩⟩

/-- all rows of a table -/
def rowsOf : List ℚ → List (ℚ × ℚ × ℚ)
  | b :: k :: e :: t => (b, k, e) :: rowsOf (e :: t)
  | _ => []

theorem rowsOf_mem : ∀ (j : ℕ) (t : List ℚ) (b k e : ℚ), t[2 * j]? = some b → t[2 * j + 1]? = some k → t[2 * j + 2]? = some e → (b, k, e) ∈ rowsOf t := by
  intro j
  induction j with
  | zero =>
    intro t b k e h1 h2 h3
    match t with
    | [] => simp at h1
    | [_] => simp at h2
    | [_, _] => simp at h3
    | x :: y :: z :: t => simp_all [rowsOf]
  | succ j ih =>
    intro t b k e h1 h2 h3
    match t with
    | [] => simp at h1
    | [_] => simp [Nat.mul_add] at h1
    | [_, _] => simp [Nat.mul_add] at h1
    | x :: y :: z :: t =>
      rw [show 2 * (j + 1) = 2 * j + 2 by ring] at h1 h2 h3
      simp only [rowsOf, List.mem_cons]
      right
      exact ih (z :: t) b k e (by simpa using h1) (by simpa using h2) (by simpa using h3)

theorem suo_rows : ∀ r ∈ rowsOf suoKBDec, RowOK r.1 r.2.1 r.2.2 ∧ 29 ≤ r.2.1 := by decide +kernel
theorem qi_rows : ∀ r ∈ rowsOf qiKBDec, RowOK r.1 r.2.1 r.2.2 ∧ r.2.1 ≤ 16 := by decide +kernel

/-! ## arithmetic of a row -/

theorem half_eq : rnd (1/2) = 1/2 := by decide +kernel

set_option maxHeartbeats 1000000 in
theorem row_arith (b k e x : ℚ) (h : RowOK b k e) (hx : rnd b ≤ x) (hxe : x < rnd e) :
    ∃ n : ℕ, n ≤ periods b k e ∧ ⌊(x ⊟ rnd b) ⊘ rnd k⌋ = (n : ℤ) ∧
      b + k * n ≤ x + 1/1000000 ∧ x ≤ b + k * (n + 1) + 1/1000000 ∧
      ⌊(rnd b ⊞ rnd k ⊠ (((n : ℤ)) : ℚ)) ⊞ rnd (1/2)⌋ = ⌊b + k * n + 1/2⌋ := by
  obtain ⟨b0, be, e1, len, k0, k1, gb, gk, hit⟩ := h
  have rb := abs_le.mp (rnd_err1 (show |b| ≤ 2322148 by rw [abs_le]; constructor <;> linarith) (by norm_num))
  have re := abs_le.mp (rnd_err1 (show |e| ≤ 2322148 by rw [abs_le]; constructor <;> linarith) (by norm_num))
  have rk := abs_le.mp (rnd_err1 (show |k| ≤ 30 by rw [abs_le]; constructor <;> linarith) (by norm_num))
  have sb : (2322148 : ℚ) / 9007199254740992 ≤ 26/100000000000 := by norm_num
  have sk : (30 : ℚ) / 9007199254740992 ≤ 1/100000000000000 := by norm_num
  obtain ⟨B, hB⟩ : ∃ B, B = rnd b := ⟨_, rfl⟩
  obtain ⟨K, hK⟩ : ∃ K, K = rnd k := ⟨_, rfl⟩
  rw [← hB] at rb hx ⊢
  rw [← hK] at rk ⊢
  have rb1 : b - 26/100000000000 ≤ B := by linarith [rb.1]
  have rb2 : B ≤ b + 26/100000000000 := by linarith [rb.2]
  have rk1 : k - 1/100000000000000 ≤ K := by linarith [rk.1]
  have rk2 : K ≤ k + 1/100000000000000 := by linarith [rk.2]
  have re2 : rnd e ≤ e + 26/100000000000 := by linarith [re.2]
  clear rb rk re
  have K0 : 0 < K := by linarith
  -- the difference
  have d0 : 0 ≤ x ⊟ B := rnd_nonneg (by linarith)
  have d1 := abs_le.mp (rnd_err1 (show |x - B| ≤ 135001 by rw [abs_le]; constructor <;> linarith) (by norm_num))
  have sd : (135001 : ℚ) / 9007199254740992 ≤ 2/100000000000 := by norm_num
  obtain ⟨d, hd⟩ : ∃ d, d = x ⊟ B := ⟨_, rfl⟩
  rw [← hd] at d0 ⊢
  have hd1 : x - B - 2/100000000000 ≤ d := by rw [hd]; unfold fsub; linarith [d1.1]
  have hd2 : d ≤ x - B + 2/100000000000 := by rw [hd]; unfold fsub; linarith [d1.2]
  clear d1
  -- the quotient
  have dle : d ≤ 135001 := by linarith
  have q0 : 0 ≤ d / K := div_nonneg d0 K0.le
  have q1 : d / K ≤ 10000 := by rw [div_le_iff₀ K0]; linarith
  have q2 := abs_le.mp (rnd_err1 (show |d / K| ≤ 10000 by rw [abs_le]; constructor <;> linarith) (by norm_num))
  have sq : (10000 : ℚ) / 9007199254740992 ≤ 2/1000000000000 := by norm_num
  have q3 : 0 ≤ d ⊘ K := rnd_nonneg q0
  obtain ⟨n, hn⟩ : ∃ n : ℕ, ⌊d ⊘ K⌋ = (n : ℤ) := Int.eq_ofNat_of_zero_le (Int.floor_nonneg.mpr q3)
  have f1 : ((n : ℤ) : ℚ) ≤ d ⊘ K := by rw [← hn]; exact Int.floor_le _
  have f2 : d ⊘ K < ((n : ℤ) : ℚ) + 1 := by rw [← hn]; exact Int.lt_floor_add_one _
  push_cast at f1 f2
  unfold fdiv at f1 f2
  have g1 : (n : ℚ) ≤ d / K + 2/1000000000000 := by linarith [q2.2]
  have g2 : d / K ≤ (n : ℚ) + 1 + 2/1000000000000 := by linarith [q2.1]
  have hq : d / K * K = d := by field_simp
  have n0 : (0 : ℚ) ≤ n := by positivity
  have n1 : (n : ℚ) ≤ 10001 := by linarith
  have p1 : (n : ℚ) * K ≤ d + 7/100000000000 := by
    have := mul_le_mul_of_nonneg_right g1 K0.le
    rw [add_mul, hq] at this; linarith
  have p2 : d ≤ ((n : ℚ) + 1) * K + 7/100000000000 := by
    have := mul_le_mul_of_nonneg_right g2 K0.le
    rw [hq, add_mul] at this; linarith
  have t3 : (n : ℚ) * k ≤ (n : ℚ) * K + 11/100000000000 := by
    have := mul_le_mul_of_nonneg_left (show k ≤ K + 1/100000000000000 by linarith) n0
    rw [mul_add] at this; linarith
  have t3' : (n : ℚ) * K ≤ (n : ℚ) * k + 11/100000000000 := by
    have := mul_le_mul_of_nonneg_left rk2 n0
    rw [mul_add] at this; linarith
  have c1 : b + k * n ≤ x + 1/1000000 := by linarith
  have c2 : x ≤ b + k * (n + 1) + 1/1000000 := by linarith
  have hnp : n ≤ periods b k e := by
    have h1 : ((n : ℚ) - 1) * k ≤ e - b := by linarith
    have k0' : 0 < k := by linarith
    have h2 : (n : ℚ) - 1 ≤ (e - b) / k := by rw [le_div_iff₀ k0']; exact h1
    have h3 : ((n : ℤ) - 1) ≤ ⌊(e - b) / k⌋ := by rw [Int.le_floor]; push_cast; exact h2
    unfold periods
    omega
  refine ⟨n, hnp, hn, c1, c2, ?_⟩
  -- the day
  have hkn : k * n ≤ 135031 := by linarith
  have nk : (0 : ℚ) ≤ n * K := by positivity
  have m1 := abs_le.mp (rnd_err1 (show |K * (n : ℚ)| ≤ 135032 by rw [abs_le]; constructor <;> linarith) (by norm_num))
  have sm : (135032 : ℚ) / 9007199254740992 ≤ 2/100000000000 := by norm_num
  obtain ⟨P, hP⟩ : ∃ P, P = rnd (K * (n : ℚ)) := ⟨_, rfl⟩
  rw [← hP] at m1
  have m2 := abs_le.mp (rnd_err1 (show |B + P| ≤ 2322148 + 100 by rw [abs_le]; constructor <;> linarith [m1.1, m1.2]) (by norm_num))
  have sm2 : (2322148 + 100 : ℚ) / 9007199254740992 ≤ 26/100000000000 := by norm_num
  obtain ⟨S, hS⟩ : ∃ S, S = rnd (B + P) := ⟨_, rfl⟩
  rw [← hS] at m2
  have m3 := abs_le.mp (rnd_err1 (show |S + 1/2| ≤ 2322148 + 200 by rw [abs_le]; constructor <;> linarith [m1.1, m1.2, m2.1, m2.2]) (by norm_num))
  have sm3 : (2322148 + 200 : ℚ) / 9007199254740992 ≤ 26/100000000000 := by norm_num
  have eS : (B ⊞ K ⊠ (((n : ℤ)) : ℚ)) ⊞ rnd (1/2) = rnd (S + 1/2) := by
    rw [half_eq]; unfold fadd fmul; rw [Int.cast_natCast, ← hP, ← hS]
  rw [eS]
  obtain ⟨y, hy⟩ : ∃ y, y = rnd (S + 1/2) := ⟨_, rfl⟩
  rw [← hy] at m3 ⊢
  have y1 : b + k * n + 1/2 - 99/100000000000 ≤ y := by linarith [m1.1, m2.1, m3.1]
  have y2 : y ≤ b + k * n + 1/2 + 99/100000000000 := by linarith [m1.2, m2.2, m3.2]
  -- grid
  have hh := noHit_spec _ _ _ hit n hnp
  obtain ⟨X0, hX0⟩ : ∃ X0, X0 = (b * 1000000000).num.toNat := ⟨_, rfl⟩
  obtain ⟨Kn, hKn⟩ : ∃ Kn, Kn = (k * 1000000000).num.toNat := ⟨_, rfl⟩
  rw [← hX0] at gb hh
  rw [← hKn] at gk hh
  obtain ⟨X, hX⟩ : ∃ X : ℕ, X = X0 + Kn * n + 500000000 := ⟨_, rfl⟩
  rw [← hX] at hh
  have hXq : (b + k * n + 1/2) * 1000000000 = (X : ℚ) := by
    rw [hX]; push_cast; rw [← gb, ← gk]; ring
  have hdiv : 1000000000 * (X / 1000000000) + X % 1000000000 = X := Nat.div_add_mod _ _
  have hm : X % 1000000000 < 1000000000 := Nat.mod_lt _ (by norm_num)
  obtain ⟨D, hD⟩ : ∃ D, D = X / 1000000000 := ⟨_, rfl⟩
  rw [← hD] at hdiv
  have lo : 1000000000 * D + 1 ≤ X := by omega
  have hi : X + 1 ≤ 1000000000 * (D + 1) := by omega
  have loq : (1000000000 : ℚ) * D + 1 ≤ X := by exact_mod_cast lo
  have hiq : (X : ℚ) + 1 ≤ 1000000000 * (D + 1) := by exact_mod_cast hi
  have e2 : ⌊b + k * n + 1/2⌋ = (D : ℤ) := by
    rw [Int.floor_eq_iff]; push_cast; constructor <;> linarith
  have e3 : ⌊y⌋ = (D : ℤ) := by
    rw [Int.floor_eq_iff]; push_cast; constructor <;> linarith
  rw [e2, e3]

/-! ## the row search -/

theorem rowFind_spec (B : List ℚ) (x w : ℚ) (m : ℕ) (hm : B.length = 2 * m + 1) (hw : B[2 * m]? = some w) (hx : x < w) :
    ∀ (f j : ℕ) (v : ℚ), B[2 * j]? = some v → v ≤ x → j ≤ m → m < f + j →
      ∃ j' v' w', rowFind B x f (2 * j) = some (2 * j') ∧ j' < m ∧ B[2 * j']? = some v' ∧ v' ≤ x ∧ B[2 * j' + 2]? = some w' ∧ x < w' := by
  intro f
  induction f with
  | zero => intro j v h1 h2 h3 h4; omega
  | succ f ih =>
    intro j v h1 h2 h3 h4
    have hj : j < m := by
      rcases Nat.lt_or_ge j m with h | h
      · exact h
      · have : j = m := by omega
        subst this
        rw [h1] at hw
        have : v = w := Option.some.inj hw
        linarith
    have hlt : 2 * j + 2 < B.length := by omega
    obtain ⟨u, hu⟩ : ∃ u, B[2 * j + 2]? = some u := ⟨_, List.getElem?_eq_getElem hlt⟩
    unfold rowFind
    rw [if_pos (by omega), hu, Option.bind_eq_bind, Option.bind_some]
    by_cases hxu : x < u
    · rw [if_pos hxu]
      exact ⟨j, v, u, rfl, hj, h1, h2, hu, hxu⟩
    · rw [if_neg hxu, show 2 * j + 2 = 2 * (j + 1) by ring]
      exact ih (j + 1) u (by rw [show 2 * (j + 1) = 2 * j + 2 by ring]; exact hu) (not_lt.mp hxu) (by omega) (by omega)

theorem i32_of_range {z : ℤ} (h1 : -2147483648 ≤ z) (h2 : z ≤ 2147483647) : i32 z = some z := i32_some h1 h2

/-- the mean-motion branch on a good table -/
theorem mean_spec (t : List ℚ) (m : ℕ) (hm : t.length = 2 * m + 1) (hrows : ∀ r ∈ rowsOf t, RowOK r.1 r.2.1 r.2.2)
    (t0 tl : ℚ) (h0 : t[0]? = some t0) (hl : t[2 * m]? = some tl) (pc jd : ℚ)
    (hx0 : rnd t0 ≤ jd ⊞ pc) (hxl : jd ⊞ pc < rnd tl) :
    ∃ b k e, ∃ n : ℕ, IsRow t b k e ∧ n ≤ periods b k e ∧ rnd b ≤ jd ⊞ pc ∧ jd ⊞ pc < rnd e ∧
      b + k * n ≤ (jd ⊞ pc) + 1/1000000 ∧ (jd ⊞ pc) ≤ b + k * (n + 1) + 1/1000000 ∧
      meanBranch (t.map rnd) pc jd = some (meanDay b k n - 2451545) := by
  obtain ⟨x, hx⟩ : ∃ x, x = jd ⊞ pc := ⟨_, rfl⟩
  rw [← hx] at hx0 hxl
  have hget : ∀ (i : ℕ) (v : ℚ), t[i]? = some v → (t.map rnd)[i]? = some (rnd v) := by
    intro i v h; rw [List.getElem?_map, h]; rfl
  have hget' : ∀ (i : ℕ) (v : ℚ), (t.map rnd)[i]? = some v → ∃ u, t[i]? = some u ∧ v = rnd u := by
    intro i v h
    rw [List.getElem?_map] at h
    cases hu : t[i]? with
    | none => rw [hu] at h; simp at h
    | some u => rw [hu] at h; simp at h; exact ⟨u, rfl, h.symm⟩
  obtain ⟨j, v, w, r1, r2, r3, r4, r5, r6⟩ := rowFind_spec (t.map rnd) x (rnd tl) m (by simpa using hm) (hget _ _ hl) hxl
    (2 * m + 2) 0 (rnd t0) (hget 0 t0 h0) hx0 (by omega) (by omega)
  obtain ⟨b, b1, rfl⟩ := hget' _ _ r3
  obtain ⟨e, e1, rfl⟩ := hget' _ _ r5
  have hkl : 2 * j + 1 < t.length := by omega
  obtain ⟨k, k1⟩ : ∃ k, t[2 * j + 1]? = some k := ⟨_, List.getElem?_eq_getElem hkl⟩
  have hrow := hrows _ (rowsOf_mem j t b k e b1 k1 e1)
  obtain ⟨n, n0, n1, n2, n3, n4⟩ := row_arith b k e x hrow r4 r6
  refine ⟨b, k, e, n, ⟨j, b1, k1, e1⟩, n0, ?_, ?_, ?_, ?_, ?_⟩
  · rw [← hx]; exact r4
  · rw [← hx]; exact r6
  · rw [← hx]; exact n2
  · rw [← hx]; exact n3
  · unfold meanBranch
    rw [← hx, List.length_map, hm, r1, Option.bind_eq_bind, Option.bind_some, r3, Option.bind_eq_bind, Option.bind_some, hget _ _ k1, Option.bind_some, n1]
    simp only []
    rw [n4]
    unfold meanDay
    simp only []
    have hDlo : (0 : ℤ) ≤ ⌊b + k * n + 1/2⌋ := by
      apply Int.floor_nonneg.mpr
      have := hrow.b0; have := hrow.k0
      positivity
    have hDhi : ⌊b + k * n + 1/2⌋ ≤ 2400000 := by
      have h1 : ⌊b + k * n + 1/2⌋ ≤ ⌊((2400000 : ℤ) : ℚ)⌋ := by
        apply Int.floor_le_floor
        have re := abs_le.mp (rnd_err1 (show |e| ≤ 2322148 by rw [abs_le]; constructor <;> linarith [hrow.e1, hrow.b0, hrow.be]) (by norm_num))
        have sb : (2322148 : ℚ) / 9007199254740992 ≤ 26/100000000000 := by norm_num
        push_cast
        linarith [re.2, hrow.e1]
      rwa [Int.floor_intCast] at h1
    push_cast
    split_ifs with hD
    · rw [hD]; exact i32_some (by norm_num) (by norm_num)
    · exact i32_some (by omega) (by omega)

/-- the table of the kind of event, its last index, how far the date may be before the event -/
def tableOf (qs : Bool) : List ℚ := if qs then qiKBDec else suoKBDec
def marginOf (qs : Bool) : ℚ := if qs then 7 else 14

theorem first_last (qs : Bool) : ∃ m t0 tl, (tableOf qs).length = 2 * m + 1 ∧ (tableOf qs)[0]? = some t0 ∧ (tableOf qs)[2 * m]? = some tl ∧
    (∀ r ∈ rowsOf (tableOf qs), RowOK r.1 r.2.1 r.2.2) ∧ rnd t0 ⊟ marginOf qs = rnd t0 - marginOf qs ∧ rnd tl ⊟ marginOf qs = rnd tl - marginOf qs ∧
    1000000 ≤ t0 ∧ t0 ≤ 2000000 ∧ 1940000 ≤ tl ∧ tl ≤ 2322148 ∧ tl = if qs then 232214776/100 else 194716800/100 := by
  cases qs with
  | true =>
    refine ⟨35, 1640650479938/1000000, 232214776/100, rfl, rfl, rfl, fun r hr => (qi_rows r hr).1, ?_, ?_, ?_, ?_, ?_, ?_, ?_⟩ <;> decide +kernel
  | false =>
    refine ⟨11, 1457698231017/1000000, 194716800/100, rfl, rfl, rfl, fun r hr => (suo_rows r hr).1, ?_, ?_, ?_, ?_, ?_, ?_, ?_⟩ <;> decide +kernel

/-- C23: in the mean-motion era (a millionth of a day inside its two ends) the result is the day of the linear formula of the
row the date falls in, for the event at most `marginOf` days after the date. -/
theorem c23_mean (E : Series) (so qi : List Char) (jd0 : ℚ) (qs : Bool) (t0 tl : ℚ) (h0 : (tableOf qs).head? = some t0)
    (hl : (tableOf qs).getLast? = some tl) (hx0 : t0 + 1/1000000 ≤ (jd0 ⊞ 2451545) + marginOf qs)
    (hxl : (jd0 ⊞ 2451545) + marginOf qs ≤ tl - 1/1000000) :
    ∃ b k e, ∃ n : ℕ, IsRow (tableOf qs) b k e ∧
      b ≤ (jd0 ⊞ 2451545) + marginOf qs + 1/1000000 ∧ (jd0 ⊞ 2451545) + marginOf qs ≤ e + 1/1000000 ∧
      b + k * n ≤ (jd0 ⊞ 2451545) + marginOf qs + 1/500000 ∧ (jd0 ⊞ 2451545) + marginOf qs ≤ b + k * (n + 1) + 1/500000 ∧
      ssqCalc E so qi jd0 qs = some (meanDay b k n - 2451545) := by
  obtain ⟨m, t0', tl', hm, g0, gl, hrows, ex0, exl, b1, b2, b3, b4, gtl⟩ := first_last qs
  have : t0' = t0 := by
    have : (tableOf qs)[0]? = some t0 := by rw [← List.head?_eq_getElem?]; exact h0
    rw [g0] at this; exact Option.some.inj this
  subst this
  have : tl' = tl := by
    rw [List.getLast?_eq_getElem?, hm] at hl
    rw [show 2 * m + 1 - 1 = 2 * m by omega, gl] at hl; exact Option.some.inj hl
  subst this
  obtain ⟨jd, hjd⟩ : ∃ jd, jd = jd0 ⊞ 2451545 := ⟨_, rfl⟩
  rw [← hjd] at hx0 hxl ⊢
  have hpc : 7 ≤ marginOf qs ∧ marginOf qs ≤ 14 := by cases qs <;> simp [marginOf] <;> norm_num
  obtain ⟨pc, hpcd⟩ : ∃ pc, pc = marginOf qs := ⟨_, rfl⟩
  have r0 := abs_le.mp (rnd_err1 (show |t0'| ≤ 2322148 by rw [abs_le]; constructor <;> linarith) (by norm_num))
  have rl := abs_le.mp (rnd_err1 (show |tl'| ≤ 2322148 by rw [abs_le]; constructor <;> linarith) (by norm_num))
  have rx := abs_le.mp (rnd_err1 (show |jd + marginOf qs| ≤ 2322148 by rw [abs_le]; constructor <;> linarith) (by norm_num))
  have sb : (2322148 : ℚ) / 9007199254740992 ≤ 26/100000000000 := by norm_num
  have u1 : rnd t0' ≤ jd ⊞ marginOf qs := by unfold fadd; linarith [r0.2, rx.1]
  have u2 : jd ⊞ marginOf qs < rnd tl' := by unfold fadd; linarith [rl.1, rx.2]
  obtain ⟨b, k, e, n, a1, a2, a3, a4, a5, a6, a7⟩ := mean_spec (tableOf qs) m hm hrows t0' tl' g0 gl (marginOf qs) jd u1 u2
  have hrow : RowOK b k e := by
    obtain ⟨j, c1, c2, c3⟩ := a1
    exact hrows _ (rowsOf_mem j _ b k e c1 c2 c3)
  have rb := abs_le.mp (rnd_err1 (show |b| ≤ 2322148 by rw [abs_le]; constructor <;> linarith [hrow.b0, hrow.be, hrow.e1]) (by norm_num))
  have re := abs_le.mp (rnd_err1 (show |e| ≤ 2322148 by rw [abs_le]; constructor <;> linarith [hrow.b0, hrow.be, hrow.e1]) (by norm_num))
  have hxe : jd ⊞ marginOf qs = rnd (jd + marginOf qs) := rfl
  rw [hxe] at a3 a4 a5 a6
  refine ⟨b, k, e, n, a1, by linarith [rb.1, rx.2], by linarith [re.2, rx.1], by linarith [rx.2], by linarith [rx.1], ?_⟩
  have hB : (if qs then qiKB else suoKB) = (tableOf qs).map rnd := by cases qs <;> rfl
  have hP : (if qs then (7 : ℚ) else 14) = marginOf qs := by cases qs <;> rfl
  unfold ssqCalc
  rw [← hjd]
  simp only []
  rw [hB, hP, List.length_map, hm, show 2 * m + 1 - 1 = 2 * m by omega]
  have gg0 : ((tableOf qs).map rnd)[0]? = some (rnd t0') := by rw [List.getElem?_map, g0]; rfl
  have ggl : ((tableOf qs).map rnd)[2 * m]? = some (rnd tl') := by rw [List.getElem?_map, gl]; rfl
  rw [gg0, Option.bind_eq_bind, Option.bind_some, ggl, Option.bind_some, ex0, exl]
  have v1 : ¬ (jd < rnd t0' - marginOf qs ∨ jd ≥ 2436935) := by
    rw [not_or]; constructor
    · rw [not_lt]; linarith [r0.2]
    · rw [ge_iff_le, not_le]; linarith
  have v2 : jd ≥ rnd t0' - marginOf qs ∧ jd < rnd tl' - marginOf qs := ⟨by linarith [r0.2], by linarith [rl.1]⟩
  rw [if_neg v1, if_pos v2]
  exact a7

/-! ## C24 -/

theorem IsRow.ok {qs : Bool} {b k e : ℚ} (h : IsRow (tableOf qs) b k e) : RowOK b k e ∧ (if qs then 15 ≤ k ∧ k ≤ 16 else 29 ≤ k ∧ k ≤ 30) := by
  obtain ⟨j, c1, c2, c3⟩ := h
  have hmem := rowsOf_mem j _ b k e c1 c2 c3
  cases qs with
  | true => have := qi_rows _ hmem; exact ⟨this.1, this.1.k0, this.2⟩
  | false => have := suo_rows _ hmem; exact ⟨this.1, this.2, this.1.k1⟩

theorem moved_suo : ∀ r ∈ rowsOf suoKBDec, r.2.2 < 1683450 ∨ 1683470 < r.1 ∨ (r.1 = 1683430509300/1000000 ∧ r.2.1 = 2953086148/100000000) := by decide +kernel
theorem moved_qi : ∀ r ∈ rowsOf qiKBDec, r.2.2 < 1683450 ∨ 1683470 < r.1 ∨ (r.1 = 1683430515601/1000000 ∧ r.2.1 = 15218750011/1000000000) := by decide +kernel

theorem floor_step (x k : ℚ) (a : ℤ) (h1 : (a : ℚ) ≤ k) (h2 : k ≤ a + 1) : ⌊x + k⌋ = ⌊x⌋ + a ∨ ⌊x + k⌋ = ⌊x⌋ + (a + 1) := by
  have f1 := Int.floor_le x
  have f2 := Int.lt_floor_add_one x
  have l : ⌊x⌋ + a ≤ ⌊x + k⌋ := by rw [Int.le_floor]; push_cast; linarith
  have u : ⌊x + k⌋ ≤ ⌊x⌋ + (a + 1) := by
    have : ⌊x + k⌋ < ⌊x⌋ + (a + 1) + 1 := by rw [Int.floor_lt]; push_cast; linarith
    omega
  omega

/-- C24: in every row successive new moons are 29 or 30 days apart and successive terms 15 or 16. -/
theorem c24_steps (qs : Bool) (b k e : ℚ) (hr : IsRow (tableOf qs) b k e) (n : ℕ) (hn : b + k * (n + 1) ≤ e) :
    if qs then meanDay b k (n + 1) - meanDay b k n = 15 ∨ meanDay b k (n + 1) - meanDay b k n = 16
    else meanDay b k (n + 1) - meanDay b k n = 29 ∨ meanDay b k (n + 1) - meanDay b k n = 30 := by
  obtain ⟨ho, hk⟩ := hr.ok
  obtain ⟨j, c1, c2, c3⟩ := hr
  have hmem := rowsOf_mem j _ b k e c1 c2 c3
  have b0 := ho.b0
  have k0 := ho.k0
  have n0 : (0 : ℚ) ≤ n := by positivity
  have kn : 0 ≤ k * n := by positivity
  have ex : b + k * ((n : ℚ) + 1) + 1/2 = (b + k * n + 1/2) + k := by ring
  have away : ∀ x : ℚ, x + 1/2 < 1683460 ∨ 1683461 < x + 1/2 → ⌊x + 1/2⌋ ≠ 1683460 := by
    intro x hx hc
    rw [Int.floor_eq_iff] at hc
    push_cast at hc
    rcases hx with h | h <;> linarith [hc.1, hc.2]
  cases qs with
  | true =>
    simp only [if_true]
    simp only [if_true] at hk
    have hmv := moved_qi _ hmem
    simp only [] at hmv
    have ne : ∀ i : ℕ, b + k * i ≤ e → ⌊b + k * (((i : ℕ) : ℤ) : ℚ) + 1/2⌋ ≠ 1683460 := by
      intro i hi
      have i0 : (0 : ℚ) ≤ i := by positivity
      have ki : 0 ≤ k * i := by positivity
      rw [Int.cast_natCast]
      apply away
      rcases hmv with h | h | ⟨h, h'⟩
      · left; linarith
      · right; linarith
      · rw [h, h']
        rcases Nat.lt_or_ge i 2 with hlt | hge
        · left
          have : (i : ℚ) ≤ 1 := by exact_mod_cast (by omega : i ≤ 1)
          linarith
        · right
          have : (2 : ℚ) ≤ i := by exact_mod_cast hge
          linarith
    have m1 : meanDay b k ((n : ℤ) + 1) = ⌊b + k * ((n : ℚ) + 1) + 1/2⌋ := by
      have := ne (n + 1) (by push_cast; exact hn)
      unfold meanDay
      push_cast at this ⊢
      rw [if_neg this]
    have m2 : meanDay b k (n : ℤ) = ⌊b + k * (n : ℚ) + 1/2⌋ := by
      have := ne n (by linarith)
      unfold meanDay
      push_cast at this ⊢
      rw [if_neg this]
    rw [m1, m2, ex]
    have := floor_step (b + k * n + 1/2) k 15 (by push_cast; exact hk.1) (by push_cast; linarith [hk.2])
    omega
  | false =>
    simp only [Bool.false_eq_true, if_false]
    simp only [Bool.false_eq_true, if_false] at hk
    have hmv := moved_suo _ hmem
    simp only [] at hmv
    have st := floor_step (b + k * n + 1/2) k 29 (by push_cast; exact hk.1) (by push_cast; linarith [hk.2])
    have hother : (¬ (b = 1683430509300/1000000 ∧ k = 2953086148/100000000)) ∨ 3 ≤ n →
        ⌊b + k * (n : ℚ) + 1/2⌋ ≠ 1683460 ∧ ⌊b + k * ((n : ℚ) + 1) + 1/2⌋ ≠ 1683460 := by
      intro hx
      rcases hmv with h | h | ⟨h, h'⟩
      · exact ⟨away _ (Or.inl (by linarith)), away _ (Or.inl (by linarith))⟩
      · exact ⟨away _ (Or.inr (by linarith)), away _ (Or.inr (by linarith))⟩
      · rcases hx with hx | hx
        · exact absurd ⟨h, h'⟩ hx
        · have : (3 : ℚ) ≤ n := by exact_mod_cast hx
          constructor <;> apply away <;> right <;> rw [h, h'] <;> linarith
    have fin : (¬ (b = 1683430509300/1000000 ∧ k = 2953086148/100000000)) ∨ 3 ≤ n →
        meanDay b k (n + 1) - meanDay b k n = 29 ∨ meanDay b k (n + 1) - meanDay b k n = 30 := by
      intro hx
      obtain ⟨h1, h2⟩ := hother hx
      have m1 : meanDay b k ((n : ℤ) + 1) = ⌊b + k * ((n : ℚ) + 1) + 1/2⌋ := by
        unfold meanDay; push_cast; rw [if_neg h2]
      have m2 : meanDay b k (n : ℤ) = ⌊b + k * (n : ℚ) + 1/2⌋ := by
        unfold meanDay; push_cast; rw [if_neg h1]
      rw [m1, m2, ex]
      omega
    by_cases hs : b = 1683430509300/1000000 ∧ k = 2953086148/100000000
    · rcases Nat.lt_or_ge n 3 with hlt | hge
      · rw [hs.1, hs.2]
        have : ∀ i : Fin 3, meanDay (1683430509300/1000000) (2953086148/100000000) ((i.val : ℤ) + 1) - meanDay (1683430509300/1000000) (2953086148/100000000) (i.val : ℤ) = 29 ∨
            meanDay (1683430509300/1000000) (2953086148/100000000) ((i.val : ℤ) + 1) - meanDay (1683430509300/1000000) (2953086148/100000000) (i.val : ℤ) = 30 := by decide +kernel
        exact this ⟨n, hlt⟩
      · exact fin (Or.inr hge)
    · exact fin (Or.inl hs)

/-! ## C23: no undefined read -/

theorem month_tight : |cMonth - 295306/10000| ≤ 1/100000000 := by decide +kernel
theorem year_tight : |cYear - 3652422/10000| ≤ 1/100000000 := by decide +kernel
theorem suo_end : rnd (194716800/100) ⊟ 14 = 1947154 := by decide +kernel
theorem qi_end : |(rnd (232214776/100) ⊟ 7) - 232214076/100| ≤ 1/1000000 := by decide +kernel

/-- the place in the correction string: inside it -/
theorem so_index (jd : ℚ) (h1 : 1947154 ≤ jd) (h2 : jd < 2436935) : ∃ i : ℕ, i < 16598 ∧ int2 ((jd ⊟ 1947154) ⊘ cMonth) = some (i : ℤ) ∧
    295306/10000 * i ≤ jd - 1947154 + 1/1000 ∧ jd - 1947154 ≤ 295306/10000 * (i + 1) + 1/1000 := by
  have hc := abs_le.mp month_tight
  have c0 : 0 < cMonth := by linarith [hc.1]
  have d0 : 0 ≤ jd ⊟ 1947154 := rnd_nonneg (by linarith)
  have d1 : jd ⊟ 1947154 ≤ 489781 := by
    have := rnd_le_int (n := 489781) (q := jd - 1947154) (by norm_num) (by push_cast; linarith)
    unfold fsub; push_cast at this; exact this
  have q0 : 0 ≤ (jd ⊟ 1947154) / cMonth := div_nonneg d0 c0.le
  have q1 : (jd ⊟ 1947154) / cMonth ≤ 16590 := by rw [div_le_iff₀ c0]; linarith [hc.1]
  have f0 : 0 ≤ (jd ⊟ 1947154) ⊘ cMonth := rnd_nonneg q0
  have f1 : (jd ⊟ 1947154) ⊘ cMonth ≤ 16590 := by
    have := rnd_le_int (n := 16590) (q := (jd ⊟ 1947154) / cMonth) (by norm_num) (by push_cast; exact q1)
    unfold fdiv; push_cast at this; exact this
  obtain ⟨i, hi⟩ := Int.eq_ofNat_of_zero_le (Int.floor_nonneg.mpr f0)
  have hi2 : (i : ℤ) ≤ 16590 := by
    rw [← hi]
    have : ⌊(jd ⊟ 1947154) ⊘ cMonth⌋ ≤ ⌊((16590 : ℤ) : ℚ)⌋ := Int.floor_le_floor (by push_cast; exact f1)
    rwa [Int.floor_intCast] at this
  have dd := abs_le.mp (rnd_err1 (show |jd - 1947154| ≤ 489781 by rw [abs_le]; constructor <;> linarith) (by norm_num))
  have sd : (489781 : ℚ) / 9007199254740992 ≤ 1/1000000000 := by norm_num
  have qq := abs_le.mp (rnd_err1 (show |(jd ⊟ 1947154) / cMonth| ≤ 16590 by rw [abs_le]; constructor <;> linarith) (by norm_num))
  have sq : (16590 : ℚ) / 9007199254740992 ≤ 1/10000000000 := by norm_num
  have hfl := Int.floor_le ((jd ⊟ 1947154) ⊘ cMonth)
  have hfu := Int.lt_floor_add_one ((jd ⊟ 1947154) ⊘ cMonth)
  rw [hi] at hfl hfu
  push_cast at hfl hfu
  have hq : (jd ⊟ 1947154) / cMonth * cMonth = jd ⊟ 1947154 := by field_simp
  have g1 : (i : ℚ) ≤ (jd ⊟ 1947154) / cMonth + 1/10000000000 := by
    have : (jd ⊟ 1947154) ⊘ cMonth = rnd ((jd ⊟ 1947154) / cMonth) := rfl
    linarith [qq.2]
  have g2 : (jd ⊟ 1947154) / cMonth ≤ (i : ℚ) + 1 + 1/10000000000 := by
    have : (jd ⊟ 1947154) ⊘ cMonth = rnd ((jd ⊟ 1947154) / cMonth) := rfl
    linarith [qq.1]
  have g1' := mul_le_mul_of_nonneg_right g1 c0.le
  have g2' := mul_le_mul_of_nonneg_right g2 c0.le
  rw [add_mul, hq] at g1'
  rw [hq, add_mul] at g2'
  have hdd : jd ⊟ 1947154 = rnd (jd - 1947154) := rfl
  have i0 : (0 : ℚ) ≤ i := by positivity
  have i1 : (i : ℚ) ≤ 16590 := by exact_mod_cast hi2
  have z1 := mul_le_mul_of_nonneg_left (show (295306/10000 : ℚ) ≤ cMonth + 1/100000000 by linarith [hc.1]) i0
  have z2 := mul_le_mul_of_nonneg_left (show cMonth ≤ 295306/10000 + 1/100000000 by linarith [hc.2]) (show (0 : ℚ) ≤ (i : ℚ) + 1 by linarith)
  refine ⟨i, by omega, ?_, ?_, ?_⟩
  · unfold int2
    rw [hi]
    exact i32_some (by omega) (by push_cast; omega)
  · linarith [dd.2, hc.2]
  · linarith [dd.1, hc.2]

theorem qi_index (f2 jd : ℚ) (hf : |f2 - 232214076/100| ≤ 1/1000000) (h1 : f2 ≤ jd) (h2 : jd < 2436935) :
    ∃ i : ℕ, i < 7567 ∧ int2 ((jd ⊟ f2) ⊘ cYear ⊠ 24) = some (i : ℤ) ∧
    3652422/10000/24 * i ≤ jd - 232214076/100 + 1/1000 ∧ jd - 232214076/100 ≤ 3652422/10000/24 * (i + 1) + 1/1000 := by
  have hc := abs_le.mp year_tight
  have hf' := abs_le.mp hf
  have c0 : 0 < cYear := by linarith [hc.1]
  have d0 : 0 ≤ jd ⊟ f2 := rnd_nonneg (by linarith)
  have d1 : jd ⊟ f2 ≤ 114795 := by
    have := rnd_le_int (n := 114795) (q := jd - f2) (by norm_num) (by push_cast; linarith [hf'.1])
    unfold fsub; push_cast at this; exact this
  have q0 : 0 ≤ (jd ⊟ f2) / cYear := div_nonneg d0 c0.le
  have q1 : (jd ⊟ f2) / cYear ≤ 315 := by rw [div_le_iff₀ c0]; linarith [hc.1]
  have f0 : 0 ≤ (jd ⊟ f2) ⊘ cYear := rnd_nonneg q0
  have f1 : (jd ⊟ f2) ⊘ cYear ≤ 315 := by
    have := rnd_le_int (n := 315) (q := (jd ⊟ f2) / cYear) (by norm_num) (by push_cast; exact q1)
    unfold fdiv; push_cast at this; exact this
  have g0 : 0 ≤ (jd ⊟ f2) ⊘ cYear ⊠ 24 := rnd_nonneg (by positivity)
  have g1 : (jd ⊟ f2) ⊘ cYear ⊠ 24 ≤ 7560 := by
    have := rnd_le_int (n := 7560) (q := (jd ⊟ f2) ⊘ cYear * 24) (by norm_num) (by push_cast; linarith)
    unfold fmul; push_cast at this; exact this
  obtain ⟨i, hi⟩ := Int.eq_ofNat_of_zero_le (Int.floor_nonneg.mpr g0)
  have hi2 : (i : ℤ) ≤ 7560 := by
    rw [← hi]
    have : ⌊(jd ⊟ f2) ⊘ cYear ⊠ 24⌋ ≤ ⌊((7560 : ℤ) : ℚ)⌋ := Int.floor_le_floor (by push_cast; exact g1)
    rwa [Int.floor_intCast] at this
  have dd := abs_le.mp (rnd_err1 (show |jd - f2| ≤ 114795 by rw [abs_le]; constructor <;> linarith) (by norm_num))
  have sd : (114795 : ℚ) / 9007199254740992 ≤ 1/1000000000 := by norm_num
  have qq := abs_le.mp (rnd_err1 (show |(jd ⊟ f2) / cYear| ≤ 315 by rw [abs_le]; constructor <;> linarith) (by norm_num))
  have sq : (315 : ℚ) / 9007199254740992 ≤ 1/10000000000 := by norm_num
  have ff := abs_le.mp (rnd_err1 (show |(jd ⊟ f2) ⊘ cYear * 24| ≤ 7560 by rw [abs_le]; constructor <;> linarith) (by norm_num))
  have sf : (7560 : ℚ) / 9007199254740992 ≤ 1/10000000000 := by norm_num
  have hfl := Int.floor_le ((jd ⊟ f2) ⊘ cYear ⊠ 24)
  have hfu := Int.lt_floor_add_one ((jd ⊟ f2) ⊘ cYear ⊠ 24)
  rw [hi] at hfl hfu
  push_cast at hfl hfu
  have hq : (jd ⊟ f2) / cYear * cYear = jd ⊟ f2 := by field_simp
  have e1 : (jd ⊟ f2) ⊘ cYear = rnd ((jd ⊟ f2) / cYear) := rfl
  have e2 : (jd ⊟ f2) ⊘ cYear ⊠ 24 = rnd ((jd ⊟ f2) ⊘ cYear * 24) := rfl
  have g1 : (i : ℚ) / 24 ≤ (jd ⊟ f2) / cYear + 1/1000000000 := by linarith [qq.2, ff.2]
  have g2 : (jd ⊟ f2) / cYear ≤ ((i : ℚ) + 1) / 24 + 1/1000000000 := by linarith [qq.1, ff.1]
  have g1' := mul_le_mul_of_nonneg_right g1 c0.le
  have g2' := mul_le_mul_of_nonneg_right g2 c0.le
  rw [add_mul, hq] at g1'
  rw [hq, add_mul] at g2'
  have hdd : jd ⊟ f2 = rnd (jd - f2) := rfl
  have i0 : (0 : ℚ) ≤ (i : ℚ) / 24 := by positivity
  have i1 : (i : ℚ) ≤ 7560 := by exact_mod_cast hi2
  have z1 := mul_le_mul_of_nonneg_left (show (3652422/10000 : ℚ) ≤ cYear + 1/100000000 by linarith [hc.1]) i0
  have z2 := mul_le_mul_of_nonneg_left (show cYear ≤ 3652422/10000 + 1/100000000 by linarith [hc.2]) (show (0 : ℚ) ≤ ((i : ℚ) + 1) / 24 by linarith)
  refine ⟨i, by omega, ?_, ?_, ?_⟩
  · unfold int2
    rw [hi]
    exact i32_some (by omega) (by push_cast; omega)
  · linarith [dd.2, hc.2, hf'.1]
  · linarith [dd.1, hc.2, hf'.2]

theorem near_floor (x : ℚ) (hx : |x| ≤ 2000000000) : -2000000001 ≤ ⌊x ⊞ rnd (1/2)⌋ ∧ ⌊x ⊞ rnd (1/2)⌋ ≤ 2000000001 := by
  have hx' := abs_le.mp hx
  rw [half_eq]
  have u : x ⊞ 1/2 ≤ 2000000001 := by
    have := rnd_le_int (n := 2000000001) (q := x + 1/2) (by norm_num) (by push_cast; linarith [hx'.2])
    unfold fadd; push_cast at this; exact this
  have l : -2000000001 ≤ x ⊞ 1/2 := by
    have := rnd_int_le (n := -2000000001) (q := x + 1/2) (by norm_num) (by push_cast; linarith [hx'.1])
    unfold fadd; push_cast at this; exact this
  constructor
  · rw [Int.le_floor]; push_cast; exact l
  · have : ⌊x ⊞ 1/2⌋ ≤ ⌊((2000000001 : ℤ) : ℚ)⌋ := Int.floor_le_floor (by push_cast; exact u)
    rwa [Int.floor_intCast] at this

theorem low_defined (E : Series) (str : List Char) (f2 jd : ℚ) (qs : Bool) (hE : ∀ W, |E.qiLow W| ≤ 2000000000 ∧ |E.soLow W| ≤ 2000000000)
    (i : ℕ) (hi : i < str.length) (he : (if qs then int2 ((jd ⊟ f2) ⊘ cYear ⊠ 24) else int2 ((jd ⊟ f2) ⊘ cMonth)) = some (i : ℤ)) :
    ∃ D : ℤ, ∃ c : Char, str[i]? = some c ∧ D = (if qs then ⌊E.qiLow (qiArg jd) ⊞ rnd (1/2)⌋ else ⌊E.soLow (soArg jd) ⊞ rnd (1/2)⌋) ∧
      lowBranch E str f2 jd qs = some (if c = '1' then D + 1 else if c = '2' then D - 1 else D) := by
  obtain ⟨c, hc⟩ : ∃ c, str[i]? = some c := ⟨_, List.getElem?_eq_getElem hi⟩
  refine ⟨_, c, hc, rfl, ?_⟩
  unfold lowBranch
  simp only []
  rw [he, Option.bind_eq_bind, Option.bind_some]
  have hd : digit str (i : ℤ) = some c := by
    unfold digit
    rw [if_pos (by omega), Int.toNat_natCast, List.getElem?_append_left hi, hc]
  rw [hd]
  simp only [Option.bind_eq_bind, Option.bind_some]
  have hb : ∀ D : ℤ, D = (if qs then ⌊E.qiLow (qiArg jd) ⊞ rnd (1/2)⌋ else ⌊E.soLow (soArg jd) ⊞ rnd (1/2)⌋) → -2000000001 ≤ D ∧ D ≤ 2000000001 := by
    intro D hD
    cases qs with
    | true => rw [hD, if_pos rfl]; exact near_floor _ (hE _).1
    | false => rw [hD, if_neg (by decide)]; exact near_floor _ (hE _).2
  obtain ⟨D, hD⟩ : ∃ D : ℤ, D = (if qs then ⌊E.qiLow (qiArg jd) ⊞ rnd (1/2)⌋ else ⌊E.soLow (soArg jd) ⊞ rnd (1/2)⌋) := ⟨_, rfl⟩
  have := hb D hD
  rw [← hD]
  split_ifs
  · exact i32_some (by omega) (by omega)
  · exact i32_some (by omega) (by omega)
  · exact i32_some (by omega) (by omega)

/-- near the end of the table the sum of date and margin is exact -/
theorem end_exact (qs : Bool) (tl : ℚ) (htl : tl = if qs then 232214776/100 else 194716800/100) (jd : ℚ) (hd : IsDouble jd)
    (h : jd + marginOf qs < rnd tl) : jd ⊞ marginOf qs < rnd tl := by
  have hpc : 7 ≤ marginOf qs ∧ marginOf qs ≤ 14 := by cases qs <;> simp [marginOf] <;> norm_num
  have ht : 1940000 ≤ tl ∧ tl ≤ 2322148 := by cases qs <;> simp [htl] <;> norm_num
  have rl := abs_le.mp (rnd_err1 (show |tl| ≤ 2322148 by rw [abs_le]; constructor <;> linarith [ht.1, ht.2]) (by norm_num))
  have sb : (2322148 : ℚ) / 9007199254740992 ≤ 26/100000000000 := by norm_num
  by_cases hc : jd + marginOf qs ≤ tl - 1
  · by_cases hp : 0 ≤ jd + marginOf qs
    · have rx := abs_le.mp (rnd_err1 (show |jd + marginOf qs| ≤ 2322148 by rw [abs_le]; constructor <;> linarith [ht.2]) (by norm_num))
      unfold fadd
      linarith [rx.2, rl.1]
    · have : jd ⊞ marginOf qs ≤ 0 := by
        have := rnd_le_int (n := 0) (q := jd + marginOf qs) (by norm_num) (by push_cast; linarith)
        unfold fadd; push_cast at this; exact this
      linarith [rl.1, ht.1]
  · rw [not_le] at hc
    have hex : jd ⊞ marginOf qs = jd + marginOf qs := by
      cases qs with
      | true =>
        simp only [if_true] at htl
        obtain ⟨k, hk⟩ := hd.multiple (-31) (by
          rw [abs_of_nonneg (by linarith [hpc.2, ht.1])]
          have : (2 : ℚ) ^ ((-31 : ℤ) + 52) = 2097152 := by norm_num
          rw [this]; linarith [hpc.2])
        have e7 : jd + marginOf true = ((k + 7 * 2147483648 : ℤ) : ℚ) * (2 : ℚ) ^ (-31 : ℤ) := by
          rw [hk]; push_cast; unfold marginOf; norm_num; ring
        refine rnd_exact (k + 7 * 2147483648) (-31) (by norm_num) ?_ e7
        have hkq : ((k + 7 * 2147483648 : ℤ) : ℚ) = (jd + marginOf true) * 2147483648 := by rw [e7]; norm_num; ring
        have b1 : ((k + 7 * 2147483648 : ℤ) : ℚ) ≤ ((2 ^ 53 : ℤ) : ℚ) := by rw [hkq]; push_cast; linarith [rl.2, ht.2]
        have b2 : ((-(2 ^ 53) : ℤ) : ℚ) ≤ ((k + 7 * 2147483648 : ℤ) : ℚ) := by rw [hkq]; push_cast; linarith [hc, ht.1]
        rw [abs_le]
        exact ⟨by exact_mod_cast b2, by exact_mod_cast b1⟩
      | false =>
        simp only [Bool.false_eq_true, if_false] at htl
        obtain ⟨k, hk⟩ := hd.multiple (-32) (by
          rw [abs_of_nonneg (by linarith [hpc.2, ht.1])]
          have : (2 : ℚ) ^ ((-32 : ℤ) + 52) = 1048576 := by norm_num
          rw [this]; linarith [hpc.2])
        have e7 : jd + marginOf false = ((k + 14 * 4294967296 : ℤ) : ℚ) * (2 : ℚ) ^ (-32 : ℤ) := by
          rw [hk]; push_cast; unfold marginOf; norm_num; ring
        refine rnd_exact (k + 14 * 4294967296) (-32) (by norm_num) ?_ e7
        have hkq : ((k + 14 * 4294967296 : ℤ) : ℚ) = (jd + marginOf false) * 4294967296 := by rw [e7]; norm_num; ring
        have b1 : ((k + 14 * 4294967296 : ℤ) : ℚ) ≤ ((2 ^ 53 : ℤ) : ℚ) := by rw [hkq]; push_cast; linarith [rl.2, htl]
        have b2 : ((-(2 ^ 53) : ℤ) : ℚ) ≤ ((k + 14 * 4294967296 : ℤ) : ℚ) := by rw [hkq]; push_cast; linarith [hc, ht.1]
        rw [abs_le]
        exact ⟨by exact_mod_cast b2, by exact_mod_cast b1⟩
    rw [hex]; exact h

/-- C23: for every date the calculation reads no table outside its bounds and is defined, provided the series give days that fit
in an int. -/
theorem c23_defined (E : Series) (hE : ∀ W, |E.qiLow W| ≤ 2000000000 ∧ |E.soLow W| ≤ 2000000000 ∧ |E.qiHigh W| ≤ 2000000000 ∧ |E.soHigh W| ≤ 2000000000)
    (so qi : List Char) (hso : jieya (chars suoS) = some so) (hqi : jieya (chars qiS) = some qi) (jd0 : ℚ) (qs : Bool) :
    ∃ d, ssqCalc E so qi jd0 qs = some d := by
  have lso : so.length = 16598 := by
    have := (c22_jieya _ suo_alphabet).1
    rw [hso] at this; rw [Option.some.inj this]; exact suo_length
  have lqi : qi.length = 7567 := by
    have := (c22_jieya _ qi_alphabet).1
    rw [hqi] at this; rw [Option.some.inj this]; exact qi_length
  obtain ⟨m, t0, tl, hm, g0, gl, hrows, ex0, exl, b1, b2, b3, b4, gtl⟩ := first_last qs
  obtain ⟨jd, hjd⟩ : ∃ jd, jd = jd0 ⊞ 2451545 := ⟨_, rfl⟩
  have hB : (if qs then qiKB else suoKB) = (tableOf qs).map rnd := by cases qs <;> rfl
  have hP : (if qs then (7 : ℚ) else 14) = marginOf qs := by cases qs <;> rfl
  have gg0 : ((tableOf qs).map rnd)[0]? = some (rnd t0) := by rw [List.getElem?_map, g0]; rfl
  have ggl : ((tableOf qs).map rnd)[2 * m]? = some (rnd tl) := by rw [List.getElem?_map, gl]; rfl
  unfold ssqCalc
  rw [← hjd]
  simp only []
  rw [hB, hP, List.length_map, hm, show 2 * m + 1 - 1 = 2 * m by omega, gg0, Option.bind_eq_bind, Option.bind_some, ggl, Option.bind_some]
  split_ifs with k1 k2 k3 k4 k5
  · have := near_floor _ (hE (qiArg jd)).2.2.1
    exact ⟨_, i32_some (by omega) (by omega)⟩
  · have := near_floor _ (hE (soArg jd)).2.2.2
    exact ⟨_, i32_some (by omega) (by omega)⟩
  · have dj : IsDouble jd := by rw [hjd]; exact rnd_isDouble _
    have u1 : rnd t0 ≤ jd ⊞ marginOf qs := by
      rw [ex0] at k3
      exact le_rnd_of_double (rnd_isDouble t0) (by linarith [k3.1])
    have u2 : jd ⊞ marginOf qs < rnd tl := by
      rw [exl] at k3
      exact end_exact qs tl gtl jd dj (by linarith [k3.2])
    obtain ⟨b, k, e, n, a1, a2, a3, a4, a5, a6, a7⟩ := mean_spec (tableOf qs) m hm hrows t0 tl g0 gl (marginOf qs) jd u1 u2
    exact ⟨_, a7⟩
  · have hq' : qs = true := k5
    subst hq'
    have hE' : ∀ W, |E.qiLow W| ≤ 2000000000 ∧ |E.soLow W| ≤ 2000000000 := fun W => ⟨(hE W).1, (hE W).2.1⟩
    rw [if_pos rfl] at gtl
    obtain ⟨i, hi, he, -, -⟩ := qi_index (rnd tl ⊟ marginOf true) jd (by rw [gtl]; exact qi_end) k4.1 k4.2
    obtain ⟨D, c, -, -, e⟩ := low_defined E qi (rnd tl ⊟ marginOf true) jd true hE' i (by omega) (by rw [if_pos rfl]; exact he)
    exact ⟨_, e⟩
  · have hq' : qs = false := by simpa using k5
    subst hq'
    have hE' : ∀ W, |E.qiLow W| ≤ 2000000000 ∧ |E.soLow W| ≤ 2000000000 := fun W => ⟨(hE W).1, (hE W).2.1⟩
    rw [if_neg (by decide)] at gtl
    have hf2 : rnd tl ⊟ marginOf false = 1947154 := by rw [gtl]; exact suo_end
    rw [hf2] at k4 ⊢
    obtain ⟨i, hi, he, -, -⟩ := so_index jd k4.1 k4.2
    obtain ⟨D, c, -, -, e⟩ := low_defined E so 1947154 jd false hE' i (by omega) (by rw [if_neg (by decide)]; exact he)
    exact ⟨_, e⟩
  · exact ⟨0, rfl⟩

/-- C23: from the end of the mean-motion era to 1960 the result is the series' day moved by the digit of the correction table for the
interval the date falls in (1 = a day later, 2 = a day earlier).  Dates a thousandth of a day inside the era. -/
theorem c23_corrected (E : Series) (hE : ∀ W, |E.qiLow W| ≤ 2000000000 ∧ |E.soLow W| ≤ 2000000000)
    (so qi : List Char) (hso : jieya (chars suoS) = some so) (hqi : jieya (chars qiS) = some qi) (jd0 : ℚ) (qs : Bool)
    (h1 : (if qs then 232214776/100 - 7 else 1947168 - 14) + 1/1000 ≤ jd0 ⊞ 2451545) (h2 : jd0 ⊞ 2451545 < 2436935) :
    ∃ (i : ℕ) (c : Char), (if qs then qi else so)[i]? = some c ∧
      (if qs then 3652422/10000/24 * (i : ℚ) ≤ (jd0 ⊞ 2451545) + 7 - 232214776/100 + 1/1000 ∧ (jd0 ⊞ 2451545) + 7 - 232214776/100 ≤ 3652422/10000/24 * ((i : ℚ) + 1) + 1/1000
       else 295306/10000 * (i : ℚ) ≤ (jd0 ⊞ 2451545) + 14 - 1947168 + 1/1000 ∧ (jd0 ⊞ 2451545) + 14 - 1947168 ≤ 295306/10000 * ((i : ℚ) + 1) + 1/1000) ∧
      ssqCalc E so qi jd0 qs = some ((if qs then ⌊E.qiLow (qiArg (jd0 ⊞ 2451545)) ⊞ rnd (1/2)⌋ else ⌊E.soLow (soArg (jd0 ⊞ 2451545)) ⊞ rnd (1/2)⌋) +
        (if c = '1' then 1 else if c = '2' then -1 else 0)) := by
  have lso : so.length = 16598 := by
    have := (c22_jieya _ suo_alphabet).1
    rw [hso] at this; rw [Option.some.inj this]; exact suo_length
  have lqi : qi.length = 7567 := by
    have := (c22_jieya _ qi_alphabet).1
    rw [hqi] at this; rw [Option.some.inj this]; exact qi_length
  obtain ⟨m, t0, tl, hm, g0, gl, hrows, ex0, exl, b1, b2, b3, b4, gtl⟩ := first_last qs
  obtain ⟨jd, hjd⟩ : ∃ jd, jd = jd0 ⊞ 2451545 := ⟨_, rfl⟩
  rw [← hjd] at h1 h2 ⊢
  have hB : (if qs then qiKB else suoKB) = (tableOf qs).map rnd := by cases qs <;> rfl
  have hP : (if qs then (7 : ℚ) else 14) = marginOf qs := by cases qs <;> rfl
  have gg0 : ((tableOf qs).map rnd)[0]? = some (rnd t0) := by rw [List.getElem?_map, g0]; rfl
  have ggl : ((tableOf qs).map rnd)[2 * m]? = some (rnd tl) := by rw [List.getElem?_map, gl]; rfl
  have r0 := abs_le.mp (rnd_err1 (show |t0| ≤ 2322148 by rw [abs_le]; constructor <;> linarith) (by norm_num))
  have rl := abs_le.mp (rnd_err1 (show |tl| ≤ 2322148 by rw [abs_le]; constructor <;> linarith) (by norm_num))
  have sb : (2322148 : ℚ) / 9007199254740992 ≤ 26/100000000000 := by norm_num
  have hstart : (if qs then (232214776/100 - 7 : ℚ) else 1947168 - 14) = tl - marginOf qs := by
    rw [gtl]; cases qs <;> simp [marginOf] <;> norm_num
  rw [hstart] at h1
  have hpc : 7 ≤ marginOf qs ∧ marginOf qs ≤ 14 := by cases qs <;> simp [marginOf] <;> norm_num
  have v1 : ¬ (jd < rnd t0 - marginOf qs ∨ jd ≥ 2436935) := by
    rw [not_or]; constructor
    · rw [not_lt]
      have : t0 ≤ tl := by
        have := (hrows _ (rowsOf_mem 0 _ t0 _ _ g0 (List.getElem?_eq_getElem (by
          cases qs <;> decide)) (List.getElem?_eq_getElem (by cases qs <;> decide)))).be
        cases qs with
        | true => simp only [if_true] at gtl; rw [gtl]; linarith
        | false =>
          have : t0 = 1457698231017/1000000 := by
            have : (tableOf false)[0]? = some (1457698231017/1000000) := rfl
            rw [g0] at this; exact Option.some.inj this
          linarith
      linarith [r0.2]
    · rw [ge_iff_le, not_le]; exact h2
  have v2 : ¬ (jd ≥ rnd t0 - marginOf qs ∧ jd < rnd tl - marginOf qs) := by
    rintro ⟨-, h⟩; linarith [rl.2]
  have v3 : jd ≥ rnd tl - marginOf qs ∧ jd < 2436935 := ⟨by linarith [rl.2], h2⟩
  unfold ssqCalc
  rw [← hjd]
  simp only []
  rw [hB, hP, List.length_map, hm, show 2 * m + 1 - 1 = 2 * m by omega, gg0, Option.bind_eq_bind, Option.bind_some, ggl, Option.bind_some,
    ex0, exl, if_neg v1, if_neg v2, if_pos v3]
  have addif : ∀ (D : ℤ) (c : Char), (if c = '1' then D + 1 else if c = '2' then D - 1 else D) = D + (if c = '1' then 1 else if c = '2' then -1 else 0) := by
    intro D c; split_ifs <;> ring
  cases qs with
  | true =>
    simp only [if_true] at gtl ⊢
    rw [← exl] at v3 ⊢
    obtain ⟨i, hi, he, p1, p2⟩ := qi_index (rnd tl ⊟ marginOf true) jd (by rw [gtl]; exact qi_end) v3.1 v3.2
    obtain ⟨D, c, hc, hD, e⟩ := low_defined E qi (rnd tl ⊟ marginOf true) jd true hE i (by omega) (by rw [if_pos rfl]; exact he)
    refine ⟨i, c, hc, ⟨by linarith, by linarith⟩, ?_⟩
    rw [e, addif, hD]; rfl
  | false =>
    simp only [Bool.false_eq_true, if_false] at gtl ⊢
    rw [← exl] at v3 ⊢
    have hf2 : rnd tl ⊟ marginOf false = 1947154 := by rw [gtl]; exact suo_end
    rw [hf2] at v3 ⊢
    obtain ⟨i, hi, he, p1, p2⟩ := so_index jd v3.1 v3.2
    obtain ⟨D, c, hc, hD, e⟩ := low_defined E so 1947154 jd false hE i (by omega) (by rw [if_neg (by decide)]; exact he)
    refine ⟨i, c, hc, ⟨by linarith, by linarith⟩, ?_⟩
    rw [e, addif, hD]; rfl

/-- hypotheses met: a date in 90 BC for both tables, one in 1800 -/
example (E : Series) (so qi : List Char) :=
  c23_mean E so qi (-763000) false (1457698231017/1000000) (194716800/100) rfl rfl (by decide +kernel) (by decide +kernel)

/-- the moved day -/
example : meanBranch suoKB 14 1683448 = some (1683461 - 2451545) := by decide +kernel

example (E : Series) (hE : ∀ W, |E.qiLow W| ≤ 2000000000 ∧ |E.soLow W| ≤ 2000000000) (so qi : List Char)
    (hso : jieya (chars suoS) = some so) (hqi : jieya (chars qiS) = some qi) :=
  c23_corrected E hE so qi hso hqi (-73000) true (by decide +kernel) (by decide +kernel)

end Verif.Ssq
