import Verif.Grisu
import Mathlib.Tactic.Ring
import Mathlib.Tactic.Linarith
import Mathlib.Tactic.LinearCombination

/-!
# The digit loops of `DigitGen`: what they leave in the buffer (for C29, C59)
-/

namespace Verif.Grisu

/-- the number whose decimal digits are in the buffer -/
def val (b : List ℤ) : ℤ := b.foldl (fun a d => 10 * a + d) 0

theorem val_snoc (b : List ℤ) (d : ℤ) : val (b ++ [d]) = 10 * val b + d := by
  unfold val
  rw [List.foldl_append]
  rfl

/-- decimal digits without a leading zero -/
def DigOK (b : List ℤ) : Prop := (∀ d ∈ b, 0 ≤ d ∧ d ≤ 9) ∧ b.head? ≠ some 0

theorem val_nonneg {b : List ℤ} (h : ∀ d ∈ b, 0 ≤ d ∧ d ≤ 9) : 0 ≤ val b := by
  induction b using List.reverseRecOn with
  | nil => exact le_refl _
  | append_singleton b d ih =>
    rw [val_snoc]
    have := ih (fun x hx => h x (List.mem_append_left _ hx))
    have := h d (by simp)
    omega

theorem val_ge {b : List ℤ} (h : DigOK b) (h0 : b ≠ []) : (10:ℤ) ^ (b.length - 1) ≤ val b := by
  induction b using List.reverseRecOn with
  | nil => exact absurd rfl h0
  | append_singleton b d ih =>
    rw [val_snoc]
    have hd := h.1 d (by simp)
    by_cases hb : b = []
    · subst hb
      have h2 := h.2
      simp only [List.nil_append, List.head?_cons, ne_eq, Option.some.injEq] at h2
      simp [val]
      omega
    · have hok : DigOK b := by
        refine ⟨fun x hx => h.1 x (List.mem_append_left _ hx), ?_⟩
        have h2 := h.2
        rwa [List.head?_append_of_ne_nil _ hb] at h2
      have := ih hok hb
      have hl : 1 ≤ b.length := by
        cases b with
        | nil => exact absurd rfl hb
        | cons => simp
      rw [List.length_append, List.length_singleton, show b.length + 1 - 1 = (b.length - 1) + 1 by omega, pow_succ]
      linarith

/-- storing one more digit -/
def pushD (b : List ℤ) (d : ℕ) : List ℤ := if d ≠ 0 ∨ b ≠ [] then b ++ [(d : ℤ)] else b

theorem pushD_val (b : List ℤ) (d : ℕ) : val (pushD b d) = 10 * val b + d := by
  unfold pushD
  split
  · rw [val_snoc]
  · rename_i h
    push Not at h
    obtain ⟨rfl, rfl⟩ := h
    rfl

theorem DigOK_snoc {b : List ℤ} {d : ℤ} (h : DigOK b) (h1 : 0 ≤ d) (h2 : d ≤ 9) (h3 : d ≠ 0 ∨ b ≠ []) : DigOK (b ++ [d]) := by
  constructor
  · intro x hx
    rcases List.mem_append.mp hx with hx | hx
    · exact h.1 x hx
    · rw [List.mem_singleton] at hx
      subst hx; exact ⟨h1, h2⟩
  · by_cases hb : b = []
    · subst hb
      simp only [List.nil_append, List.head?_cons, ne_eq, Option.some.injEq]
      exact h3.resolve_right (by simp)
    · rw [List.head?_append_of_ne_nil _ hb]
      exact h.2

theorem pushD_ok {b : List ℤ} {d : ℕ} (h : DigOK b) (h2 : d ≤ 9) : DigOK (pushD b d) := by
  unfold pushD
  split
  · rename_i h3
    exact DigOK_snoc h (by omega) (by omega) (h3.imp (fun h => by exact_mod_cast h) id)
  · exact h

theorem decLast_snoc (b : List ℤ) (d : ℤ) : decLast (b ++ [d]) = b ++ [d - 1] := by
  unfold decLast
  simp

theorem u64_small {n : ℕ} (h : n < 2^64) : u64 n = n := Nat.mod_eq_of_lt h

/-- the rounding loop lowers the last digit by some `j` that keeps the remainder within `delta` -/
theorem grisuRound_spec (delta tk wpw : ℕ) (hdl : delta < 2^64) (htk : 1 ≤ tk) : ∀ (fuel rest : ℕ) (b : List ℤ) (d : ℤ),
    rest ≤ delta → delta - rest < fuel →
    ∃ j : ℕ, grisuRound fuel (b ++ [d]) delta rest tk wpw = some (b ++ [d - j]) ∧ rest + j * tk ≤ delta := by
  intro fuel
  induction fuel with
  | zero => intro rest b d _ h; omega
  | succ fuel ih =>
    intro rest b d hr hf
    rw [grisuRound]
    split
    · rename_i hc
      obtain ⟨hc1, hc2, hc3⟩ := hc
      have e1 : sub64 delta rest = delta - rest := by
        unfold sub64 u64
        rw [show delta + 2^64 - rest = (delta - rest) + 2^64 by omega, Nat.add_mod_right]
        exact Nat.mod_eq_of_lt (by omega)
      rw [e1] at hc2
      have e2 : u64 (rest + tk) = rest + tk := u64_small (by omega)
      rw [e2, decLast_snoc]
      obtain ⟨j, hj1, hj2⟩ := ih (rest + tk) b (d - 1) (by omega) (by omega)
      refine ⟨j + 1, ?_, ?_⟩
      · rw [hj1]; congr 3; push_cast; ring
      · rw [Nat.add_mul]; omega
    · refine ⟨0, ?_, ?_⟩
      · simp
      · omega

/-- the buffer holds the digits of a number `val b · u` in `[M - δ, M]`, and the last digit was needed -/
structure Final (b : List ℤ) (u δ M : ℕ) : Prop where
  ok : DigOK b
  ne : b ≠ []
  le : val b * u ≤ M
  ge : (M:ℤ) ≤ val b * u + δ
  short : b.length ≤ 1 ∨ 10 ^ (b.length - 2) * δ < M

/-- one stop of either loop: `M = val b · (10 u) + d · u + rest`, `rest ≤ δ ≤ d · u + rest` -/
theorem stop_final {b b' : List ℤ} {d u rest δ M j : ℕ} (h : DigOK b) (hd : d ≤ 9) (hM : (M:ℤ) = (10 * val b + d) * u + rest)
    (h1 : δ ≤ d * u + rest) (h2 : rest + j * u ≤ δ) (hlt : δ < M) (hu : 0 < u) (hru : d * u + rest < 10 * u)
    (hb' : b' = b ++ [(d:ℤ) - j]) : Final b' u δ M := by
  have hjd : j ≤ d := by
    by_contra hc
    have : d * u + u ≤ j * u := by nlinarith
    omega
  have hv : val b' = 10 * val b + d - j := by rw [hb', val_snoc]; ring
  have hge : (M:ℤ) ≤ val b' * u + δ := by
    rw [hv, hM]
    have : ((rest + j * u : ℕ) : ℤ) ≤ (δ:ℤ) := by exact_mod_cast h2
    push_cast at this
    nlinarith
  have hne : (d:ℤ) - j ≠ 0 ∨ b ≠ [] := by
    by_contra hc
    push Not at hc
    obtain ⟨c1, c2⟩ := hc
    have : val b' = 0 := by
      rw [hv, c2]
      have : val [] = 0 := rfl
      omega
    rw [this] at hge
    have : (δ:ℤ) < M := by exact_mod_cast hlt
    omega
  refine ⟨?_, ?_, ?_, hge, ?_⟩
  · rw [hb']; exact DigOK_snoc h (by omega) (by omega) hne
  · rw [hb']; simp
  · rw [hv, hM]
    have : (0:ℤ) ≤ (j:ℤ) * u := by positivity
    have : (0:ℤ) ≤ (rest:ℤ) := by positivity
    nlinarith
  · by_cases hb : b = []
    · left; rw [hb', hb]; simp
    · right
      have hg := val_ge h hb
      have hl : 1 ≤ b.length := by
        cases b with
        | nil => exact absurd rfl hb
        | cons => simp
      rw [hb', List.length_append, List.length_singleton, show b.length + 1 - 2 = b.length - 1 by omega]
      have h3 : (M:ℤ) = val b * (10 * u) + (d * u + rest) := by rw [hM]; ring
      have h4 : ((10 ^ (b.length - 1) * δ : ℕ):ℤ) < M := by
        push_cast
        have hr : (δ:ℤ) ≤ (d * u + rest) := by exact_mod_cast h1
        have hr' : ((d * u + rest : ℕ):ℤ) < ((10 * u : ℕ):ℤ) := by exact_mod_cast hru
        push_cast at hr'
        have hpos : (1:ℤ) ≤ 10 ^ (b.length - 1) := one_le_pow₀ (by norm_num)
        have hu0 : (0:ℤ) < u := by exact_mod_cast hu
        have hd0 : (0:ℤ) ≤ δ := by positivity
        have a1 : (10:ℤ) ^ (b.length - 1) * δ ≤ val b * δ := mul_le_mul_of_nonneg_right hg hd0
        have a2 : val b * δ ≤ val b * (10 * u) - val b := by nlinarith
        have : 0 < val b := by linarith
        have a3 : (0:ℤ) ≤ d * u + rest := by positivity
        linarith
      exact_mod_cast h4

/-- first loop -/
theorem gen1_spec (s delta wpw p2 M : ℕ) (hp2 : p2 < 2^s) (hM : M < 2^64) (hdM : delta < M) : ∀ (kappa p1 : ℕ) (b : List ℤ),
    p1 < 10 ^ kappa → DigOK b → (M:ℤ) = (val b * 10 ^ kappa + p1) * 2^s + p2 → delta < p1 * 2^s + p2 →
    (∃ (b' : List ℤ) (k : ℕ), gen1 s delta wpw p2 kappa p1 b = some (b', some (k:ℤ)) ∧ Final b' (10^k * 2^s) delta M) ∨
    (∃ b', gen1 s delta wpw p2 kappa p1 b = some (b', none) ∧ DigOK b' ∧ (M:ℤ) = val b' * 2^s + p2 ∧ delta < p2) := by
  intro kappa
  induction kappa with
  | zero =>
    intro p1 b h1 hb hm hd
    right
    have : p1 = 0 := by simpa using h1
    subst this
    refine ⟨b, rfl, hb, ?_, by simpa using hd⟩
    rw [hm]; simp
  | succ kappa ih =>
    intro p1 b h1 hb hm hd
    have hk0 : 0 < 10 ^ kappa := by positivity
    obtain ⟨d, hdd⟩ : ∃ d, d = p1 / 10 ^ kappa := ⟨_, rfl⟩
    obtain ⟨q, hq⟩ : ∃ q, q = p1 % 10 ^ kappa := ⟨_, rfl⟩
    have hdq : p1 = d * 10 ^ kappa + q := by rw [hdd, hq]; exact (Nat.div_add_mod' p1 _).symm
    have hqlt : q < 10 ^ kappa := by rw [hq]; exact Nat.mod_lt _ hk0
    have hd9 : d ≤ 9 := by
      have : d < 10 := by
        rw [hdd]
        apply Nat.div_lt_of_lt_mul
        rw [pow_succ] at h1
        exact h1
      omega
    have hv0 := val_nonneg hb.1
    have hs0 : 0 < 2^s := by positivity
    have hMp : ((p1 * 2^s + p2 : ℕ):ℤ) ≤ M := by
      rw [hm]; push_cast
      have : (0:ℤ) ≤ val b * 10 ^ (kappa + 1) * 2^s := by positivity
      nlinarith
    have hMp' : p1 * 2^s + p2 ≤ M := by exact_mod_cast hMp
    have hqs : q * 2^s + p2 + d * (10^kappa * 2^s) = p1 * 2^s + p2 := by rw [hdq]; ring
    have et : u64 (u64 (q * 2^s) + p2) = q * 2^s + p2 := by
      rw [u64_small (n := q * 2^s) (by omega), u64_small (by omega)]
    rw [gen1]
    simp only [← hdd, ← hq, et]
    by_cases hst : q * 2^s + p2 ≤ delta
    · left
      rw [if_pos hst]
      have hd1 : 1 ≤ d := by
        by_contra hc
        have : d = 0 := by omega
        rw [this] at hqs
        omega
      have htk : 10^kappa * 2^s ≤ M := by nlinarith
      rw [u64_small (n := 10^kappa * 2^s) (by omega), if_pos (Or.inl (by omega))]
      obtain ⟨j, hj1, hj2⟩ := grisuRound_spec delta (10^kappa * 2^s) wpw (by omega) (by have := Nat.mul_pos hk0 hs0; omega) (delta + 1) (q * 2^s + p2) b d hst (by omega)
      refine ⟨b ++ [(d:ℤ) - j], kappa, ?_, ?_⟩
      · rw [hj1]; rfl
      · refine stop_final (d := d) (rest := q * 2^s + p2) (j := j) hb hd9 ?_ (by omega) hj2 hdM (Nat.mul_pos hk0 hs0) ?_ rfl
        · rw [hm, hdq]; push_cast; ring
        · have a : p1 * 2^s + p2 < 10 ^ (kappa + 1) * 2^s := by
            have : (p1 + 1) * 2^s ≤ 10 ^ (kappa + 1) * 2^s := Nat.mul_le_mul_right _ h1
            rw [Nat.add_mul] at this
            omega
          rw [pow_succ] at a
          have : 10 ^ kappa * 10 * 2^s = 10 * (10^kappa * 2^s) := by ring
          omega
    · rw [if_neg hst]
      have hpv := pushD_val b d
      have hpo := pushD_ok hb hd9
      unfold pushD at hpv hpo
      refine ih q _ hqlt hpo ?_ (by omega)
      rw [hpv, hm, hdq]; push_cast; ring

/-- second loop, entered after `n` rounds with `delta · 10^n ≤ p2 < one` -/
theorem gen2_spec (mem : ℕ → Option ℕ) (s wpw M delta0 : ℕ) (hs : s ≤ 60) (hdM : delta0 < M)
    (hmem : ∀ i, 10 ≤ i → 10 ^ (i - 1) * delta0 < 2^s → ∃ x, mem i = some x) :
    ∀ (fuel n p2 : ℕ) (b : List ℤ), p2 < 2^s → DigOK b → ((M * 10^n : ℕ):ℤ) = val b * 2^s + p2 → delta0 * 10^n ≤ p2 →
      2^s ≤ delta0 * 10^n * 10^fuel →
    ∃ (b' : List ℤ) (n' : ℕ), gen2 mem s wpw fuel n p2 (delta0 * 10^n) b = some (b', -(n':ℤ)) ∧ Final b' (2^s) (delta0 * 10^n') (M * 10^n') := by
  intro fuel
  induction fuel with
  | zero => intro n p2 b h1 _ _ h2 h3; rw [pow_zero, Nat.mul_one] at h3; omega
  | succ fuel ih =>
    intro n p2 b h1 hb hm hd hf
    have hs0 : 0 < 2^s := by positivity
    have hs60 : 2^s ≤ 2^60 := Nat.pow_le_pow_right (by norm_num) hs
    have e1 : u64 (p2 * 10) = p2 * 10 := u64_small (by omega)
    have e2 : u64 (delta0 * 10^n * 10) = delta0 * 10^(n+1) := by
      rw [u64_small (by omega), pow_succ, Nat.mul_assoc]
    have e2' : delta0 * 10^(n+1) = delta0 * 10^n * 10 := by rw [pow_succ, Nat.mul_assoc]
    obtain ⟨d, hdd⟩ : ∃ d, d = p2 * 10 / 2^s := ⟨_, rfl⟩
    obtain ⟨q, hq⟩ : ∃ q, q = p2 * 10 % 2^s := ⟨_, rfl⟩
    have hdq : p2 * 10 = d * 2^s + q := by rw [hdd, hq]; exact (Nat.div_add_mod' _ _).symm
    have hqlt : q < 2^s := by rw [hq]; exact Nat.mod_lt _ hs0
    have hd9 : d ≤ 9 := by
      have : d < 10 := by
        rw [hdd]
        apply Nat.div_lt_of_lt_mul
        omega
      omega
    have hmn : ((M * 10^(n+1) : ℕ):ℤ) = (10 * val b + d) * 2^s + q := by
      have a : ((p2 * 10 : ℕ):ℤ) = ((d * 2^s + q : ℕ):ℤ) := by rw [hdq]
      push_cast at a hm ⊢
      rw [pow_succ]
      linear_combination 10 * hm + a
    rw [gen2]
    simp only [e1, e2, ← hdd, ← hq]
    by_cases hst : q < delta0 * 10^(n+1)
    · rw [if_pos hst]
      have hd1 : 1 ≤ d := by
        by_contra hc
        have : d = 0 := by omega
        rw [this] at hdq
        omega
      obtain ⟨pw, hpw⟩ : ∃ pw, (if n + 1 < 10 then some (10^(n+1)) else mem (n+1)) = some pw := by
        by_cases hn : n + 1 < 10
        · exact ⟨_, if_pos hn⟩
        · rw [if_neg hn]
          apply hmem _ (by omega)
          rw [Nat.add_sub_cancel, Nat.mul_comm]
          omega
      rw [hpw, Option.bind_eq_bind, Option.bind_some, if_pos (Or.inl (by omega))]
      obtain ⟨j, hj1, hj2⟩ := grisuRound_spec (delta0 * 10^(n+1)) (2^s) (u64 (wpw * pw)) (by omega) hs0 (delta0 * 10^(n+1) + 1) q b d (by omega) (by omega)
      refine ⟨b ++ [(d:ℤ) - j], n + 1, ?_, ?_⟩
      · rw [hj1]; simp
      · refine stop_final (d := d) (rest := q) (j := j) hb hd9 ?_ (by omega) hj2 ?_ hs0 (by omega) rfl
        · rw [hmn]; push_cast; ring
        · exact Nat.mul_lt_mul_of_pos_right hdM (by positivity)
    · rw [if_neg hst]
      have hpv := pushD_val b d
      have hpo := pushD_ok hb hd9
      unfold pushD at hpv hpo
      refine ih (n+1) q _ hqlt hpo ?_ (by omega) ?_
      · rw [hpv, hmn]
      · calc 2^s ≤ delta0 * 10^n * 10^(fuel+1) := hf
          _ = delta0 * 10^(n+1) * 10^fuel := by rw [pow_succ, pow_succ]; ring

theorem countDigits_gt (n : ℕ) (h : n < 2^32) : n < 10 ^ countDigits n := by
  unfold countDigits
  split_ifs <;> omega

/-- `DigitGen`: for any number `Mp.f` and any `delta < Mp.f`, the digits found denote a number in `[Mp - delta, Mp]` -/
theorem digitGen_spec (mem : ℕ → Option ℕ) (W Mp : DiyFp) (delta : ℕ) (s : ℕ) (hs : Mp.e = -(s:ℤ)) (hs1 : 32 ≤ s) (hs2 : s ≤ 60)
    (hM : Mp.f < 2^64) (hd : delta < Mp.f) (hd0 : 0 < delta) (hmem : ∀ i, 10 ≤ i → 10 ^ (i - 1) * delta < 2^s → ∃ x, mem i = some x) :
    ∃ b k, digitGen mem W Mp delta = some (b, k) ∧
      ((∃ k' : ℕ, k = k' ∧ Final b (10^k' * 2^s) delta Mp.f) ∨ (∃ n : ℕ, k = -(n:ℤ) ∧ Final b (2^s) (delta * 10^n) (Mp.f * 10^n))) := by
  have hs0 : 0 < 2^s := by positivity
  have es : (-Mp.e).toNat = s := by omega
  have hp1 : Mp.f / 2^s < 2^32 := by
    apply Nat.div_lt_of_lt_mul
    calc Mp.f < 2^64 := hM
      _ = 2^32 * 2^32 := by norm_num
      _ ≤ 2^s * 2^32 := Nat.mul_le_mul_right _ (Nat.pow_le_pow_right (by norm_num) hs1)
  have e1 : Mp.f / 2^s % 2^32 = Mp.f / 2^s := Nat.mod_eq_of_lt hp1
  have hdm : Mp.f / 2^s * 2^s + Mp.f % 2^s = Mp.f := Nat.div_add_mod' _ _
  unfold digitGen
  simp only [es, e1]
  rcases gen1_spec s delta (sub64 Mp.f W.f) (Mp.f % 2^s) Mp.f (Nat.mod_lt _ hs0) hM hd (countDigits (Mp.f / 2^s)) (Mp.f / 2^s) []
      (countDigits_gt _ hp1) ⟨by simp, by simp⟩ (by
        have : val [] = 0 := rfl
        rw [this, zero_mul, zero_add]; exact_mod_cast hdm.symm) (by omega) with ⟨b, k, hg, hf⟩ | ⟨b, hg, hb, hm, hlt⟩
  · refine ⟨b, k, ?_, Or.inl ⟨k, rfl, hf⟩⟩
    rw [hg]; rfl
  · obtain ⟨b', n, hg2, hf⟩ := gen2_spec mem s (sub64 Mp.f W.f) Mp.f delta hs2 hd hmem 400 0 (Mp.f % 2^s) b (Nat.mod_lt _ hs0) hb
      (by rw [pow_zero, Nat.mul_one]; exact hm) (by rw [pow_zero, Nat.mul_one]; omega) (by
        rw [pow_zero, Nat.mul_one]
        calc 2^s ≤ 2^60 := Nat.pow_le_pow_right (by norm_num) hs2
          _ ≤ 10^19 := by norm_num
          _ ≤ 10^400 := Nat.pow_le_pow_right (by norm_num) (by norm_num)
          _ = 1 * 10^400 := (Nat.one_mul _).symm
          _ ≤ delta * 10^400 := Nat.mul_le_mul_right _ hd0)
    refine ⟨b', -(n:ℤ), ?_, Or.inr ⟨n, rfl, hf⟩⟩
    rw [pow_zero, Nat.mul_one] at hg2
    rw [hg, Option.bind_eq_bind, Option.bind_some]
    exact hg2

end Verif.Grisu
