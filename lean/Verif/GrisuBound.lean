import Verif.GrisuTable
import Verif.GrisuDigits

/-!
# `Grisu2` as a whole: the decimal it finds lies strictly between the two neighbouring midpoints (for C29, C59)
-/

namespace Verif.Grisu
open Verif.Fp

theorem nbLoop_spec : ∀ (t fuel : ℕ) (a : DiyFp), t < fuel → 2^53 ≤ a.f * 2^t → a.f * 2^t < 2^54 →
    nbLoop fuel a = some ⟨a.f * 2^t, a.e - t⟩ := by
  intro t
  induction t with
  | zero =>
    intro fuel a hf h1 h2
    obtain ⟨fuel, rfl⟩ : ∃ n, fuel = n + 1 := ⟨fuel - 1, by omega⟩
    rw [pow_zero, Nat.mul_one] at h1 h2
    rw [nbLoop, if_pos (by omega)]
    simp
  | succ t ih =>
    intro fuel a hf h1 h2
    obtain ⟨fuel, rfl⟩ : ∃ n, fuel = n + 1 := ⟨fuel - 1, by omega⟩
    have h3 : a.f * 2 * 2^t = a.f * 2^(t+1) := by rw [pow_succ]; ring
    have h4 : a.f * 2 * 1 ≤ a.f * 2 * 2^t := Nat.mul_le_mul_left _ Nat.one_le_two_pow
    have hu : u64 (a.f * 2) = a.f * 2 := u64_small (by omega)
    rw [nbLoop, if_neg (by omega), hu]
    rw [ih fuel ⟨a.f * 2, a.e - 1⟩ (by omega) (by simp only; omega) (by simp only; omega)]
    simp only [h3]
    congr 2
    push_cast; ring

theorem mul_mk (a : ℕ) (pe : ℤ) (c : DiyFp) (w : ℕ) (ha : a < 2^64) (hb : c.f < 2^64) (hw : w = (a * c.f + 2^63) / 2^64) :
    mul ⟨a, pe⟩ c = ⟨w, pe + c.e + 64⟩ := by
  have hp : a * c.f ≤ (2^64 - 1) * (2^64 - 1) := Nat.mul_le_mul (by omega) (by omega)
  unfold mul
  simp only
  generalize a * c.f = p at *
  congr 1
  unfold u64
  split_ifs <;> omega

/-- the two boundaries and the number itself, on a common exponent -/
structure Scaled (f : ℕ) (e : ℤ) (am aw ap : ℕ) (pe : ℤ) : Prop where
  bnd : boundaries ⟨f, e⟩ = some (⟨am, pe⟩, ⟨ap, pe⟩)
  nrm : normalize ⟨f, e⟩ = some ⟨aw, pe⟩
  lo : 2^63 ≤ ap
  hi : ap < 2^64
  mw : am < aw
  wp : aw < ap
  gap : 1536 ≤ ap - am
  rel : 11 * ap ≤ 10^17 * (ap - am)
  top : (ap:ℚ) * 2^pe = (f + 1/2) * 2^e
  bot : (am:ℚ) * 2^pe = (f - (if f = 2^52 then 1/4 else 1/2)) * 2^e

theorem scaled (f : ℕ) (e : ℤ) (h0 : 0 < f) (h1 : f < 2^53) : ∃ am aw ap, Scaled f e am aw ap (e - 63 + Nat.log2 f) ∧ Nat.log2 f ≤ 52 := by
  obtain ⟨L, hL⟩ : ∃ L, L = Nat.log2 f := ⟨_, rfl⟩
  have hL1 : 2^L ≤ f := by rw [hL]; exact Nat.log2_self_le (by omega)
  have hL2 : f < 2^(L+1) := by rw [hL]; exact Nat.lt_log2_self
  have hL3 : L ≤ 52 := by
    have := (Nat.log2_lt (n := f) (k := 53) (by omega)).mpr h1
    omega
  obtain ⟨t, ht⟩ : ∃ t, t = 52 - L := ⟨_, rfl⟩
  have hLt : L + t = 52 := by omega
  have e52 : 2^L * 2^t = 2^52 := by rw [← pow_add, hLt]
  have e53 : 2^(L+1) * 2^t = 2^53 := by rw [← pow_add, show L + 1 + t = 53 by omega]
  have b1 : 2^52 ≤ f * 2^t := by rw [← e52]; exact Nat.mul_le_mul_right _ hL1
  have ht0 : 1 ≤ 2^t := Nat.one_le_two_pow
  have b2 : f * 2^t + 2^t ≤ 2^53 := by
    rw [← e53, ← Nat.succ_mul]; exact Nat.mul_le_mul_right _ hL2
  have hd : (2 * f + 1) * 2^t = 2 * (f * 2^t) + 2^t := by ring
  have hu1 : u64 (f * 2) + 1 = 2 * f + 1 := by rw [u64_small (by omega)]; omega
  have hnb : normalizeBoundary ⟨u64 (f * 2) + 1, e - 1⟩ = some ⟨(2 * f + 1) * 2^t * 2^10, e - 1 - t - 10⟩ := by
    unfold normalizeBoundary
    rw [hu1, nbLoop_spec t 64 ⟨2 * f + 1, e - 1⟩ (by omega) (by simp only; omega) (by simp only; omega)]
    simp only [Option.bind_eq_bind, Option.bind_some, Option.pure_def]
    rw [u64_small (by omega)]
  have epe : e - 1 - t - 10 = e - 63 + L := by omega
  have hnorm : normalize ⟨f, e⟩ = some ⟨f * 2^t * 2^11, e - 63 + L⟩ := by
    unfold normalize
    rw [if_neg (by simp only; omega)]
    simp only [← hL]
    have : f * 2^(63 - L) = f * 2^t * 2^11 := by rw [Nat.mul_assoc, ← pow_add]; congr 2; omega
    rw [this, u64_small (by omega)]
    congr 2; omega
  have ztop : ((f * 2^t * 2^11 : ℕ):ℚ) * 2^(e - 63 + L) = f * 2^e := by
    rw [Nat.cast_mul, Nat.cast_mul, Nat.cast_pow, Nat.cast_pow, Nat.cast_ofNat]
    rw [show (2:ℚ)^(11:ℕ) = 2^(11:ℤ) by norm_num, ← zpow_natCast (2:ℚ) t, mul_assoc, mul_assoc, ← zpow_add₀ (by norm_num), ← zpow_add₀ (by norm_num)]
    congr 2; omega
  have zt : ((2^t * 2^10 : ℕ):ℚ) * 2^(e - 63 + L) = 1/2 * 2^e := by
    rw [Nat.cast_mul, Nat.cast_pow, Nat.cast_pow, Nat.cast_ofNat]
    rw [show (2:ℚ)^(10:ℕ) = 2^(10:ℤ) by norm_num, ← zpow_natCast (2:ℚ) t, ← zpow_add₀ (by norm_num), ← zpow_add₀ (by norm_num),
      show (t:ℤ) + 10 + (e - 63 + L) = e - 1 by omega, zpow_sub₀ (by norm_num)]
    rw [zpow_one]; ring
  by_cases hf : f = 2^52
  · have hL52 : L = 52 := by
      rw [hL, hf]; exact Nat.log2_two_pow
    have ht' : t = 0 := by omega
    subst ht'
    refine ⟨(4 * f - 1) * 2^9, f * 2^0 * 2^11, (2 * f + 1) * 2^0 * 2^10, ⟨?_, ?_, ?_, ?_, ?_, ?_, ?_, ?_, ?_, ?_⟩, by omega⟩
    · unfold boundaries
      simp only
      rw [hnb]
      simp only [Option.bind_eq_bind, Option.bind_some, Option.pure_def, epe, ← hL]
      rw [if_pos hf]
      simp only
      rw [u64_small (n := f * 4) (by omega), if_neg (by omega), show (e - 2 - (e - 63 + (L:ℤ))).toNat = 9 by omega, u64_small (by omega)]
      rw [show f * 4 - 1 = 4 * f - 1 by omega]
    · rw [← hL]; exact hnorm
    · omega
    · omega
    · omega
    · omega
    · omega
    · omega
    · rw [← hL]
      have : ((2 * f + 1) * 2^0 * 2^10 : ℕ) = f * 2^0 * 2^11 + 2^0 * 2^10 := by ring
      rw [this, Nat.cast_add, add_mul, ztop, zt]; ring
    · rw [← hL, if_pos hf]
      have : ((4 * f - 1) * 2^9 : ℕ) + 2^9 = f * 2^0 * 2^11 := by omega
      have h2 : (((4 * f - 1) * 2^9 : ℕ):ℚ) = (f * 2^0 * 2^11 : ℕ) - (2^0 * 2^10 : ℕ) / 2 := by
        rw [← this]; push_cast; ring
      rw [h2, sub_mul, ztop, div_mul_eq_mul_div, zt]; ring
  · refine ⟨(2 * f - 1) * 2^t * 2^10, f * 2^t * 2^11, (2 * f + 1) * 2^t * 2^10, ⟨?_, ?_, ?_, ?_, ?_, ?_, ?_, ?_, ?_, ?_⟩, by omega⟩
    · unfold boundaries
      simp only
      rw [hnb]
      simp only [Option.bind_eq_bind, Option.bind_some, Option.pure_def, epe, ← hL]
      rw [if_neg hf]
      simp only
      have hd2 : (2 * f - 1) * 2^t * 2^10 ≤ (2 * f + 1) * 2^t * 2^10 := Nat.mul_le_mul_right _ (Nat.mul_le_mul_right _ (by omega))
      have e2 : (u64 (f * 2) - 1) * 2^(10 + t) = (2 * f - 1) * 2^t * 2^10 := by
        rw [u64_small (by omega), pow_add, show f * 2 - 1 = 2 * f - 1 by omega]; ring
      rw [if_neg (by omega), show (e - 1 - (e - 63 + (L:ℤ))).toNat = 10 + t by omega, e2, u64_small (by omega)]
    · rw [← hL]; exact hnorm
    · omega
    · omega
    · have : (2 * f - 1) * 2^t + 2^t = 2 * (f * 2^t) := by
        rw [← Nat.succ_mul, show (2 * f - 1).succ = 2 * f by omega]; ring
      omega
    · omega
    · have : (2 * f - 1) * 2^t + 2^t = 2 * (f * 2^t) := by
        rw [← Nat.succ_mul, show (2 * f - 1).succ = 2 * f by omega]; ring
      omega
    · have h3 : (2 * f - 1) * 2^t + 2^t = 2 * (f * 2^t) := by
        rw [← Nat.succ_mul, show (2 * f - 1).succ = 2 * f by omega]; ring
      have h4 : (2 * f + 1) * 2^t ≤ (2^54 - 1) * 2^t := Nat.mul_le_mul_right _ (by omega)
      omega
    · rw [← hL]
      have : ((2 * f + 1) * 2^t * 2^10 : ℕ) = f * 2^t * 2^11 + 2^t * 2^10 := by ring
      rw [this, Nat.cast_add, add_mul, ztop, zt]; ring
    · rw [← hL, if_neg hf]
      have h3 : (2 * f - 1) * 2^t + 2^t = 2 * (f * 2^t) := by
        rw [← Nat.succ_mul, show (2 * f - 1).succ = 2 * f by omega]; ring
      have : ((2 * f - 1) * 2^t * 2^10 : ℕ) + 2^t * 2^10 = f * 2^t * 2^11 := by omega
      have h2 : (((2 * f - 1) * 2^t * 2^10 : ℕ):ℚ) = (f * 2^t * 2^11 : ℕ) - (2^t * 2^10 : ℕ) := by
        rw [← this]; push_cast; ring
      rw [h2, sub_mul, ztop, zt]; ring

/-- a rounded product is within one unit of the exact scaled value -/
theorem near (a F : ℕ) (g : ℚ) (ha : a < 2^64) (hg : |(F:ℚ) - g| ≤ 1/2) :
    (((a * F + 2^63) / 2^64 : ℕ):ℚ) - 1 < a * g / 2^64 ∧ (a:ℚ) * g / 2^64 < (((a * F + 2^63) / 2^64 : ℕ):ℚ) + 1 := by
  obtain ⟨w, hw⟩ : ∃ w, w = (a * F + 2^63) / 2^64 := ⟨_, rfl⟩
  rw [← hw]
  have h1 : w * 2^64 ≤ a * F + 2^63 := by omega
  have h2 : a * F + 2^63 < w * 2^64 + 2^64 := by omega
  have h1' : (w:ℚ) * 2^64 ≤ a * F + 2^63 := by exact_mod_cast h1
  have h2' : (a:ℚ) * F + 2^63 < w * 2^64 + 2^64 := by exact_mod_cast h2
  have ha' : (a:ℚ) < 2^64 := by exact_mod_cast ha
  have ha0 : (0:ℚ) ≤ a := by positivity
  obtain ⟨g1, g2⟩ := abs_le.mp hg
  have p1 : (a:ℚ) * g ≤ a * (F + 1/2) := mul_le_mul_of_nonneg_left (by linarith) ha0
  have p2 : (a:ℚ) * (F - 1/2) ≤ a * g := mul_le_mul_of_nonneg_left (by linarith) ha0
  constructor
  · rw [lt_div_iff₀ (by norm_num)]; linarith
  · rw [div_lt_iff₀ (by norm_num)]; linarith

theorem bounds (ap am F : ℕ) (g : ℚ) (hap : 2^63 ≤ ap) (hap' : ap < 2^64) (hmp : am < ap) (hgap : 1536 ≤ ap - am) (hrel : 11 * ap ≤ 10^17 * (ap - am))
    (hF : 2^63 ≤ F) (hF' : F < 2^64) (hFg : |(F:ℚ) - g| ≤ 1/2) :
    ∃ Wp Wm, Wp = (ap * F + 2^63) / 2^64 ∧ Wm = (am * F + 2^63) / 2^64 ∧ Wm + 766 ≤ Wp ∧ Wp < 2^64 ∧ Wp - 1 ≤ 10^16 * (Wp - 1 - (Wm + 1)) ∧
      (Wp:ℚ) - 1 < ap * g / 2^64 ∧ (am:ℚ) * g / 2^64 < Wm + 1 := by
  have hp := near ap F g hap' hFg
  have hm := near am F g (by omega) hFg
  have hWp64 : (ap * F + 2^63) / 2^64 < 2^64 := by
    have : ap * F ≤ (2^64 - 1) * (2^64 - 1) := Nat.mul_le_mul (by omega) (by omega)
    omega
  generalize (ap * F + 2^63) / 2^64 = Wp at hp hWp64 ⊢
  generalize (am * F + 2^63) / 2^64 = Wm at hm ⊢
  refine ⟨Wp, Wm, rfl, rfl, ?_⟩
  have hglo : (2:ℚ)^63 - 1/2 ≤ g := by
    have : (2:ℚ)^63 ≤ F := by exact_mod_cast hF
    have := (abs_le.mp hFg).2
    linarith
  have hgap : (1536:ℚ) ≤ (ap:ℚ) - am := by
    have : am + 1536 ≤ ap := by omega
    have : (am:ℚ) + 1536 ≤ ap := by exact_mod_cast this
    linarith
  have hrel : 11 * (ap:ℚ) ≤ 10^17 * ((ap:ℚ) - am) := by
    have : 11 * ap + 10^17 * am ≤ 10^17 * ap := by omega
    have : 11 * (ap:ℚ) + 10^17 * am ≤ 10^17 * ap := by exact_mod_cast this
    linarith
  have hap2 : (2:ℚ)^63 ≤ ap := by exact_mod_cast hap
  clear hFg hF hF' hap hap'
  have hg0 : (0:ℚ) < g := by linarith [show (0:ℚ) < 2^63 - 1/2 by norm_num]
  have hdiff : (767:ℚ) < (ap:ℚ) * g / 2^64 - (am:ℚ) * g / 2^64 := by
    rw [← sub_div, ← sub_mul, lt_div_iff₀ (by norm_num)]
    calc (767:ℚ) * 2^64 < 1536 * (2^63 - 1/2) := by norm_num
      _ ≤ ((ap:ℚ) - am) * g := mul_le_mul hgap hglo (by norm_num) (by linarith)
  have hYrel : 11 * ((ap:ℚ) * g / 2^64) ≤ 10^17 * ((ap:ℚ) * g / 2^64 - (am:ℚ) * g / 2^64) := by
    rw [← sub_div, ← sub_mul, ← mul_div_assoc, ← mul_div_assoc]
    apply div_le_div_of_nonneg_right _ (by norm_num)
    rw [← mul_assoc, ← mul_assoc]
    exact mul_le_mul_of_nonneg_right hrel hg0.le
  have hYbig : (4 * 10^18 : ℚ) < (ap:ℚ) * g / 2^64 := by
    rw [lt_div_iff₀ (by norm_num)]
    calc (4 * 10^18 : ℚ) * 2^64 < 2^63 * (2^63 - 1/2) := by norm_num
      _ ≤ (ap:ℚ) * g := mul_le_mul hap2 hglo (by norm_num) (by positivity)
  generalize (ap:ℚ) * g / 2^64 = Yp at *
  generalize (am:ℚ) * g / 2^64 = Ym at *
  have hWd' : Wm + 766 ≤ Wp := by
    have : ((Wm + 765 : ℕ):ℚ) < Wp := by push_cast; linarith [hp.1, hp.2, hm.1, hm.2]
    have : Wm + 765 < Wp := by exact_mod_cast this
    omega
  refine ⟨hWd', hWp64, ?_, hp.1, hm.2⟩
  obtain ⟨δ, hδ⟩ : ∃ δ, δ = Wp - 1 - (Wm + 1) := ⟨_, rfl⟩
  rw [← hδ]
  have a1 : ((Wp - 1 : ℕ):ℚ) < Yp := by
    rw [Nat.cast_sub (by omega)]; push_cast; linarith [hp.1]
  have a2 : (δ:ℚ) = Wp - Wm - 2 := by
    have : δ + (Wm + 2) = Wp := by omega
    have : (δ:ℚ) + (Wm + 2) = Wp := by exact_mod_cast this
    linarith
  have a3 : ((Wp - 1 : ℕ):ℚ) ≤ ((10^16 * δ : ℕ):ℚ) := by
    push_cast
    rw [a2]
    linarith [hp.1, hp.2, hm.1, hm.2]
  exact_mod_cast a3

theorem unfold_aux (A : Option (DiyFp × DiyFp)) (C : ℤ → Option (DiyFp × ℤ)) (N : Option DiyFp) (D : DiyFp → DiyFp → ℕ → Option (List ℤ × ℤ))
    (wm wp c w : DiyFp) (K : ℤ) (b : List ℤ) (k : ℤ) (h1 : A = some (wm, wp))
    (h2 : C wp.e = some (c, K)) (h3 : N = some w) (x y : DiyFp) (u : ℕ) (hx : scaleUp wm wp w c = (x, y, u))
    (h6 : D x y u = some (b, k)) :
    (do
      let (wm, wp) ← A
      let (c, K) ← C wp.e
      let w ← N
      let r := scaleUp wm wp w c
      let (buf, kappa) ← D r.1 r.2.1 r.2.2
      pure (buf, K + kappa)) = some (b, K + k) := by
  subst h1 h3
  simp only [Option.bind_eq_bind, Option.bind_some, h2, hx, h6, Option.pure_def]

theorem grisu2_unfold (mem : ℕ → Option ℕ) (v wm wp c w : DiyFp) (K : ℤ) (b : List ℤ) (k : ℤ) (h1 : boundaries v = some (wm, wp))
    (h2 : cachedPower wp.e = some (c, K)) (h3 : normalize v = some w) (x y : DiyFp) (u : ℕ) (hx : scaleUp wm wp w c = (x, y, u))
    (h6 : digitGen mem x y u = some (b, k)) : grisu2 mem v = some (b, K + k) :=
  unfold_aux (boundaries v) cachedPower (normalize v) (digitGen mem) wm wp c w K b k h1 h2 h3 x y u hx h6

theorem run (mem : ℕ → Option ℕ) (f : ℕ) (e : ℤ) (am aw ap : ℕ) (pe : ℤ) (S : Scaled f e am aw ap pe) (c : DiyFp) (K : ℤ)
    (hc : cachedPower pe = some (c, K)) (c4 : c.f < 2^64) (Wp Wm : ℕ) (hWp : Wp = (ap * c.f + 2^63) / 2^64) (hWm : Wm = (am * c.f + 2^63) / 2^64)
    (h1 : Wm + 766 ≤ Wp) (h2 : Wp < 2^64) (b : List ℤ) (k : ℤ)
    (hd : digitGen mem (mul ⟨aw, pe⟩ c) ⟨Wp - 1, pe + c.e + 64⟩ (Wp - 1 - (Wm + 1)) = some (b, k)) : grisu2 mem ⟨f, e⟩ = some (b, K + k) := by
  have q1 : (mul ⟨ap, pe⟩ c) = ⟨Wp, pe + c.e + 64⟩ := mul_mk ap pe c Wp S.hi c4 hWp
  have q2 : (mul ⟨am, pe⟩ c) = ⟨Wm, pe + c.e + 64⟩ := mul_mk am pe c Wm (lt_trans (lt_trans S.mw S.wp) S.hi) c4 hWm
  clear hWp hWm
  have q3 : sub64 Wp 1 = Wp - 1 := by unfold sub64 u64; omega
  have q4 : u64 (Wm + 1) = Wm + 1 := u64_small (by omega)
  have q5 : sub64 (Wp - 1) (Wm + 1) = Wp - 1 - (Wm + 1) := by unfold sub64 u64; omega
  have q6 : scaleUp ⟨am, pe⟩ ⟨ap, pe⟩ ⟨aw, pe⟩ c = (mul ⟨aw, pe⟩ c, ⟨Wp - 1, pe + c.e + 64⟩, Wp - 1 - (Wm + 1)) := by
    unfold scaleUp
    simp only [q1, q2, q3, q4, q5]
  exact grisu2_unfold mem _ _ _ c _ K b k S.bnd hc S.nrm _ _ _ q6 hd

/-- undoing the scaling -/
theorem unscale (pe E K : ℤ) (s : ℕ) (hs : (s:ℤ) = -(pe + E + 64)) (a v Y : ℚ) (k : ℤ) (hY : Y = a * (10^(-K) * 2^(-E)) / 2^64) :
    v * 10^(K + k) - a * 2^pe = (v * 10^k * 2^s - Y) * (10^K * 2^(-(s:ℤ))) := by
  rw [hY]
  have u1 : (10:ℚ)^(-K) * 10^K = 1 := by rw [← zpow_add₀ (by norm_num), neg_add_cancel, zpow_zero]
  have u2 : (2:ℚ)^(-E) * 2^E = 1 := by rw [← zpow_add₀ (by norm_num), neg_add_cancel, zpow_zero]
  have u4 : (2:ℚ)^s * 2^(-(s:ℤ)) = 1 := by rw [← zpow_natCast, ← zpow_add₀ (by norm_num), add_neg_cancel, zpow_zero]
  have u5 : (2:ℚ)^(-(s:ℤ)) = 2^pe * 2^E * 2^64 := by
    rw [hs, neg_neg, zpow_add₀ (by norm_num), zpow_add₀ (by norm_num)]
    norm_num
  have u6 : a * (10^(-K) * 2^(-E)) / 2^64 * (10^K * 2^(-(s:ℤ))) = a * 2^pe := by
    rw [u5]
    have : a * (10^(-K) * 2^(-E)) / 2^64 * (10^K * (2^pe * 2^E * 2^64)) = a * 2^pe * ((10:ℚ)^(-K) * 10^K) * (2^(-E) * 2^E) := by
      field_simp
    rw [this, u1, u2]; ring
  rw [sub_mul, u6, zpow_add₀ (by norm_num)]
  linear_combination (-(v * 10^K * 10^k)) * u4

/-- the digits found: no leading zero, at most 17 of them, and the number lies strictly between the two midpoints -/
theorem grisu2_spec (mem : ℕ → Option ℕ) (hmem : ∀ i, 10 ≤ i → i ≤ 16 → ∃ x, mem i = some x) (f : ℕ) (e : ℤ)
    (h0 : 0 < f) (h1 : f < 2^53) (he1 : -1074 ≤ e) (he2 : e ≤ 971) :
    ∃ b k, grisu2 mem ⟨f, e⟩ = some (b, k) ∧ DigOK b ∧ b ≠ [] ∧ b.length ≤ 17 ∧
      (val b : ℚ) * 10^k < (f + 1/2) * 2^e ∧ ((f:ℚ) - (if f = 2^52 then 1/4 else 1/2)) * 2^e < val b * 10^k := by
  obtain ⟨am, aw, ap, S, hL⟩ := scaled f e h0 h1
  obtain ⟨pe, hpe⟩ : ∃ pe, pe = e - 63 + (Nat.log2 f : ℤ) := ⟨_, rfl⟩
  rw [← hpe] at S
  obtain ⟨c, K, hc, c1, c2, c3, c4, c5⟩ := cachedPower_spec pe (by omega) (by omega)
  have h2e : (0:ℚ) < 2^c.e := by positivity
  have hFg : |(c.f:ℚ) - 10^(-K) * 2^(-c.e)| ≤ 1/2 := by
    have : (c.f:ℚ) - 10^(-K) * 2^(-c.e) = ((c.f:ℚ) * 2^c.e - 10^(-K)) * 2^(-c.e) := by
      rw [sub_mul, mul_assoc, ← zpow_add₀ (by norm_num), add_neg_cancel, zpow_zero, mul_one]
    rw [this, abs_mul, abs_of_pos (show (0:ℚ) < 2^(-c.e) by positivity)]
    calc |(c.f:ℚ) * 2^c.e - 10^(-K)| * 2^(-c.e) ≤ 2^c.e / 2 * 2^(-c.e) := mul_le_mul_of_nonneg_right c5 (by positivity)
      _ = 1/2 := by rw [div_mul_eq_mul_div, ← zpow_add₀ (by norm_num), add_neg_cancel, zpow_zero]
  obtain ⟨Wp, Wm, hWp, hWm, hd, h64, h17, htop, hbot⟩ := bounds ap am c.f _ S.lo S.hi (lt_trans S.mw S.wp) S.gap S.rel c3 c4 hFg
  obtain ⟨s, hs⟩ : ∃ s : ℕ, (s:ℤ) = -(pe + c.e + 64) := ⟨(-(pe + c.e + 64)).toNat, by omega⟩
  have hrun := run mem f e am aw ap pe S c K hc c4 Wp Wm hWp hWm hd h64
  have hT := S.top
  have hB := S.bot
  have us := unscale pe c.e K s hs
  have hs1 : 32 ≤ s := by omega
  have hs2 : s ≤ 60 := by omega
  have hse : pe + c.e + 64 = -(s:ℤ) := by omega
  rw [hse] at hrun
  clear hWp hWm hs c1 c2 c3 c4 c5 hFg hc hpe hL h2e S he1 he2 hse
  generalize mul ⟨aw, pe⟩ c = W at hrun
  obtain ⟨δ, hδ⟩ : ∃ δ, δ = Wp - 1 - (Wm + 1) := ⟨_, rfl⟩
  rw [← hδ] at hrun h17
  have hδ764 : 764 ≤ δ := by omega
  obtain ⟨b, k, hdg, hfin⟩ := digitGen_spec mem W ⟨Wp - 1, -(s:ℤ)⟩ δ s rfl hs1 hs2
    (by simp only; omega) (by simp only; omega) (by omega) (by
      intro i hi hlt
      apply hmem i hi
      by_contra hc'
      have h3 : 10^16 ≤ 10^(i-1) := Nat.pow_le_pow_right (by norm_num) (by omega)
      have h4 : 10^16 * 764 ≤ 10^(i-1) * δ := Nat.mul_le_mul h3 hδ764
      have h5 : 2^s ≤ 2^60 := Nat.pow_le_pow_right (by norm_num) hs2
      clear hmem hrun us h17 hd hT hB htop hbot
      omega)
  simp only at hfin
  refine ⟨b, K + k, hrun b k hdg, ?_⟩
  clear hrun hdg
  -- the bounds, on the scaled side
  have key : ∀ (v : ℚ), v * 10^k * 2^s ≤ ((Wp - 1 : ℕ):ℚ) → ((Wp - 1 : ℕ):ℚ) ≤ v * 10^k * 2^s + δ →
      v * 10^(K + k) < (f + 1/2) * 2^e ∧ ((f:ℚ) - (if f = 2^52 then 1/4 else 1/2)) * 2^e < v * 10^(K + k) := by
    intro v hv1 hv2
    clear hfin
    have sc : (0:ℚ) < 10^K * 2^(-(s:ℤ)) := by positivity
    have top : ((Wp - 1 : ℕ):ℚ) = Wp - 1 := by rw [Nat.cast_sub (by omega), Nat.cast_one]
    have bot : (((Wp - 1 : ℕ):ℚ)) = Wm + 1 + δ := by
      have : Wp - 1 = Wm + 1 + δ := by omega
      exact_mod_cast this
    have t1 := us (ap:ℚ) v _ k rfl
    have t2 := us (am:ℚ) v _ k rfl
    rw [hT] at t1
    rw [hB] at t2
    constructor
    · have := mul_neg_of_neg_of_pos (show v * 10^k * 2^s - (ap:ℚ) * (10^(-K) * 2^(-c.e)) / 2^64 < 0 by linarith) sc
      linarith
    · have := mul_pos (show 0 < v * 10^k * 2^s - (am:ℚ) * (10^(-K) * 2^(-c.e)) / 2^64 by linarith) sc
      linarith
  clear us hT hB htop hbot hmem
  rcases hfin with ⟨k', rfl, F⟩ | ⟨n, rfl, F⟩
  · refine ⟨F.ok, F.ne, ?_, key _ ?_ ?_⟩
    · rcases F.short with h | h
      · omega
      · by_contra hc'
        have h3 : 10^16 ≤ 10^(b.length - 2) := Nat.pow_le_pow_right (by norm_num) (by omega)
        have := Nat.mul_le_mul_right δ h3
        omega
    · have h := F.le
      have : ((val b * (10^k' * 2^s : ℕ) : ℤ):ℚ) ≤ (((Wp - 1 : ℕ):ℤ):ℚ) := by exact_mod_cast h
      rw [Int.cast_natCast] at this
      rw [zpow_natCast]
      refine le_trans (le_of_eq ?_) this
      push_cast; ring
    · have h := F.ge
      have : ((((Wp - 1 : ℕ):ℤ)):ℚ) ≤ ((val b * (10^k' * 2^s : ℕ) + (δ:ℤ) : ℤ):ℚ) := by exact_mod_cast h
      rw [Int.cast_natCast] at this
      rw [zpow_natCast]
      refine le_trans this (le_of_eq ?_)
      push_cast; ring
  · have h10 : (0:ℚ) < 10^n := by positivity
    have e9 : (val b:ℚ) * 10^(-(n:ℤ)) * 2^s = val b * 2^s / 10^n := by rw [zpow_neg, zpow_natCast]; field_simp
    refine ⟨F.ok, F.ne, ?_, key _ ?_ ?_⟩
    · rcases F.short with h | h
      · omega
      · by_contra hc'
        have h3 : 10^16 ≤ 10^(b.length - 2) := Nat.pow_le_pow_right (by norm_num) (by omega)
        have h4 := Nat.mul_le_mul_right (δ * 10^n) h3
        have h5 := Nat.mul_le_mul_right (10^n) h17
        have h6 : 10^16 * (δ * 10^n) = 10^16 * δ * 10^n := by ring
        omega
    · have h := F.le
      have : ((val b * (2^s : ℕ) : ℤ):ℚ) ≤ (((((Wp - 1) * 10^n : ℕ)):ℤ):ℚ) := by exact_mod_cast h
      rw [Int.cast_natCast, Nat.cast_mul, Nat.cast_pow] at this
      rw [e9, div_le_iff₀ h10]
      refine le_trans (le_of_eq ?_) (le_trans this (le_of_eq ?_))
      · push_cast; ring
      · push_cast; rfl
    · have h := F.ge
      have : (((((Wp - 1) * 10^n : ℕ)):ℤ):ℚ) ≤ ((val b * (2^s : ℕ) + ((δ * 10^n : ℕ):ℤ) : ℤ):ℚ) := by exact_mod_cast h
      rw [Int.cast_natCast, Nat.cast_mul, Nat.cast_pow, Nat.cast_ofNat] at this
      rw [e9, div_add' _ _ _ h10.ne', le_div_iff₀ h10]
      refine le_trans this (le_of_eq ?_)
      push_cast; ring

end Verif.Grisu
