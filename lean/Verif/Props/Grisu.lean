import Verif.DoubleSpec
import Verif.GrisuBound
import Verif.Props.MinSec

/-!
# C59: the digits found for a double read back as the same double

with the consequences for C29 and C35: the printed decimals of a double `x`, without assumptions on the digits.
-/

namespace Verif.Grisu
open Verif Verif.Fp Verif.Dtoa

/-! ## reading back -/

theorem rne_near {q : ℚ} {n : ℤ} (h : |q - n| < 1/2) : rne q = n := by
  have h1 := rne_err q
  have h2 : |((rne q - n : ℤ):ℚ)| < 1 := by
    push_cast
    calc |(rne q:ℚ) - n| = |((rne q:ℚ) - q) + (q - n)| := by ring_nf
      _ ≤ |(rne q:ℚ) - q| + |q - n| := abs_add_le _ _
      _ < 1 := by linarith
  have h3 : |rne q - n| < 1 := by exact_mod_cast h2
  rw [abs_lt] at h3
  omega

/-- anything strictly between the midpoints to the neighbours rounds to the double -/
theorem rnd_between {f : ℕ} {e : ℤ} {x : ℚ} (h0 : 0 < f) (h1 : f < 2^53) (he : -1074 ≤ e) (hn : 2^52 ≤ f ∨ e = -1074)
    (hhi : x < (f + 1/2) * 2^e) (hlo : ((f:ℚ) - (if f = 2^52 then 1/4 else 1/2)) * 2^e < x) : rnd x = f * 2^e := by
  have h2e : (0:ℚ) < 2^e := by positivity
  have hf1 : (1:ℚ) ≤ f := by exact_mod_cast h0
  have hq : (if f = 2^52 then (1/4:ℚ) else 1/2) ≤ 1/2 := by split_ifs <;> norm_num
  have hx0 : 0 < x := lt_of_le_of_lt (mul_nonneg (by linarith) h2e.le) hlo
  have hxne : x ≠ 0 := hx0.ne'
  have habs : |x| = x := abs_of_pos hx0
  have hf53 : (f:ℚ) + 1 ≤ 2^53 := by exact_mod_cast h1
  have hup : x < 2^(e + 53) := by
    calc x < ((f:ℚ) + 1/2) * 2^e := hhi
      _ ≤ 2^53 * 2^e := mul_le_mul_of_nonneg_right (by linarith) h2e.le
      _ = 2^(e + 53) := by rw [zpow_add₀ (by norm_num), mul_comm]; norm_num
  have hfin : ∀ (u : ℤ) (n : ℤ), ulpExp x = u → |x - n * 2^u| < 1/2 * 2^u → rnd x = n * 2^u := by
    intro u n hu hd
    unfold rnd
    rw [if_neg hxne, hu, pow2_eq, pow2_eq]
    have h2u : (0:ℚ) < 2^u := by positivity
    have h2u' : (2:ℚ)^(-u) * 2^u = 1 := by rw [← zpow_add₀ (by norm_num), neg_add_cancel, zpow_zero]
    have : rne (x * 2^(-u)) = n := by
      apply rne_near
      have e1 : x * 2^(-u) - n = (x - n * 2^u) * 2^(-u) := by
        rw [sub_mul, mul_assoc, mul_comm ((2:ℚ)^u), h2u', mul_one]
      rw [e1, abs_mul, abs_of_pos (show (0:ℚ) < 2^(-u) by positivity)]
      calc |x - n * 2^u| * 2^(-u) < 1/2 * 2^u * 2^(-u) := mul_lt_mul_of_pos_right hd (by positivity)
        _ = 1/2 := by rw [mul_assoc, mul_comm ((2:ℚ)^u), h2u', mul_one]
    rw [this]
  by_cases hc : (2:ℚ)^(e + 52) ≤ x ∨ e = -1074
  · have hu : ulpExp x = e := by
      unfold ulpExp
      rcases hc with hc | hc
      · rw [ilog_unique x hxne (e + 52) (by rw [habs]; exact hc) (by rw [habs, add_assoc]; exact hup)]
        omega
      · subst hc
        have : ilog x < -1074 + 53 := by
          by_contra hcon
          have := (ilog_spec x hxne).1
          rw [habs] at this
          have h3 : (2:ℚ)^(-1074 + 53 : ℤ) ≤ 2^(ilog x) := zpow_le_zpow_right₀ (by norm_num) (by omega)
          linarith
        omega
    have := hfin e f hu (by
      rw [abs_lt]
      push_cast
      constructor
      · have : ((f:ℚ) - 1/2) * 2^e ≤ ((f:ℚ) - (if f = 2^52 then 1/4 else 1/2)) * 2^e := mul_le_mul_of_nonneg_right (by linarith) h2e.le
        linarith
      · linarith)
    rw [this]; push_cast; rfl
  · push Not at hc
    obtain ⟨hc, hne⟩ := hc
    have hf : f = 2^52 := by
      have h52 : 2^52 ≤ f := hn.resolve_right hne
      by_contra hcon
      have : 2^52 + 1 ≤ f := by omega
      have : (2:ℚ)^52 + 1 ≤ f := by exact_mod_cast this
      rw [if_neg hcon] at hlo
      have : (2:ℚ)^52 * 2^e ≤ (f - 1/2) * 2^e := mul_le_mul_of_nonneg_right (by linarith) h2e.le
      have e2 : (2:ℚ)^(e + 52) = 2^52 * 2^e := by rw [zpow_add₀ (by norm_num), mul_comm]; norm_num
      linarith
    rw [if_pos hf] at hlo
    have hfq : (f:ℚ) = 2^52 := by rw [hf]; norm_num
    have e1 : (2:ℚ)^e = 2 * 2^(e-1) := by rw [zpow_sub₀ (by norm_num)]; field_simp
    have e2 : (2:ℚ)^(e + 52) = 2^52 * 2^e := by rw [zpow_add₀ (by norm_num), mul_comm]; norm_num
    have e3 : (2:ℚ)^(e - 1 + 52) = 2^52 * 2^(e-1) := by rw [zpow_add₀ (by norm_num), mul_comm]; norm_num
    have hp : (0:ℚ) < 2^(e-1) := by positivity
    rw [hfq] at hlo
    have hu : ulpExp x = e - 1 := by
      unfold ulpExp
      rw [ilog_unique x hxne (e - 1 + 52) (by rw [habs, e3]; rw [e1] at hlo; linarith) (by rw [habs, show e - 1 + 52 + 1 = e + 52 by ring]; exact hc)]
      omega
    have := hfin (e - 1) (2^53) hu (by
      rw [abs_lt]
      rw [e2] at hc
      push_cast
      constructor
      · linarith
      · linarith)
    rw [this, hfq, e1]
    push_cast; ring

/-! ## from the buffer to the text -/

theorem ofDigit (d : ℤ) (h0 : 0 ≤ d) (h9 : d ≤ 9) : Char.ofNat (48 + d).toNat = Nat.digitChar d.toNat := by
  obtain ⟨n, rfl⟩ := Int.eq_ofNat_of_zero_le h0
  have : n ≤ 9 := by omega
  interval_cases n <;> rfl

theorem chars_val (b : List ℤ) (h : ∀ d ∈ b, 0 ≤ d ∧ d ≤ 9) : (Nat.ofDigitChars 10 (chars b) 0 : ℤ) = val b := by
  induction b using List.reverseRecOn with
  | nil => rfl
  | append_singleton b d ih =>
    have hd := h d (by simp)
    have := ih (fun x hx => h x (List.mem_append_left _ hx))
    unfold chars at this ⊢
    rw [List.map_append, List.map_singleton, Nat.ofDigitChars_append, val_snoc, ← this, ofDigit d hd.1 hd.2]
    rw [Nat.ofDigitChars_cons_digitChar_of_lt_ten (by omega)]
    simp only [Nat.ofDigitChars_nil]
    push_cast
    omega

theorem chars_sig (b : List ℤ) (h : DigOK b) (hne : b ≠ []) (hl : b.length ≤ 17) : SigDigits (chars b) := by
  refine ⟨by unfold chars; simpa using hne, ?_, ?_, by unfold chars; simpa using hl⟩
  · intro c hc
    unfold chars at hc
    obtain ⟨d, hd, rfl⟩ := List.mem_map.mp hc
    have := h.1 d hd
    rw [ofDigit d this.1 this.2]
    have h9 : d.toNat ≤ 9 := by omega
    interval_cases d.toNat <;> rfl
  · cases b with
    | nil => exact absurd rfl hne
    | cons d t =>
      have hd := h.1 d (by simp)
      have h2 := h.2
      simp only [List.head?_cons, ne_eq, Option.some.injEq] at h2
      unfold chars
      simp only [List.map_cons, List.head?_cons, ne_eq, Option.some.injEq]
      rw [ofDigit d hd.1 hd.2]
      obtain ⟨n, rfl⟩ := Int.eq_ofNat_of_zero_le hd.1
      have : n ≤ 9 := by omega
      have : 1 ≤ n := by omega
      simp only [Int.toNat_natCast]
      interval_cases n <;> decide

/-- what the memory after the ten entries of `kPow10` may hold: anything, as long as reading entries 10 to 16 is harmless -/
def Readable (mem : ℕ → Option ℕ) : Prop := ∀ i, 10 ≤ i → i ≤ 16 → ∃ x, mem i = some x

/-- C59: for every positive finite double, the conversion ends, leaves between 1 and 17 decimal digits without a leading zero, and
the decimal number they denote rounds (to nearest, ties to even) to exactly that double — provided the out-of-bounds reads of the
power table are harmless, and whatever they return -/
theorem c59_read_back (mem : ℕ → Option ℕ) (hmem : Readable mem) (biased sig : ℕ) (h : PosFields biased sig) :
    ∃ ds k, grisuDec mem biased sig = some ⟨ds, k⟩ ∧ SigDigits ds ∧ rnd (decValue ds k) = dblValue biased sig := by
  obtain ⟨hb, hs, hz⟩ := h
  have key : ∀ (f : ℕ) (e : ℤ), ofDouble biased sig = ⟨f, e⟩ → 0 < f → f < 2^53 → -1074 ≤ e → e ≤ 971 → (2^52 ≤ f ∨ e = -1074) →
      dblValue biased sig = f * 2^e →
      ∃ ds k, grisuDec mem biased sig = some ⟨ds, k⟩ ∧ SigDigits ds ∧ rnd (decValue ds k) = dblValue biased sig := by
    intro f e ho h0 h1 he1 he2 hn hv
    obtain ⟨b, k, hg, hok, hne, hl, hhi, hlo⟩ := grisu2_spec mem hmem f e h0 h1 he1 he2
    refine ⟨chars b, k, ?_, chars_sig b hok hne hl, ?_⟩
    · unfold grisuDec
      rw [ho, hg]; rfl
    · have hd : decValue (chars b) k = (val b : ℚ) * 10^k := by
        unfold decValue
        rw [← chars_val b hok.1, Int.cast_natCast]
      rw [hd, hv]
      exact rnd_between h0 h1 he1 hn hhi hlo
  by_cases h0 : biased = 0
  · have hs0 : sig ≠ 0 := hz.resolve_left (by simpa using h0)
    refine key sig (-1074) ?_ (by omega) (by omega) (by omega) (by omega) (Or.inr rfl) ?_
    · unfold ofDouble; rw [if_neg (by simpa using h0)]; rfl
    · unfold dblValue; rw [if_pos h0]
  · refine key (sig + 2^52) ((biased:ℤ) - 1075) ?_ (by omega) (by omega) (by omega) (by omega) (Or.inl (by omega)) ?_
    · unfold ofDouble; rw [if_pos h0]
    · unfold dblValue; rw [if_neg h0]; push_cast; ring

/-- a concrete case: 19.96 -/
example : PosFields 1027 1114640907774198 ∧ dblValue 1027 1114640907774198 = rnd (1996/100) := by
  refine ⟨⟨by norm_num, by norm_num, Or.inl (by norm_num)⟩, by decide +kernel⟩

/-- C59, the defect: for the double 1/3 the conversion reads the power table beyond its ten entries (undefined behaviour), and what
is read matters: for the double after 1 the digits would be 1.0000000000000002 with the power of ten that should have been there,
but 1.0000000000000003 if the memory holds 0 -/
theorem c59_out_of_bounds : grisuDec (fun _ => none) 1021 1501199875790165 = none ∧ dblValue 1021 1501199875790165 = rnd (1/3) ∧
    (grisuDec (fun i => some (10^i)) 1023 1).map (fun d => (d.ds, d.k)) = some (['1', '0', '0', '0', '0', '0', '0', '0', '0', '0', '0', '0', '0', '0', '0', '0', '2'], -16) ∧
    (grisuDec (fun _ => some 0) 1023 1).map (fun d => (d.ds, d.k)) = some (['1', '0', '0', '0', '0', '0', '0', '0', '0', '0', '0', '0', '0', '0', '0', '0', '3'], -16) := by
  refine ⟨?_, ?_, ?_, ?_⟩ <;> decide +kernel

/-! ## C29 and C35 for doubles -/

/-- the digits the program finds for the double `x ≥ 0` (`none` for zero, which is printed separately) -/
def digitsOf (mem : ℕ → Option ℕ) (x : ℚ) : Option Dec :=
  if x = 0 then none else grisuDec mem (fields x).1 (fields x).2

theorem fields_spec {x : ℚ} (hx : IsDouble x) (h0 : 0 < x) (hb : x < 2^1024) :
    PosFields (fields x).1 (fields x).2 ∧ dblValue (fields x).1 (fields x).2 = x := by
  have hne := h0.ne'
  obtain ⟨f, hf1, hf2⟩ : ∃ f : ℕ, x = f * 2^(ulpExp x) ∧ f < 2^53 := by
    obtain ⟨k, hk, -⟩ := rnd_form x hne
    rw [hx] at hk
    have hu := two_zpow_pos (ulpExp x)
    have hk0 : 0 < k := by
      have : (0:ℚ) < k := by
        by_contra hc
        push Not at hc
        have := mul_nonpos_of_nonpos_of_nonneg hc hu.le
        linarith
      exact_mod_cast this
    obtain ⟨n, rfl⟩ := Int.eq_ofNat_of_zero_le hk0.le
    refine ⟨n, by rw [Int.cast_natCast] at hk; exact hk, ?_⟩
    have h := abs_lt_ulp x hne
    rw [abs_of_pos h0, hk] at h
    have hlt : ((n:ℤ):ℚ) < 2^53 := by
      by_contra hc
      push Not at hc
      have := mul_le_mul_of_nonneg_right hc hu.le
      rw [← hk] at this h
      linarith
    exact_mod_cast hlt
  have hfn : (x * pow2 (-(ulpExp x))).num.natAbs = f := by
    have : x * pow2 (-(ulpExp x)) = (f:ℚ) := by
      rw [pow2_eq]
      calc x * 2^(-(ulpExp x)) = f * 2^(ulpExp x) * 2^(-(ulpExp x)) := by rw [← hf1]
        _ = f := by rw [mul_assoc, ← zpow_add₀ (by norm_num), add_neg_cancel, zpow_zero, mul_one]
    rw [this]; simp
  have hfp : 0 < f := by
    rcases Nat.eq_zero_or_pos f with h | h
    · rw [h] at hf1; simp at hf1; exact absurd hf1 hne
    · exact h
  have hue : -1074 ≤ ulpExp x := le_max_right _ _
  have hsp := ilog_spec x hne
  rw [abs_of_pos h0] at hsp
  have huu : ulpExp x ≤ 971 := by
    unfold ulpExp
    have : ilog x < 1024 := by
      by_contra hc
      have h3 : (2:ℚ)^(1024:ℤ) ≤ 2^(ilog x) := zpow_le_zpow_right₀ (by norm_num) (by omega)
      have h4 : (2:ℚ)^(1024:ℤ) = 2^1024 := by rw [← zpow_natCast]; rfl
      rw [h4] at h3
      linarith [hsp.1]
    omega
  have hfl : f < 2^52 → ulpExp x = -1074 := by
    intro hlt
    by_contra hc
    have hil : ulpExp x = ilog x - 52 := by unfold ulpExp at hc ⊢; omega
    have h1 : (f:ℚ) + 1 ≤ 2^52 := by exact_mod_cast hlt
    have h2 : (2:ℚ)^(ilog x) = 2^52 * 2^(ulpExp x) := by
      rw [hil, show (2:ℚ)^52 = 2^(52:ℤ) by norm_num, ← zpow_add₀ (by norm_num)]; congr 1; ring
    have h3 := hsp.1
    rw [h2] at h3
    have h4 := mul_lt_mul_of_pos_right (show (f:ℚ) < 2^52 by linarith) (two_zpow_pos (ulpExp x))
    rw [← hf1] at h4
    linarith
  unfold fields
  simp only
  rw [hfn]
  by_cases hc : f < 2^52
  · rw [if_pos hc]
    refine ⟨⟨by simp, hc, Or.inr (by simp only; omega)⟩, ?_⟩
    unfold dblValue
    simp only
    rw [if_pos trivial, ← hfl hc]
    exact hf1.symm
  · rw [if_neg hc]
    refine ⟨⟨by simp only; omega, by simp only; omega, Or.inl (by simp only; omega)⟩, ?_⟩
    unfold dblValue
    simp only
    rw [if_neg (by omega), show (((ulpExp x + 1075).toNat : ℕ):ℤ) - 1075 = ulpExp x by omega, Nat.cast_sub (by omega)]
    have e9 : (2:ℚ)^52 + ((f:ℚ) - ((2^52 : ℕ):ℚ)) = f := by push_cast; ring
    rw [e9]
    exact hf1.symm

theorem digitsOf_spec (mem : ℕ → Option ℕ) (hmem : Readable mem) {x : ℚ} (hx : IsDouble x) (h0 : 0 < x) (hb : x < 2^1024) :
    ∃ ds k, digitsOf mem x = some ⟨ds, k⟩ ∧ SigDigits ds ∧ rnd (decValue ds k) = x := by
  obtain ⟨h1, h2⟩ := fields_spec hx h0 hb
  obtain ⟨ds, k, e1, e2, e3⟩ := c59_read_back mem hmem _ _ h1
  refine ⟨ds, k, ?_, e2, by rw [e3, h2]⟩
  unfold digitsOf
  rw [if_neg h0.ne']
  exact e1

/-- a decimal that reads back as a normal double is within `x / 2^52` of it -/
theorem close_of_back {d x : ℚ} (hd : 0 < d) (h : rnd d = x) (hx : 1/10^6 ≤ x) : |d - x| ≤ x / 2^52 := by
  have h1 := rnd_err (q := d) (B := max d (2^(-1022:ℤ))) (by rw [abs_of_pos hd]; exact le_max_left _ _) (le_max_right _ _)
  rw [h, abs_sub_comm] at h1
  have h53 : (2:ℚ)^(-53:ℤ) = 1/9007199254740992 := by norm_num
  rw [h53] at h1
  have hbig : (2:ℚ)^(-1022:ℤ) ≤ 1/10^6 * (1/2) := by
    calc (2:ℚ)^(-1022:ℤ) ≤ 2^(-30:ℤ) := zpow_le_zpow_right₀ (by norm_num) (by norm_num)
      _ ≤ 1/10^6 * (1/2) := by norm_num
  obtain ⟨a, b⟩ := abs_le.mp h1
  rcases max_cases d ((2:ℚ)^(-1022:ℤ)) with ⟨hm, -⟩ | ⟨hm, -⟩
  · rw [hm] at a b h1
    refine h1.trans ?_
    rw [show (2:ℚ)^52 = 4503599627370496 by norm_num]
    linarith
  · rw [hm] at a b h1
    refine h1.trans ?_
    rw [show (2:ℚ)^52 = 4503599627370496 by norm_num]
    linarith

/-- `x` is within half a unit of the last printed place (and a tiny relative margin) of a number with a single non-zero digit, `c·10^m`,
`c = 2, …, 10`, `m ≥ 1`: there the rounding may run into the carry defect -/
def NearRound (x : ℚ) (p : ℕ) : Prop := ∃ c m : ℕ, 2 ≤ c ∧ c ≤ 10 ∧ 1 ≤ m ∧ |x - c * 10^m| ≤ 1/2 / 10^p + x / 2^52

theorem carry_near {ds : Str} {k : ℤ} {p : ℕ} (hs : SigDigits ds) (hbug : CarryBug ds k p) :
    ∃ c m : ℕ, 2 ≤ c ∧ c ≤ 10 ∧ 1 ≤ m ∧ (c:ℚ) * 10^m - 1/2 / 10^p ≤ decValue ds k ∧ decValue ds k < c * 10^m := by
  obtain ⟨h0, hd, hz, hl⟩ := hs
  obtain ⟨hk2, h9, e, r, her, he⟩ := hbug
  obtain ⟨kk, hkk⟩ := Int.eq_ofNat_of_zero_le (show (0:ℤ) ≤ ds.length + k by omega)
  rw [hkk] at h9 her hk2
  simp only [Int.toNat_natCast] at h9 her
  have hk2' : 2 ≤ kk := by exact_mod_cast hk2
  have hdl : ds.length = kk + p + r.length + 1 := by
    have := congrArg List.length her
    simp at this; omega
  obtain ⟨d, A, hA⟩ : ∃ d A, ds.take (kk + p) = d :: A := by
    rcases hx : ds.take (kk + p) with _ | ⟨d, A⟩
    · have h' : (ds.take (kk + p)).length = 0 := by rw [hx]; rfl
      rw [List.length_take] at h'; omega
    · exact ⟨d, A, rfl⟩
  have hAl : A.length = kk + p - 1 := by
    have := congrArg List.length hA
    simp at this; omega
  have hA9 : A = List.replicate (kk + p - 1) '9' := by
    rw [List.eq_replicate_iff]
    refine ⟨hAl, fun c hc => h9 c ?_⟩
    rw [hA]; exact hc
  have hds : ds = ([d] ++ List.replicate (kk + p - 1) '9') ++ e :: r := by
    rw [← List.take_append_drop (kk + p) ds, her, hA, hA9]; rfl
  have hdd : d.isDigit = true := hd d (by rw [hds]; simp)
  have hed : Digits (e :: r) := fun c hc => hd c (by rw [hds]; exact List.mem_append_right _ hc)
  obtain ⟨n, hn, rfl⟩ := digit_cases hdd
  have hn0 : 1 ≤ n := by
    rcases Nat.eq_zero_or_pos n with h | h
    · subst h; rw [hds] at hz; simp [Nat.digitChar] at hz
    · exact h
  have v1 : Dtoa.val [Nat.digitChar n] = n := by
    unfold Dtoa.val
    rw [Nat.ofDigitChars_cons_digitChar_of_lt_ten hn]; simp
  have v2 : Dtoa.val (List.replicate (kk + p - 1) '9') + 1 = 10^(kk + p - 1) := by
    have := of_nines (kk + p - 1) 0
    unfold Dtoa.val; simpa using this
  obtain ⟨q, hq9, rfl⟩ := digit_cases (hed e (by simp))
  have hq5 : 5 ≤ q := by
    by_contra hc
    have : q ≤ 4 := by omega
    interval_cases q <;> revert he <;> decide
  have v3 : Dtoa.val (Nat.digitChar q :: r) = q * 10^r.length + Dtoa.val r := by
    rw [show Nat.digitChar q :: r = [Nat.digitChar q] ++ r by rfl, val_append]
    have : Dtoa.val [Nat.digitChar q] = q := by
      unfold Dtoa.val
      rw [Nat.ofDigitChars_cons_digitChar_of_lt_ten hq9]; simp
    rw [this, mul_comm]
  have v4 : Dtoa.val (Nat.digitChar q :: r) < 10^(r.length + 1) := by
    have := val_lt _ hed
    simpa using this
  have hval : Dtoa.val ds = 10^(r.length + 1) * (10^(kk + p - 1) * n + Dtoa.val (List.replicate (kk + p - 1) '9')) + Dtoa.val (Nat.digitChar q :: r) := by
    rw [hds, val_append, val_append, v1]
    simp
  have hdec : decValue ds k = (Dtoa.val ds : ℚ) / (10^(r.length + 1) * 10^p) := by
    unfold decValue Dtoa.val
    rw [show k = -(((r.length + 1) + p : ℕ):ℤ) by push_cast; omega, zpow_neg, zpow_natCast, pow_add]
    rw [div_eq_mul_inv]
  have hpr : (0:ℚ) < 10^(r.length + 1) := by positivity
  have hpp : (0:ℚ) < 10^p := by positivity
  have hm : (10:ℚ)^(kk + p - 1) = 10^(kk - 1) * 10^p := by rw [← pow_add]; congr 1; omega
  have v2' : (Dtoa.val (List.replicate (kk + p - 1) '9') : ℚ) = 10^(kk - 1) * 10^p - 1 := by
    have : ((Dtoa.val (List.replicate (kk + p - 1) '9') + 1 : ℕ):ℚ) = ((10^(kk + p - 1) : ℕ):ℚ) := by rw [v2]
    push_cast at this
    rw [hm] at this
    linarith
  have v3' : (5:ℚ) * 10^r.length ≤ (Dtoa.val (Nat.digitChar q :: r) : ℚ) := by
    have : 5 * 10^r.length ≤ Dtoa.val (Nat.digitChar q :: r) := by
      rw [v3]
      have := Nat.mul_le_mul_right (10^r.length) hq5
      omega
    exact_mod_cast this
  have v4' : (Dtoa.val (Nat.digitChar q :: r) : ℚ) < 10^(r.length + 1) := by exact_mod_cast v4
  refine ⟨n + 1, kk - 1, by omega, by omega, by omega, ?_, ?_⟩
  · rw [hdec, le_div_iff₀ (by positivity), hval]
    push_cast
    rw [v2', hm]
    have e1 : ((((n:ℚ) + 1) * 10^(kk - 1)) - 1/2 / 10^p) * (10^(r.length + 1) * 10^p) =
        10^(r.length + 1) * ((((n:ℚ) + 1) * 10^(kk - 1)) * 10^p) - 1/2 * 10^(r.length + 1) := by field_simp
    rw [e1]
    have e2 : (10:ℚ)^(r.length + 1) = 10 * 10^r.length := by rw [pow_succ]; ring
    nlinarith
  · rw [hdec, div_lt_iff₀ (by positivity), hval]
    push_cast
    rw [v2', hm]
    nlinarith

theorem not_carry {ds : Str} {k : ℤ} {p : ℕ} {x : ℚ} (hs : SigDigits ds) (hc : |decValue ds k - x| ≤ x / 2^52) (hn : ¬ NearRound x p) :
    ¬ CarryBug ds k p := by
  intro hb
  obtain ⟨c, m, h1, h2, h3, h4, h5⟩ := carry_near hs hb
  apply hn
  refine ⟨c, m, h1, h2, h3, ?_⟩
  have hp : (0:ℚ) < 1/2 / 10^p := by positivity
  obtain ⟨a, b⟩ := abs_le.mp hc
  rw [abs_le]
  constructor <;> linarith

theorem dec_pos {ds : Str} {k : ℤ} (hs : SigDigits ds) : 0 < decValue ds k :=
  lt_of_lt_of_le (by positivity) (MinSec.magnitude k hs).1

/-- C29 for doubles: `to_str(±x, p, len, right)` of every double `x` from just above 10⁻⁶ to just below 10²¹, with `p ≥ 1` decimals, fitting the 32-byte
buffer and not within half a printed unit of a number `c·10^m` (there the carry defect `c29_carry_defect` may strike): the text is the
sign, and a decimal with exactly `p` decimals within half a unit of the last place of `x` (plus the rounding of a double) -/
theorem c29_double_partial (mem : ℕ → Option ℕ) (hmem : Readable mem) (neg : Bool) (x : ℚ) (hx : IsDouble x) (hlo : 1/10^6 * (1 + 1/10^15) ≤ x)
    (m : ℕ) (hm1 : 1 ≤ m) (hm2 : m ≤ 21) (hhi : x * (1 + 1/10^15) < 10^m) (p : ℕ) (hp : 0 < p) (hroom : (sgn neg).length + m + p + 2 ≤ 32) (hn : ¬ NearRound x p)
    (len : ℤ) (hl0 : 0 ≤ len) (hl1 : len ≤ 63) (right : Bool) :
    ∃ (N : ℕ) (s : Str), |(N:ℚ) / 10^p - x| ≤ 1/2 / 10^p + x / 2^52 ∧ toStrDec neg (digitsOf mem x) p len right = some s ∧
      Padded len right (sgn neg ++ fixedText p N) s := by
  have hx0 : 0 < x := lt_of_lt_of_le (by norm_num) hlo
  have hb : x < 2^1024 := by
    have h1 : (10:ℚ)^m ≤ 10^21 := pow_le_pow_right₀ (by norm_num) hm2
    have h2 : (10:ℚ)^21 ≤ 2^70 := by norm_num
    refine lt_of_lt_of_le (show x < 2^70 by linarith) (pow_le_pow_right₀ (by norm_num) (by norm_num))
  obtain ⟨ds, k, e1, hs, hback⟩ := digitsOf_spec mem hmem hx hx0 hb
  have hd0 := dec_pos (k := k) hs
  have hc := close_of_back hd0 hback (by linarith)
  obtain ⟨g1, g2⟩ := abs_le.mp hc
  obtain ⟨m1, m2⟩ := MinSec.magnitude k hs
  have h52 : (2:ℚ)^52 = 4503599627370496 := by norm_num
  rw [h52] at g1 g2
  have k1 : (-6:ℤ) < ds.length + k := by
    have h1 : (10:ℚ)^(-6:ℤ) < 10^((ds.length:ℤ) + k) := by
      refine lt_of_le_of_lt ?_ m2
      rw [show (10:ℚ)^(-6:ℤ) = 1/10^6 by norm_num]
      linarith
    exact (zpow_lt_zpow_iff_right₀ (by norm_num : (1:ℚ) < 10)).1 h1
  have k2 : (ds.length:ℤ) + k ≤ m := by
    have h1 : (10:ℚ)^((ds.length:ℤ) + k - 1) < 10^(m:ℤ) := by
      refine lt_of_le_of_lt m1 ?_
      rw [zpow_natCast]
      linarith
    have := (zpow_lt_zpow_iff_right₀ (by norm_num : (1:ℚ) < 10)).1 h1
    omega
  obtain ⟨N, s, r1, r2, r3⟩ := c29_fixed_partial neg ds k p len right hs k1 (by omega) hp (by
      have : max ((ds.length:ℤ) + k) 1 ≤ m := max_le k2 (by exact_mod_cast hm1)
      have : (((sgn neg).length + m + p + 2 : ℕ):ℤ) ≤ 32 := by exact_mod_cast hroom
      push_cast at this
      linarith) (not_carry hs hc hn) hl0 hl1
  refine ⟨N, s, ?_, by rw [e1]; exact r2, r3⟩
  have hpp : (0:ℚ) < 10^p := by positivity
  have q1 : |(N:ℚ) / 10^p - decValue ds k| ≤ 1/2 / 10^p := by
    have : (N:ℚ) / 10^p - decValue ds k = (N - decValue ds k * 10^p) / 10^p := by field_simp
    rw [this, abs_div, abs_of_pos hpp]
    apply div_le_div_of_nonneg_right _ hpp.le
    rw [abs_le]
    constructor <;> linarith [r1.1, r1.2]
  calc |(N:ℚ) / 10^p - x| = |((N:ℚ) / 10^p - decValue ds k) + (decValue ds k - x)| := by ring_nf
    _ ≤ |(N:ℚ) / 10^p - decValue ds k| + |decValue ds k - x| := abs_add_le _ _
    _ ≤ 1/2 / 10^p + x / 2^52 := add_le_add q1 hc

/-- C35 for doubles: `m2fm(v, p, fs)` with the digits the program really finds for the seconds `m`, `|v| = 60·f + m` -/
theorem c35_double_partial (mem : ℕ → Option ℕ) (hmem : Readable mem) (v : ℚ) (p : ℕ) (fs : ℤ) (hv : IsDouble v) (hb : |v| < 2147483640)
    (hp : 0 < p ∧ p ≤ 27) (hfs : fs = 0 ∨ fs = 1 ∨ fs = 2)
    (f : ℕ) (m : ℚ) (hm : |v| = 60 * f + m) (hm0 : 1/10^6 * (1 + 1/10^15) ≤ m) (hm1 : m < 60) (hn : ¬ NearRound m p) :
    ∃ N : ℕ, |(N:ℚ) / 10^p - m| ≤ 1/2 / 10^p + m / 2^52 ∧ N < 60 * 10 ^ p ∧
      MinSec.m2fm (digitsOf mem) v p fs =
        some ((if v < 0 then ['-'] else []) ++ Nat.toDigits 10 f ++ (MinSec.marks fs).1 ++ fixedText p N ++ (MinSec.marks fs).2) := by
  have hx0 : 0 < m := lt_of_lt_of_le (by norm_num) hm0
  have hmd : IsDouble m := by
    have hva : IsDouble |v| := by
      rcases abs_cases v with ⟨h, -⟩ | ⟨h, -⟩ <;> rw [h]
      · exact hv
      · exact hv.neg
    obtain ⟨f', -, -, h3, h4, h5, -⟩ := MinSec.split hva (abs_nonneg _) hb
    have hff : f' = f := by
      have a : (f:ℚ) < f' + 1 := by linarith
      have b : (f':ℚ) < f + 1 := by linarith
      have a' : f < f' + 1 := by exact_mod_cast a
      have b' : f' < f + 1 := by exact_mod_cast b
      omega
    have : m = rnd (|v| - (60 * (f' : ℤ) : ℤ)) := by rw [h3, hff]; linarith
    rw [this]
    exact rnd_isDouble _
  have hb1 : m < 2^1024 := by
    exact lt_of_lt_of_le (show m < 2^70 by linarith [show (60:ℚ) ≤ 2^70 by norm_num]) (pow_le_pow_right₀ (by norm_num) (by norm_num))
  obtain ⟨ds, k, e1, hs, hback⟩ := digitsOf_spec mem hmem hmd hx0 hb1
  have hd0 := dec_pos (k := k) hs
  have hc := close_of_back hd0 hback (by linarith)
  obtain ⟨g1, g2⟩ := abs_le.mp hc
  obtain ⟨m1, m2⟩ := MinSec.magnitude k hs
  have h52 : (2:ℚ)^52 = 4503599627370496 := by norm_num
  rw [h52] at g1 g2
  have k1 : (-6:ℤ) < ds.length + k := by
    have h1 : (10:ℚ)^(-6:ℤ) < 10^((ds.length:ℤ) + k) := by
      refine lt_of_le_of_lt ?_ m2
      rw [show (10:ℚ)^(-6:ℤ) = 1/10^6 by norm_num]
      linarith
    exact (zpow_lt_zpow_iff_right₀ (by norm_num : (1:ℚ) < 10)).1 h1
  obtain ⟨N, r1, r2, r3⟩ := MinSec.c35_m2fm_partial (digitsOf mem) v p fs hv hb hp hfs ds k f m hm hx0 hm1 e1 hs hback k1 (not_carry hs hc hn)
  refine ⟨N, ?_, r2, r3⟩
  have hpp : (0:ℚ) < 10^p := by positivity
  have q1 : |(N:ℚ) / 10^p - decValue ds k| ≤ 1/2 / 10^p := by
    have : (N:ℚ) / 10^p - decValue ds k = (N - decValue ds k * 10^p) / 10^p := by field_simp
    rw [this, abs_div, abs_of_pos hpp]
    apply div_le_div_of_nonneg_right _ hpp.le
    rw [abs_le]
    constructor <;> linarith [r1.1, r1.2]
  calc |(N:ℚ) / 10^p - m| = |((N:ℚ) / 10^p - decValue ds k) + (decValue ds k - m)| := by ring_nf
    _ ≤ |(N:ℚ) / 10^p - decValue ds k| + |decValue ds k - m| := abs_add_le _ _
    _ ≤ 1/2 / 10^p + m / 2^52 := add_le_add q1 hc

/-- a concrete case: 12.25 with two decimals -/
example : IsDouble (1225/100) ∧ ¬ NearRound (1225/100) 2 := by
  refine ⟨by unfold IsDouble; decide +kernel, ?_⟩
  rintro ⟨c, m, h1, h2, h3, h4⟩
  have hc : (2:ℚ) ≤ c := by exact_mod_cast h1
  have hm : (10:ℚ)^1 ≤ 10^m := pow_le_pow_right₀ (by norm_num) h3
  have : (20:ℚ) ≤ c * 10^m := by nlinarith
  have h5 := (abs_le.mp h4).1
  norm_num at h5
  linarith

end Verif.Grisu
