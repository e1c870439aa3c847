import Verif.PrattData
import Verif.Props.Hash
import Mathlib.NumberTheory.LucasPrimality

/-!
# C89: every bucket count is a prime number

The 99 entries of `ht_prime_list` are primes: a certificate (a primitive root and the prime factors of `p - 1`) for each, checked by the kernel.
-/

namespace Verif.Hash

/-- `a ^ e` modulo `n`, `e < 2 ^ fuel` -/
def powMod (n a : ℕ) : ℕ → ℕ → ℕ
  | 0, _ => 1 % n
  | f + 1, e => let h := powMod n a f (e / 2); if e % 2 = 1 then h * h % n * a % n else h * h % n

theorem powMod_eq (n a : ℕ) : ∀ {f e : ℕ}, e < 2 ^ f → powMod n a f e = a ^ e % n := by
  intro f
  induction f with
  | zero =>
    intro e h
    have : e = 0 := by simpa using h
    subst this
    rfl
  | succ f ih =>
    intro e h
    have h2 : e / 2 < 2 ^ f := by rw [pow_succ] at h; omega
    have sq : a ^ (e / 2) % n * (a ^ (e / 2) % n) % n = a ^ (e / 2 + e / 2) % n := by rw [← Nat.mul_mod, ← pow_add]
    show (if e % 2 = 1 then powMod n a f (e / 2) * powMod n a f (e / 2) % n * a % n else powMod n a f (e / 2) * powMod n a f (e / 2) % n) = _
    rw [ih h2, sq]
    split_ifs with h1
    · rw [Nat.mod_mul_mod, ← pow_succ]
      congr 2
      omega
    · congr 2
      omega

/-- the certificate is right, given the primes `known` -/
def good (known : List ℕ) (c : ℕ × ℕ × List ℕ) : Bool :=
  decide (2 ≤ c.1) && decide (c.1 < 2 ^ 64) && decide (c.2.2.prod = c.1 - 1) && c.2.2.all (fun q => known.contains q) && decide (powMod c.1 c.2.1 64 (c.1 - 1) = 1)
    && c.2.2.all fun q => decide (powMod c.1 c.2.1 64 ((c.1 - 1) / q) ≠ 1)

theorem good_prime {known : List ℕ} (hk : ∀ q ∈ known, q.Prime) {c : ℕ × ℕ × List ℕ} (h : good known c = true) : c.1.Prime := by
  obtain ⟨p, a, l⟩ := c
  simp only [good, Bool.and_eq_true, decide_eq_true_eq, List.all_eq_true, List.contains_iff_mem] at h
  obtain ⟨⟨⟨⟨⟨h2, h64⟩, hp⟩, hl⟩, h1⟩, hne⟩ := h
  rw [powMod_eq _ _ (by omega)] at h1
  have cast : ∀ e, ((a : ZMod p) ^ e = 1 ↔ a ^ e % p = 1) := by
    intro e
    have : ((a ^ e : ℕ) : ZMod p) = ((1 : ℕ) : ZMod p) ↔ a ^ e ≡ 1 [MOD p] := ZMod.natCast_eq_natCast_iff _ _ _
    push_cast at this
    rw [this]
    unfold Nat.ModEq
    rw [Nat.mod_eq_of_lt (a := 1) (by omega)]
  refine lucas_primality p (a : ZMod p) ((cast _).2 h1) fun q hq hd => ?_
  rw [← hp] at hd
  obtain ⟨x, hx, hqx⟩ := (Nat.Prime.prime hq).dvd_prod_iff.1 hd
  have e : q = x := (Nat.prime_dvd_prime_iff_eq hq (hk x (hl x hx))).1 hqx
  subst e
  have := hne q hx
  rw [powMod_eq _ _ (by have := Nat.div_le_self (p - 1) q; omega)] at this
  rw [Ne, cast]
  exact this

/-- run the certificates; `none`: one is wrong -/
def run : List (ℕ × ℕ × List ℕ) → List ℕ → Option (List ℕ)
  | [], known => some known
  | c :: cs, known => if good known c then run cs (c.1 :: known) else none

theorem run_prime : ∀ {cs : List (ℕ × ℕ × List ℕ)} {known out : List ℕ}, (∀ q ∈ known, q.Prime) → run cs known = some out → ∀ q ∈ out, q.Prime
  | [], known, out, hk, h => by
    cases h
    exact hk
  | c :: cs, known, out, hk, h => by
    unfold run at h
    split_ifs at h with hg
    refine run_prime (known := c.1 :: known) ?_ h
    intro q hq
    rcases List.mem_cons.1 hq with rfl | hq
    · exact good_prime hk hg
    · exact hk q hq

theorem primeList_prime : ∀ p ∈ primeList, p.Prime := by
  have h : ∃ out, run certs [2] = some out ∧ ∀ p ∈ primeList, p ∈ out := by
    have : (match run certs [2] with | some out => primeList.all fun p => out.contains p | none => false) = true := by decide +kernel
    revert this
    cases run certs [2] with
    | none => intro h; cases h
    | some out =>
      intro h
      refine ⟨out, rfl, fun p hp => ?_⟩
      simp only [List.all_eq_true, List.contains_iff_mem] at h
      exact h p hp
  obtain ⟨out, h1, h2⟩ := h
  exact fun p hp => run_prime (fun q hq => by rw [List.mem_singleton.1 hq]; exact Nat.prime_two) h1 p (h2 p hp)

variable {K V F : Type} (c : Cfg K V F)

/-- **C89 (bucket count).**  Whatever number of buckets is asked for, the table gets a prime number of them: the number asked for or more, at most about half as many more again (never fewer than 101),
unless 18446744073709551557, the largest 64-bit prime, was exceeded. -/
theorem c89_bucket_prime (n : ℕ) : ∃ t, init c n = some t ∧ t.bsize.Prime ∧ (n ≤ t.bsize ∨ t.bsize = 18446744073709551557) ∧ (t.bsize = 101 ∨ 100 * t.bsize ≤ 172 * n) := by
  obtain ⟨t, h, m, h1, h2, -⟩ := c89_bucket_count (c := c) n
  refine ⟨t, h, primeList_prime _ m, h1, ?_⟩
  have gap : ∀ i < 99, 0 < i → 100 * primeList[i]! ≤ 172 * (primeList[i - 1]! + 1) ∧ primeList[i]! ≠ 101 := by decide +kernel
  have ix : ∀ i < 99, primeList[i]! ∈ primeList := by decide +kernel
  have len : primeList.length = 99 := by decide +kernel
  obtain ⟨i, hi, e⟩ := List.mem_iff_getElem.1 m
  rw [len] at hi
  have e' : primeList[i]! = t.bsize := by rw [← e]; exact getElem!_pos primeList i (by omega)
  rcases Nat.eq_zero_or_pos i with rfl | hp
  · left
    rw [← e']; decide +kernel
  · right
    have g := (gap i hi hp).1
    rw [e'] at g
    have lt : primeList[i - 1]! < primeList[i]! := by
      have : ∀ i < 99, 0 < i → primeList[i - 1]! < primeList[i]! := by decide +kernel
      exact this i hi hp
    have : primeList[i - 1]! < n := by
      by_contra hc
      have := h2 _ (ix (i - 1) (by omega)) (by omega)
      omega
    omega

end Verif.Hash
