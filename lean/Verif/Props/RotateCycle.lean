import Verif.Props.RotateSwap
import Mathlib.Data.Nat.GCD.Basic
import Mathlib.Data.Int.GCD
import Mathlib.Data.Nat.ModEq
import Mathlib.Tactic.Ring

/-! # C64, third part: `rotate` with random access iterators moves the elements round the cycles of the rotation -/

namespace Verif.Permute

open Verif.Sort (wr)

variable {α : Type}

theorem rgcd_ok : ∀ (fuel m n : Nat), n < fuel → rgcd fuel m n = some (Nat.gcd n m)
  | 0, _, _, h => by omega
  | fuel + 1, m, n, h => by
    unfold rgcd
    by_cases hn : n ≠ 0
    · rw [if_pos hn, rgcd_ok fuel n (m % n) (by have := Nat.mod_lt m (Nat.pos_of_ne_zero hn); omega)]
      rw [Nat.gcd_rec n m]
    · rw [if_neg hn]; simp only [ne_eq, not_not] at hn; subst hn; simp

theorem cpy_ok {a : List α} {p q : Nat} (hp : p < a.length) (hq : q < a.length) :
    ∃ b, cpy a p q = some b ∧ b.length = a.length ∧ ∀ k, b[k]? = if k = p then a[q]? else a[k]? := by
  refine ⟨a.set p a[q], ?_, by simp, ?_⟩
  · unfold cpy
    rw [List.getElem?_eq_getElem hq]
    simp only [Option.bind_eq_bind, Option.bind_some]
    exact wr_ok hp _
  · intro k
    rw [List.getElem?_set]
    by_cases h : p = k
    · rw [if_pos h, if_pos h.symm, if_pos hp, List.getElem?_eq_getElem hq]
    · rw [if_neg h, if_neg (fun h' => h h'.symm)]

/-- the `j`-th place of the cycle through `i` -/
def orb (l n i j : Nat) : Nat := (i + j * l) % n

theorem orb_lt {l n i j : Nat} (hn : 0 < n) : orb l n i j < n := Nat.mod_lt _ hn

theorem orb_zero {l n i : Nat} (hi : i < n) : orb l n i 0 = i := by unfold orb; rw [Nat.zero_mul, Nat.add_zero, Nat.mod_eq_of_lt hi]

theorem orb_succ (l n i j : Nat) : orb l n i (j + 1) = (orb l n i j + l) % n := by
  unfold orb
  rw [Nat.mod_add_mod, Nat.succ_mul, Nat.add_assoc]

theorem step_low {l r q : Nat} (h : q < r) : (q + l) % (l + r) = q + l := Nat.mod_eq_of_lt (by omega)

theorem step_high {l r q : Nat} (h : r ≤ q) (h2 : q < l + r) : (q + l) % (l + r) = q - r := by
  rw [show q + l = (q - r) + (l + r) by omega, Nat.add_mod_right, Nat.mod_eq_of_lt (by omega)]

/-- two meetings of the orbit give an earlier return to its start -/
theorem orb_eq {l n i j k : Nat} (hi : i < n) (hjk : j ≤ k) (h : orb l n i k = orb l n i j) : orb l n i (k - j) = i := by
  unfold orb at *
  have h1 : i + k * l ≡ i + j * l [MOD n] := h
  have e : i + k * l = i + j * l + (k - j) * l := by
    rw [Nat.add_assoc, ← Nat.add_mul]; congr 2; omega
  rw [e] at h1
  have h2 : (k - j) * l ≡ 0 [MOD n] := by
    refine Nat.ModEq.add_left_cancel' (i + j * l) ?_
    rw [Nat.add_zero]; exact h1
  have h3 : i + (k - j) * l ≡ i + 0 [MOD n] := Nat.ModEq.add_left i h2
  rw [Nat.add_zero] at h3
  have h4 : (i + (k - j) * l) % n = i % n := h3
  rw [h4, Nat.mod_eq_of_lt hi]

/-- after `k` moves of the cycle through `i`, the places already visited hold what came `l` places later -/
def St (a : List α) (F l n i k : Nat) (b : List α) : Prop :=
  b.length = a.length ∧ (∀ y, (∃ j, j < k ∧ y = F + orb l n i j) → b[y]? = a[F + (y - F + l) % n]?) ∧
    (∀ y, (∀ j, j < k → y ≠ F + orb l n i j) → b[y]? = a[y]?)

theorem St.zero (a : List α) (F l n i : Nat) : St a F l n i 0 a :=
  ⟨rfl, fun y ⟨j, hj, _⟩ => by omega, fun _ _ => rfl⟩

/-- the orbit has not come back to its start up to step `k` -/
def Away (l n i k : Nat) : Prop := ∀ m, 1 ≤ m → m ≤ k → orb l n i m ≠ i

theorem St.step {a b : List α} {F l n i k : Nat} (hs : St a F l n i k b) (hi : i < n) (hF : F + n ≤ a.length)
    (haw : Away l n i k) (hne : orb l n i (k + 1) ≠ i) :
    Away l n i (k + 1) ∧ ∃ d, cpy b (F + orb l n i k) (F + orb l n i (k + 1)) = some d ∧ St a F l n i (k + 1) d := by
  have hn : 0 < n := by omega
  have haw2 : Away l n i (k + 1) := by
    intro m h1 h2
    by_cases h : m = k + 1
    · rw [h]; exact hne
    · exact haw m h1 (by omega)
  refine ⟨haw2, ?_⟩
  have hb := hs.1
  obtain ⟨d, hd, hdl, hdk⟩ := cpy_ok (a := b) (p := F + orb l n i k) (q := F + orb l n i (k + 1))
    (by have := orb_lt (l := l) (n := n) (i := i) (j := k) hn; omega)
    (by have := orb_lt (l := l) (n := n) (i := i) (j := k + 1) hn; omega)
  refine ⟨d, hd, hdl.trans hb, ?_, ?_⟩
  · rintro y ⟨j, hj, rfl⟩
    rw [hdk]
    by_cases h : F + orb l n i j = F + orb l n i k
    · rw [if_pos h, hs.2.2 _ ?_]
      · have : orb l n i j = orb l n i k := by omega
        rw [this, Nat.add_sub_cancel_left, orb_succ]
      · intro t ht heq
        have := orb_eq (l := l) hi (show t ≤ k + 1 by omega) (by omega)
        exact haw2 (k + 1 - t) (by omega) (by omega) this
    · rw [if_neg h]
      have hjk : j ≠ k := fun e => h (by rw [e])
      exact hs.2.1 _ ⟨j, by omega, rfl⟩
  · intro y hy
    rw [hdk, if_neg (hy k (by omega))]
    exact hs.2.2 y (fun j hj => hy j (by omega))

/-- putting the saved element into the last place of the cycle -/
theorem St.close {a b : List α} {F l n i K : Nat} (hs : St a F l n i K b) (hi : i < n) (hF : F + n ≤ a.length)
    (hback : orb l n i (K + 1) = i) {tmp : α} (htmp : a[F + i]? = some tmp) :
    ∃ d, wr b (F + orb l n i K) tmp = some d ∧ St a F l n i (K + 1) d := by
  have hn : 0 < n := by omega
  have hlt : F + orb l n i K < b.length := by
    have := orb_lt (l := l) (n := n) (i := i) (j := K) hn; have := hs.1; omega
  refine ⟨b.set (F + orb l n i K) tmp, wr_ok hlt _, by simpa using hs.1, ?_, ?_⟩
  · rintro y ⟨j, hj, rfl⟩
    rw [List.getElem?_set]
    by_cases h : F + orb l n i K = F + orb l n i j
    · rw [if_pos h, if_pos hlt]
      have : orb l n i j = orb l n i K := by omega
      rw [this, Nat.add_sub_cancel_left, ← orb_succ, hback, htmp]
    · rw [if_neg h]
      have hjk : j ≠ K := fun e => h (by rw [e])
      exact hs.2.1 _ ⟨j, by omega, rfl⟩
  · intro y hy
    rw [List.getElem?_set, if_neg (fun e => hy K (by omega) e.symm)]
    exact hs.2.2 y (fun j hj => hy j (by omega))

/-- `(r/c) ∣ j` when `r` divides `j·l` and `c` is the common divisor -/
theorem dvd_of_mul {l r c j t : Nat} (hc : c = Nat.gcd l r) (hr : 0 < r) (h : t * r = j * l) : r / c ∣ j := by
  have hcpos : 0 < c := by rw [hc]; exact Nat.gcd_pos_of_pos_right _ hr
  have hcl : c ∣ l := hc ▸ Nat.gcd_dvd_left l r
  have hcr : c ∣ r := hc ▸ Nat.gcd_dvd_right l r
  have hco : Nat.Coprime (r / c) (l / c) := by
    rw [hc]; exact (Nat.coprime_div_gcd_div_gcd (by rw [← hc]; exact hcpos)).symm
  have h2 : t * (r / c) = j * (l / c) := by
    have h3 : c * (t * (r / c)) = c * (j * (l / c)) := by
      have e1 : c * (t * (r / c)) = t * (c * (r / c)) := by ring
      have e2 : c * (j * (l / c)) = j * (c * (l / c)) := by ring
      rw [e1, e2, Nat.mul_div_cancel' hcr, Nat.mul_div_cancel' hcl, h]
    exact Nat.eq_of_mul_eq_mul_left hcpos h3
  exact hco.dvd_of_dvd_mul_right ⟨t, by rw [← h2, Nat.mul_comm]⟩

theorem cycleShort_ok {a : List α} {F l r i c : Nat} (hc : c = Nat.gcd l r) (hl : 0 < l) (hlr : l < r) (hi : i < c)
    (hF : F + (l + r) ≤ a.length) : ∀ (m j x t k : Nat) (b : List α), j + m = r / c → x + t * r = j * l →
      x < l + r → c ∣ x → (0 < j → l ≤ x) → orb l (l + r) i k = i + x → St a F l (l + r) i k b → Away l (l + r) i k →
    ∃ d K, cycleShort (F + i) l r m b (F + i + x) = some (d, F + (i + r)) ∧ orb l (l + r) i K = i + r ∧ St a F l (l + r) i K d ∧
      Away l (l + r) i K := by
  have hcl : c ∣ l := hc ▸ Nat.gcd_dvd_left l r
  have hcr : c ∣ r := hc ▸ Nat.gcd_dvd_right l r
  have hcpos : 0 < c := by omega
  have hcle : c ≤ l := Nat.le_of_dvd hl hcl
  have hin : i < l + r := by omega
  have fit : ∀ u, c ∣ u → u < l + r → i + u < l + r := by
    rintro u ⟨v, rfl⟩ h
    obtain ⟨w, hw⟩ : c ∣ l + r := Nat.dvd_add hcl hcr
    rw [hw] at h ⊢
    have hvw : v < w := Nat.lt_of_mul_lt_mul_left h
    have : c * (v + 1) ≤ c * w := Nat.mul_le_mul_left c hvw
    rw [Nat.mul_add, Nat.mul_one] at this
    omega
  have fitr : ∀ u, c ∣ u → u < r → i + u < r := by
    rintro u ⟨v, rfl⟩ h
    obtain ⟨w, hw⟩ := hcr
    rw [hw] at h ⊢
    have hvw : v < w := Nat.lt_of_mul_lt_mul_left h
    have : c * (v + 1) ≤ c * w := Nat.mul_le_mul_left c hvw
    rw [Nat.mul_add, Nat.mul_one] at this
    omega
  intro m
  induction m with
  | zero =>
    intro j x t k b hj hx hxn hcx hx0 hk hs haw
    have hjr : j = r / c := by omega
    have hjpos : 0 < j := by rw [hjr]; exact Nat.div_pos (Nat.le_of_dvd (by omega) hcr) hcpos
    -- x ≡ 0 mod r
    have hxr : r ∣ x := by
      have h1 : r ∣ j * l := by
        obtain ⟨v, hv⟩ := hcl
        refine ⟨v, ?_⟩
        rw [hjr, hv, ← Nat.mul_assoc, Nat.div_mul_cancel hcr]
      have h2 : r ∣ x + t * r := by rw [hx]; exact h1
      exact (Nat.dvd_add_left (Nat.dvd_mul_left r t)).mp h2
    have hxe : x = r := by
      obtain ⟨v, hv⟩ := hxr
      have hl2 := hx0 hjpos
      have : v = 1 := by
        have h1 : v ≠ 0 := by rintro rfl; omega
        have h2 : v < 2 := by
          by_contra h3
          have : r * 2 ≤ r * v := Nat.mul_le_mul_left r (by omega)
          omega
        omega
      rw [hv, this, Nat.mul_one]
    subst hxe
    refine ⟨b, k, ?_, hk, hs, haw⟩
    unfold cycleShort; rw [Nat.add_assoc]
  | succ m ih =>
    intro j x t k b hj hx hxn hcx hx0 hk hs haw
    -- x is not r
    have hxr : x ≠ r := by
      intro e
      have h1 : (t + 1) * r = j * l := by rw [← hx, e]; ring
      have h2 := dvd_of_mul hc (by omega) h1
      by_cases hj0 : j = 0
      · subst hj0
        rw [Nat.zero_mul] at h1
        have : 0 < (t + 1) * r := Nat.mul_pos (by omega) (by omega)
        omega
      · have := Nat.le_of_dvd (by omega) h2
        omega
    unfold cycleShort
    by_cases hgt : x > r
    · have hq : orb l (l + r) i (k + 1) = i + (x - r) := by
        rw [orb_succ, hk, step_high (by omega) (fit x hcx hxn)]; omega
      obtain ⟨haw1, d1, hd1, hs1⟩ := hs.step hin hF haw (by omega)
      rw [if_pos (by omega)]
      rw [show F + i + x - r = F + (i + (x - r)) by omega, show F + i + x = F + (i + x) by omega, ← hq, ← hk, hd1]
      simp only [Option.bind_eq_bind, Option.bind_some]
      have hq2 : orb l (l + r) i (k + 1 + 1) = i + (x - r + l) := by
        rw [orb_succ, hq, step_low (fitr (x - r) (Nat.dvd_sub hcx hcr) (by omega))]; omega
      obtain ⟨haw2, d2, hd2, hs2⟩ := hs1.step hin hF haw1 (by omega)
      rw [show F + orb l (l + r) i (k + 1) + l = F + orb l (l + r) i (k + 1 + 1) by rw [hq, hq2]; omega, hd2]
      simp only [Option.bind_some]
      have := ih (j + 1) (x - r + l) (t + 1) (k + 1 + 1) d2 (by omega)
        (by rw [Nat.add_mul, Nat.add_mul, ← hx]; omega)
        (by omega) (Nat.dvd_add (Nat.dvd_sub hcx hcr) hcl) (by omega) hq2 hs2 haw2
      rw [hq2, show F + (i + (x - r + l)) = F + i + (x - r + l) by omega]
      exact this
    · rw [if_neg (by omega)]
      simp only [Option.bind_eq_bind, Option.bind_some]
      have hq2 : orb l (l + r) i (k + 1) = i + (x + l) := by
        rw [orb_succ, hk, step_low (fitr x hcx (by omega))]; omega
      obtain ⟨haw2, d2, hd2, hs2⟩ := hs.step hin hF haw (by omega)
      rw [show F + i + x + l = F + orb l (l + r) i (k + 1) by rw [hq2]; omega,
        show F + i + x = F + orb l (l + r) i k by rw [hk]; omega, hd2]
      simp only [Option.bind_some]
      have := ih (j + 1) (x + l) t (k + 1) d2 (by omega)
        (by rw [Nat.add_mul, ← hx]; omega)
        (by omega) (Nat.dvd_add hcx hcl) (by omega) hq2 hs2 haw2
      rw [hq2, show F + (i + (x + l)) = F + i + (x + l) by omega]
      exact this

theorem cycleLong_ok {a : List α} {F l r i c : Nat} (hc : c = Nat.gcd l r) (hr : 0 < r) (hlr : r < l) (hi : i < c)
    (hF : F + (l + r) ≤ a.length) : ∀ (m j y t k : Nat) (b : List α), j + m = l / c - 1 → y + j * r = i + t * l →
      y < l → orb l (l + r) i k = y → St a F l (l + r) i k b → Away l (l + r) i k →
    ∃ d K, cycleLong (F + (l + r)) l r m b (F + y) = some (d, F + (i + r)) ∧ orb l (l + r) i K = i + r ∧ St a F l (l + r) i K d ∧
      Away l (l + r) i K := by
  have hcl : c ∣ l := hc ▸ Nat.gcd_dvd_left l r
  have hcr : c ∣ r := hc ▸ Nat.gcd_dvd_right l r
  have hcpos : 0 < c := by omega
  have hcle : c ≤ r := Nat.le_of_dvd hr hcr
  have hin : i < l + r := by omega
  have hclr : c ≤ l - r := Nat.le_of_dvd (by omega) (Nat.dvd_sub hcl hcr)
  have hlc : 0 < l / c := Nat.div_pos (by omega) hcpos
  intro m
  induction m with
  | zero =>
    intro j y t k b hj hy hyl hk hs haw
    have hjr : (j + 1) * r = (r / c) * l := by
      have : j + 1 = l / c := by omega
      rw [this]
      obtain ⟨v, hv⟩ := hcl
      obtain ⟨w, hw⟩ := hcr
      rw [hv, hw, Nat.mul_div_cancel_left _ hcpos, Nat.mul_div_cancel_left _ hcpos]; ring
    have hye : y = i + r := by
      -- y ≡ i + r (mod l), both below l
      have h1 : y + (r / c) * l = (i + r) + t * l := by
        rw [← hjr, Nat.add_mul, Nat.one_mul]; omega
      have h2 : (y + (r / c) * l) % l = ((i + r) + t * l) % l := by rw [h1]
      rw [Nat.add_mul_mod_self_right, Nat.add_mul_mod_self_right, Nat.mod_eq_of_lt hyl, Nat.mod_eq_of_lt (by omega)] at h2
      exact h2
    subst hye
    exact ⟨b, k, by unfold cycleLong; rfl, hk, hs, haw⟩
  | succ m ih =>
    intro j y t k b hj hy hyl hk hs haw
    unfold cycleLong
    rw [if_neg (by omega)]
    have hne : ∀ y' t', y' + (j + 1) * r = i + t' * l → y' ≠ i := by
      intro y' t' h e
      subst e
      have h1 : t' * l = (j + 1) * r := by omega
      have h2 := dvd_of_mul (c := c) (l := r) (r := l) (by rw [hc, Nat.gcd_comm]) (by omega) h1
      have := Nat.le_of_dvd (by omega) h2
      omega
    by_cases hlow : y < r
    · have hq : orb l (l + r) i (k + 1) = y + l := by rw [orb_succ, hk, step_low hlow]
      obtain ⟨haw1, d1, hd1, hs1⟩ := hs.step hin hF haw (by omega)
      rw [if_pos (by omega)]
      rw [show F + y + l = F + (y + l) by omega, ← hq]
      rw [show F + y = F + orb l (l + r) i k by rw [hk], hd1]
      simp only [Option.bind_eq_bind, Option.bind_some]
      rw [if_neg (by omega)]
      have hq2 : orb l (l + r) i (k + 1 + 1) = y + l - r := by
        rw [orb_succ, hq, step_high (by omega) (by omega)]
      have heq : (y + l - r) + (j + 1) * r = i + (t + 1) * l := by
        rw [Nat.add_mul, Nat.add_mul]; omega
      obtain ⟨haw2, d2, hd2, hs2⟩ := hs1.step hin hF haw1 (by rw [hq2]; exact hne _ _ heq)
      rw [show F + orb l (l + r) i (k + 1) - r = F + orb l (l + r) i (k + 1 + 1) by rw [hq, hq2]; omega, hd2]
      simp only [Option.bind_some]
      have := ih (j + 1) (y + l - r) (t + 1) (k + 1 + 1) d2 (by omega) heq (by omega) hq2 hs2 haw2
      rw [hq2]
      exact this
    · rw [if_neg (by omega)]
      simp only [Option.bind_eq_bind, Option.bind_some]
      rw [if_neg (by omega)]
      have hq2 : orb l (l + r) i (k + 1) = y - r := by
        rw [orb_succ, hk, step_high (by omega) (by omega)]
      have heq : (y - r) + (j + 1) * r = i + t * l := by
        rw [Nat.add_mul]; omega
      obtain ⟨haw2, d2, hd2, hs2⟩ := hs.step hin hF haw (by rw [hq2]; exact hne _ _ heq)
      rw [show F + y - r = F + orb l (l + r) i (k + 1) by rw [hq2]; omega,
        show F + y = F + orb l (l + r) i k by rw [hk], hd2]
      simp only [Option.bind_some]
      have := ih (j + 1) (y - r) t (k + 1) d2 (by omega) heq (by omega) hq2 hs2 haw2
      rw [hq2]
      exact this

/-- the cycle through `i` visits exactly the places congruent to `i` modulo the common divisor -/
theorem orb_class {l r c i K : Nat} (hc : c = Nat.gcd l r) (hi : i < c) (hr : 0 < l + r)
    (hback : orb l (l + r) i (K + 1) = i) {y : Nat} (hy : y < l + r) :
    (∃ j, j < K + 1 ∧ y = orb l (l + r) i j) ↔ y % c = i := by
  have hcl : c ∣ l := hc ▸ Nat.gcd_dvd_left l r
  have hcr : c ∣ r := hc ▸ Nat.gcd_dvd_right l r
  have hcn : c ∣ l + r := Nat.dvd_add hcl hcr
  constructor
  · rintro ⟨j, _, rfl⟩
    unfold orb
    rw [Nat.mod_mod_of_dvd _ hcn, Nat.add_mod, Nat.mod_eq_zero_of_dvd (Dvd.dvd.mul_left hcl j), Nat.add_zero,
      Nat.mod_mod, Nat.mod_eq_of_lt hi]
  · intro h
    -- y = i + c·v, and c is a multiple of l modulo n
    obtain ⟨v, hv⟩ : ∃ v, y = i + c * v := ⟨y / c, by rw [← h]; exact (Nat.mod_add_div y c).symm⟩
    have hin : i < l + r := by have := Nat.le_of_dvd hr hcn; omega
    obtain ⟨s, hs⟩ : ∃ s, (s * l) % (l + r) = c % (l + r) := by
      have hg : c = Nat.gcd (l + r) l := by rw [hc, Nat.gcd_comm, Nat.gcd_comm (l + r) l]; simp [Nat.gcd_comm]
      have hb := Nat.gcd_eq_gcd_ab (l + r) l
      -- c = n·A + l·B
      refine ⟨((Nat.gcdB (l + r) l) % ((l + r : Nat) : Int)).toNat, ?_⟩
      have hpos : (0 : Int) ≤ (Nat.gcdB (l + r) l) % ((l + r : Nat) : Int) := Int.emod_nonneg _ (by omega)
      have e : (((((Nat.gcdB (l + r) l) % ((l + r : Nat) : Int)).toNat * l) % (l + r) : Nat) : Int) = ((c % (l + r) : Nat) : Int) := by
        have h2 : ((c : Nat) : Int) = ((l + r : Nat) : Int) * Nat.gcdA (l + r) l + (l : Int) * Nat.gcdB (l + r) l := by
          rw [hg]; exact hb
        rw [Int.natCast_emod, Int.natCast_emod, h2, Int.natCast_mul, Int.toNat_of_nonneg hpos]
        generalize ((l + r : Nat) : Int) = n
        generalize Nat.gcdB (l + r) l = B
        generalize Nat.gcdA (l + r) l = A
        rw [Int.add_comm (n * A), Int.add_mul_emod_self_left, Int.mul_comm (l : Int) B, Int.mul_emod (B % n), Int.emod_emod_of_dvd _ (dvd_refl _), ← Int.mul_emod]
      exact_mod_cast e
    -- so y is the place reached after s·v steps
    have hreach : y = orb l (l + r) i (s * v) := by
      unfold orb
      have e1 : i + s * v * l ≡ i + c * v [MOD (l + r)] := by
        refine Nat.ModEq.add_left i ?_
        have : s * l ≡ c [MOD (l + r)] := hs
        have h3 := this.mul_right v
        rw [show s * v * l = s * l * v by ring]
        exact h3
      have e2 : (i + s * v * l) % (l + r) = (i + c * v) % (l + r) := e1
      rw [e2, ← hv, Nat.mod_eq_of_lt hy]
    -- the orbit has period K + 1
    have hper : ∀ q u, orb l (l + r) i (q * (K + 1) + u) = orb l (l + r) i u := by
      intro q
      induction q with
      | zero => intro u; rw [Nat.zero_mul, Nat.zero_add]
      | succ q ihq =>
        intro u
        rw [show (q + 1) * (K + 1) + u = q * (K + 1) + ((K + 1) + u) by ring, ihq]
        unfold orb at hback ⊢
        have : i + (K + 1 + u) * l = (i + (K + 1) * l) + u * l := by ring
        rw [this, Nat.add_mod, hback, ← Nat.mod_eq_of_lt hin, ← Nat.add_mod, Nat.mod_eq_of_lt hin]
    refine ⟨(s * v) % (K + 1), Nat.mod_lt _ (by omega), ?_⟩
    rw [hreach]
    conv_lhs => rw [show s * v = (s * v) / (K + 1) * (K + 1) + (s * v) % (K + 1) by
      rw [Nat.mul_comm ((s * v) / (K + 1))]; exact (Nat.div_add_mod _ _).symm]
    rw [hper]

/-- the places of the classes below `i` have been dealt with -/
def Upto (a : List α) (F l n c i : Nat) (b : List α) : Prop :=
  b.length = a.length ∧ ∀ y, b[y]? = if F ≤ y ∧ y < F + n ∧ (y - F) % c < i then a[F + (y - F + l) % n]? else a[y]?

theorem cycles_ok {a : List α} {F l r c : Nat} (hc : c = Nat.gcd l r) (hl : 0 < l) (hr : 0 < r) (hlr : l ≠ r)
    (hF : F + (l + r) ≤ a.length) : ∀ (k i : Nat) (b : List α), i + k = c → Upto a F l (l + r) c i b →
    ∃ d, cycles (F + (l + r)) l r c k b (F + i) = some d ∧ Upto a F l (l + r) c c d := by
  have hcl : c ∣ l := hc ▸ Nat.gcd_dvd_left l r
  have hcr : c ∣ r := hc ▸ Nat.gcd_dvd_right l r
  have hcn : c ∣ l + r := Nat.dvd_add hcl hcr
  have hcpos : 0 < c := Nat.pos_of_dvd_of_pos hcl hl
  have hcle : c ≤ l := Nat.le_of_dvd hl hcl
  intro k
  induction k with
  | zero =>
    intro i b hi hb
    refine ⟨b, by unfold cycles; rfl, ?_⟩
    have : i = c := by omega
    subst this; exact hb
  | succ k ih =>
    intro i b hi hb
    unfold cycles
    have hFb : F + (l + r) ≤ b.length := by rw [hb.1]; exact hF
    have hlt : F + i < b.length := by omega
    have hin : i < l + r := by omega
    obtain ⟨tmp, htmp⟩ : ∃ t, b[F + i]? = some t := ⟨_, List.getElem?_eq_getElem hlt⟩
    rw [htmp]; simp only [Option.bind_eq_bind, Option.bind_some]
    have haw0 : Away l (l + r) i 0 := fun m h1 h2 => by omega
    have key : ∃ d K, (if l < r then cycleShort (F + i) l r (r / c) b (F + i)
        else cycleLong (F + (l + r)) l r (l / c - 1) b (F + i)) = some (d, F + (i + r)) ∧
        orb l (l + r) i K = i + r ∧ St b F l (l + r) i K d ∧ Away l (l + r) i K := by
      by_cases h : l < r
      · rw [if_pos h]
        exact cycleShort_ok hc hl h (by omega) hFb (r / c) 0 0 0 0 b (by omega) (by omega) (by omega) (Dvd.intro 0 rfl) (by omega)
          (orb_zero hin) (St.zero b F l (l + r) i) haw0
      · rw [if_neg h]
        exact cycleLong_ok hc hr (by omega) (by omega) hFb (l / c - 1) 0 i 0 0 b (by omega) (by omega) (by omega)
          (orb_zero hin) (St.zero b F l (l + r) i) haw0
    obtain ⟨d, K, h1, h2, h3, h4⟩ := key
    rw [h1]; simp only [Option.bind_some]
    have hicr : i + r < l + r := by omega
    have hback : orb l (l + r) i (K + 1) = i := by
      rw [orb_succ, h2, step_high (by omega) hicr]; omega
    obtain ⟨e, he, hse⟩ := h3.close hin hFb hback htmp
    rw [← h2, he]; simp only [Option.bind_some]
    rw [Nat.add_assoc]
    refine ih (i + 1) e (by omega) ⟨hse.1.trans hb.1, fun y => ?_⟩
    by_cases hy : F ≤ y ∧ y < F + (l + r) ∧ (y - F) % c = i
    · -- the class just dealt with
      rw [if_pos ⟨hy.1, hy.2.1, by omega⟩]
      obtain ⟨j, hj, hyj⟩ := (orb_class hc (by omega) (by omega) hback (show y - F < l + r by omega)).mpr hy.2.2
      rw [hse.2.1 y ⟨j, hj, by omega⟩, hb.2]
      have hlt2 : (y - F + l) % (l + r) < l + r := Nat.mod_lt _ (by omega)
      rw [if_neg]
      rintro ⟨_, _, hlt3⟩
      rw [Nat.add_sub_cancel_left, Nat.mod_mod_of_dvd _ hcn, Nat.add_mod, Nat.mod_eq_zero_of_dvd hcl, Nat.add_zero, Nat.mod_mod] at hlt3
      omega
    · rw [hse.2.2 y ?_, hb.2]
      · by_cases h5 : F ≤ y ∧ y < F + (l + r) ∧ (y - F) % c < i
        · rw [if_pos h5, if_pos ⟨h5.1, h5.2.1, by omega⟩]
        · rw [if_neg h5, if_neg]
          rintro ⟨g1, g2, g3⟩
          by_cases g4 : (y - F) % c = i
          · exact hy ⟨g1, g2, g4⟩
          · exact h5 ⟨g1, g2, by omega⟩
      · intro j hj heq
        have hjl : orb l (l + r) i j < l + r := orb_lt (by omega)
        refine hy ⟨by omega, by omega, ?_⟩
        exact (orb_class hc (by omega) (by omega) hback (show y - F < l + r by omega)).mp ⟨j, hj, by omega⟩

theorem swapRanges_ok (m : Nat) : ∀ (fuel : Nat) (pre X Y Z post : List α), X.length = Z.length → m = pre.length + X.length →
    X.length < fuel →
    swapRanges m fuel (pre ++ (X ++ (Y ++ (Z ++ post)))) pre.length (pre.length + X.length + Y.length) =
      some (pre ++ (Z ++ (Y ++ (X ++ post))))
  | 0, _, _, _, _, _, _, _, h => by omega
  | fuel + 1, pre, X, Y, Z, post, hXZ, hm, hf => by
    unfold swapRanges
    cases X with
    | nil =>
      have : Z = [] := List.length_eq_zero_iff.mp hXZ.symm
      subst this
      rw [if_neg (by simp at hm; omega)]
    | cons x X =>
      obtain ⟨z, Z, rfl⟩ : ∃ x X', Z = x :: X' := List.exists_cons_of_ne_nil (by rintro rfl; simp at hXZ)
      simp only [List.length_cons] at hXZ hm hf
      rw [if_pos (by omega)]
      have h := swp_list pre (X ++ Y) (Z ++ post) x z
      have e : pre.length + 1 + (X ++ Y).length = pre.length + (x :: X).length + Y.length := by
        simp only [List.length_append, List.length_cons]; omega
      rw [e] at h
      have e2 : pre ++ (x :: X ++ (Y ++ (z :: Z ++ post))) = pre ++ x :: (X ++ Y ++ z :: (Z ++ post)) := by simp
      rw [e2, h]
      simp only [Option.bind_eq_bind, Option.bind_some]
      have ih := swapRanges_ok m fuel (pre ++ [z]) X (Y ++ [x]) Z post (by omega)
        (by simp only [List.length_append, List.length_cons, List.length_nil]; omega) (by omega)
      simp only [List.length_append, List.length_cons, List.length_nil] at ih ⊢
      rw [show pre.length + (X.length + 1) + Y.length + 1 = pre.length + (0 + 1) + X.length + (Y.length + (0 + 1)) by omega,
        show pre.length + 1 = pre.length + (0 + 1) by omega]
      have e3 : pre ++ z :: (X ++ Y ++ x :: (Z ++ post)) = pre ++ [z] ++ (X ++ (Y ++ [x] ++ (Z ++ post))) := by simp
      rw [e3, ih]; simp

theorem rotateRa_ok (pre X Z post : List α) (hX : X ≠ []) (hZ : Z ≠ []) :
    rotateRa (pre ++ X ++ Z ++ post) pre.length (pre.length + X.length) (pre.length + X.length + Z.length) =
      some (pre ++ Z ++ X ++ post, pre.length + Z.length) := by
  have hXl : 0 < X.length := List.length_pos_iff.mpr hX
  have hZl : 0 < Z.length := List.length_pos_iff.mpr hZ
  unfold rotateRa
  simp only [show pre.length + X.length - pre.length = X.length by omega,
    show pre.length + X.length + Z.length - pre.length = X.length + Z.length by omega,
    show X.length + Z.length - X.length = Z.length by omega,
    show pre.length + X.length + Z.length - (pre.length + X.length) = Z.length by omega]
  by_cases h : X.length = Z.length
  · rw [if_pos h]
    have := swapRanges_ok (pre.length + X.length) (X.length + 1) pre X [] Z post h rfl (by omega)
    simp only [List.nil_append, List.length_nil, Nat.add_zero] at this
    have e : pre ++ X ++ Z ++ post = pre ++ (X ++ (Z ++ post)) := by simp
    rw [e, this]; simp
  · rw [if_neg h]
    rw [rgcd_ok _ _ _ (by omega)]
    simp only [Option.bind_eq_bind, Option.bind_some]
    have hc : Nat.gcd X.length (X.length + Z.length) = Nat.gcd X.length Z.length := by simp
    rw [hc]
    have hL : (pre ++ X ++ Z ++ post).length = pre.length + X.length + Z.length + post.length := by simp only [List.length_append]
    obtain ⟨d, hd, hu⟩ := cycles_ok (a := pre ++ X ++ Z ++ post) (F := pre.length) rfl hXl hZl h (by omega)
      (Nat.gcd X.length Z.length) 0 (pre ++ X ++ Z ++ post) (by omega)
      ⟨rfl, fun y => by rw [if_neg (by omega)]⟩
    rw [Nat.add_zero] at hd
    rw [Nat.add_assoc pre.length, hd]
    simp only [Option.bind_some]
    have hcpos : 0 < Nat.gcd X.length Z.length := Nat.gcd_pos_of_pos_left _ hXl
    congr 2
    apply List.ext_getElem?
    intro k
    rw [hu.2 k]
    have e1 : pre ++ X ++ Z ++ post = pre ++ (X ++ Z) ++ post := by simp
    have e2 : pre ++ Z ++ X ++ post = pre ++ (Z ++ X) ++ post := by simp
    rw [e1, e2, app3, app3, app3]
    simp only [List.length_append]
    by_cases h1 : k < pre.length
    · rw [if_neg (by omega), if_pos h1, if_pos h1]
    · by_cases h2 : k < pre.length + (X.length + Z.length)
      · have h3 := Nat.mod_lt (k - pre.length) hcpos
        have h4 := Nat.mod_lt (k - pre.length + X.length) (show 0 < X.length + Z.length by omega)
        rw [if_pos ⟨by omega, h2, h3⟩, if_neg (by omega), if_pos (by omega), if_neg h1, if_pos (by omega), Nat.add_sub_cancel_left]
        by_cases h5 : k - pre.length < Z.length
        · rw [step_low h5, List.getElem?_append_right (by omega), List.getElem?_append_left h5]
          congr 1; omega
        · rw [step_high (by omega) (by omega), List.getElem?_append_left (by omega), List.getElem?_append_right (by omega)]
      · rw [if_neg (by omega), if_neg h1, if_neg (by omega), if_neg h1, if_neg (by omega)]
        congr 1; omega

end Verif.Permute
