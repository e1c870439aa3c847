import Verif.Grisu
import Verif.FpLemmas

/-!
# The table of powers of ten of dtoa.h is right, and the index computation finds a suitable entry

(for C29, C59)
-/

namespace Verif.Grisu
open Verif.Fp

/-- `10^n` as a fraction -/
def pow10 (n : ℤ) : ℚ := if 0 ≤ n then ((10 ^ n.toNat : ℕ) : ℚ) else 1 / ((10 ^ (-n).toNat : ℕ) : ℚ)

theorem pow10_eq (n : ℤ) : pow10 n = (10:ℚ) ^ n := by
  unfold pow10
  split
  · rename_i h
    push_cast
    rw [← zpow_natCast]
    congr 1
    omega
  · rename_i h
    push_cast
    rw [one_div, ← zpow_natCast, ← zpow_neg]
    congr 1
    omega

/-- entry `i` is normalised and is the nearest multiple of `2^E` to `10^(8 i - 348)` -/
def entryOK (i : ℕ) : Bool :=
  match cachedF[i]?, cachedE[i]? with
  | some F, some E =>
    decide (2^63 ≤ F) && decide (F < 2^64) &&
      decide ((F:ℚ) * pow2 E - pow10 (8 * i - 348) ≤ pow2 E / 2) && decide (pow10 (8 * i - 348) - (F:ℚ) * pow2 E ≤ pow2 E / 2)
  | _, _ => false

theorem entries : ∀ i < 87, entryOK i = true := by decide +kernel

theorem lenF : cachedF.length = 87 := by decide +kernel

/-- the cached power for boundary exponent `pe` exists and brings the product's exponent into -60..-32 -/
def powOK (pe : ℤ) : Bool :=
  match cachedPower pe with
  | some (c, _) => decide (-60 ≤ pe + c.e + 64) && decide (pe + c.e + 64 ≤ -32)
  | none => false

theorem blk0 : ∀ j < 300, powOK (-1137 + (j:ℕ)) = true := by decide +kernel
theorem blk1 : ∀ j < 300, powOK (-837 + (j:ℕ)) = true := by decide +kernel
theorem blk2 : ∀ j < 300, powOK (-537 + (j:ℕ)) = true := by decide +kernel
theorem blk3 : ∀ j < 300, powOK (-237 + (j:ℕ)) = true := by decide +kernel
theorem blk4 : ∀ j < 300, powOK (63 + (j:ℕ)) = true := by decide +kernel
theorem blk5 : ∀ j < 300, powOK (363 + (j:ℕ)) = true := by decide +kernel
theorem blk6 : ∀ j < 300, powOK (663 + (j:ℕ)) = true := by decide +kernel

theorem powOK_all (pe : ℤ) (h1 : -1137 ≤ pe) (h2 : pe ≤ 960) : powOK pe = true := by
  have key : ∀ (b : ℤ), (∀ j < 300, powOK (b + (j:ℕ)) = true) → b ≤ pe → pe < b + 300 → powOK pe = true := by
    intro b hb h h'
    have := hb (pe - b).toNat (by omega)
    rwa [show b + ((pe - b).toNat : ℤ) = pe by omega] at this
  by_cases c1 : pe < -837
  · exact key _ blk0 (by omega) (by omega)
  by_cases c2 : pe < -537
  · exact key _ blk1 (by omega) (by omega)
  by_cases c3 : pe < -237
  · exact key _ blk2 (by omega) (by omega)
  by_cases c4 : pe < 63
  · exact key _ blk3 (by omega) (by omega)
  by_cases c5 : pe < 363
  · exact key _ blk4 (by omega) (by omega)
  by_cases c6 : pe < 663
  · exact key _ blk5 (by omega) (by omega)
  · exact key _ blk6 (by omega) (by omega)

theorem entry_spec (k' : ℤ) (c : DiyFp) (K : ℤ)
    (hc : (if k' / 8 + 1 < 0 then none
      else (cachedF[(k' / 8 + 1).toNat]?).bind fun f => (cachedE[(k' / 8 + 1).toNat]?).bind fun e =>
        some ((⟨f, e⟩ : DiyFp), -(-348 + (k' / 8 + 1) * 8))) = some (c, K)) :
    2^63 ≤ c.f ∧ c.f < 2^64 ∧ |(c.f:ℚ) * 2 ^ c.e - 10 ^ (-K)| ≤ 2 ^ c.e / 2 := by
  by_cases hn : k' / 8 + 1 < 0
  · rw [if_pos hn] at hc; cases hc
  · rw [if_neg hn] at hc
    simp only [Option.bind_eq_some_iff] at hc
    obtain ⟨F, hF, E, hE, hr⟩ := hc
    injection hr with hr
    injection hr with hr1 hr2
    subst hr1
    have hi : (k' / 8 + 1).toNat < 87 := by
      have := (List.getElem?_eq_some_iff.mp hF).1
      rwa [lenF] at this
    have ho := entries _ hi
    unfold entryOK at ho
    rw [hF, hE] at ho
    simp only [Bool.and_eq_true, decide_eq_true_eq] at ho
    obtain ⟨⟨⟨o1, o2⟩, o3⟩, o4⟩ := ho
    rw [pow10_eq, pow2_eq] at o3 o4
    have e8 : (8 * ((k' / 8 + 1).toNat : ℤ) - 348) = -K := by rw [← hr2]; omega
    rw [e8] at o3 o4
    refine ⟨o1, o2, ?_⟩
    rw [abs_le]
    constructor
    · simp only; linarith
    · exact o3

/-- what `GetCachedPower` returns for the boundary exponent of any double -/
theorem cachedPower_spec (pe : ℤ) (h1 : -1137 ≤ pe) (h2 : pe ≤ 960) :
    ∃ c K, cachedPower pe = some (c, K) ∧ -60 ≤ pe + c.e + 64 ∧ pe + c.e + 64 ≤ -32 ∧ 2^63 ≤ c.f ∧ c.f < 2^64 ∧
      |(c.f:ℚ) * 2 ^ c.e - 10 ^ (-K)| ≤ 2 ^ c.e / 2 := by
  have h := powOK_all pe h1 h2
  unfold powOK at h
  cases hc : cachedPower pe with
  | none => rw [hc] at h; simp at h
  | some r =>
    obtain ⟨c, K⟩ := r
    rw [hc] at h
    simp only [Bool.and_eq_true, decide_eq_true_eq] at h
    refine ⟨c, K, rfl, h.1, h.2, ?_⟩
    unfold cachedPower at hc
    rw [Option.bind_eq_bind, Option.bind_eq_some_iff] at hc
    obtain ⟨k, -, hc⟩ := hc
    exact entry_spec _ c K hc

end Verif.Grisu
