import Verif.SsqCalc
import Verif.SsqSpec
import Verif.FloorLemmas
import Verif.Props.Strings

/-!
# Properties C22–C24: the solar-term and new-moon calculator
-/

namespace Verif.Ssq
open Verif.Fp Verif.StrOps

/-! ## C22 -/

/-- one replacement as a substitution of letters -/
def subst1 (r : Char × String) (c : Char) : List Char := if c = r.1 then r.2.toList else [c]

theorem replStep_eq (s : List Char) (r : Char × String) : replStep s r = some (s.flatMap (subst1 r)) := by
  unfold replStep
  rw [c31_char s r.2.toList r.1 (s.length + 1) (by omega)]
  rfl

theorem fold_eq (rs : List (Char × String)) (s : List Char) :
    rs.foldlM replStep s = some (s.flatMap (fun c => rs.foldl (fun l r => l.flatMap (subst1 r)) [c])) := by
  induction rs generalizing s with
  | nil => simp
  | cons r rs ih =>
    rw [List.foldlM_cons, replStep_eq, Option.bind_eq_bind, Option.bind_some, ih, List.flatMap_assoc]
    congr 1
    apply List.flatMap_congr
    intro c _
    rw [List.foldl_cons]
    have hd : ∀ (rs : List (Char × String)) (l : List Char), l.flatMap (fun c => rs.foldl (fun l r => l.flatMap (subst1 r)) [c]) = rs.foldl (fun l r => l.flatMap (subst1 r)) l := by
      intro rs
      induction rs with
      | nil => intro l; simp
      | cons r rs ih =>
        intro l
        rw [List.foldl_cons, ← ih, List.flatMap_assoc]
        apply List.flatMap_congr
        intro c _
        rw [List.foldl_cons, ← ih]; congr 1; simp
    rw [hd]; congr 1; simp

/-- the alphabet of the compressed strings -/
def alphabet : List Char := ['0','1','2'] ++ replacements.map (·.1)

theorem fold_letter : ∀ c ∈ alphabet, replacements.foldl (fun l r => l.flatMap (subst1 r)) [c] = letter c := by decide +kernel
theorem letter_digits : ∀ c ∈ alphabet, ∀ d ∈ letter c, d = '0' ∨ d = '1' ∨ d = '2' := by decide +kernel

theorem flatMap_congr' (s : List Char) (f g : Char → List Char) (h : ∀ c ∈ s, f c = g c) : s.flatMap f = s.flatMap g := by
  induction s with
  | nil => rfl
  | cons a s ih => rw [List.flatMap_cons, List.flatMap_cons, h a (by simp), ih (fun c hc => h c (by simp [hc]))]

/-- C22: decompression replaces every letter by its meaning (the order of the replacements does not matter) and leaves only
the digits 0, 1, 2. -/
theorem c22_jieya (s : List Char) (hs : ∀ c ∈ s, c ∈ alphabet) :
    jieya s = some (s.flatMap letter) ∧ ∀ d ∈ s.flatMap letter, d = '0' ∨ d = '1' ∨ d = '2' := by
  constructor
  · exact (fold_eq replacements s).trans (congrArg some (flatMap_congr' s _ _ (fun c hc => fold_letter c (hs c hc))))
  · intro d hd
    obtain ⟨c, hc, hd⟩ := List.mem_flatMap.mp hd
    exact letter_digits c (hs c hc) d hd

theorem alphabet_codes (s : List Char) (h : (s.map Char.toNat).all (fun n => (Nat.ble 48 n && Nat.ble n 50) || (Nat.ble 65 n && Nat.ble n 74) || (Nat.ble 97 n && Nat.ble n 116)) = true) :
    ∀ c ∈ s, c ∈ alphabet := by
  intro c hc
  rw [List.all_eq_true] at h
  have h1 := h c.toNat (List.mem_map_of_mem hc)
  simp only [Bool.or_eq_true, Bool.and_eq_true, Nat.ble_eq] at h1
  have hr : ∀ n : Fin 117, (48 ≤ n.val ∧ n.val ≤ 50 ∨ 65 ≤ n.val ∧ n.val ≤ 74) ∨ 97 ≤ n.val ∧ n.val ≤ 116 → Char.ofNat n.val ∈ alphabet := by decide +kernel
  have := hr ⟨c.toNat, by omega⟩ h1
  rwa [show Char.ofNat c.toNat = c from Char.ofNat_toNat c] at this

theorem suo_alphabet : ∀ c ∈ chars suoS, c ∈ alphabet := alphabet_codes _ (by decide +kernel)
theorem qi_alphabet : ∀ c ∈ chars qiS, c ∈ alphabet := alphabet_codes _ (by decide +kernel)

/-- lengths of the meanings by code -/
def lenTab' : List ℕ :=
  List.replicate 65 1 ++ [60, 50, 40, 30, 20, 10, 5, 4, 3, 2] ++ List.replicate 22 1 ++
    [10, 9, 8, 7, 6, 5, 4, 6, 3, 4, 2, 10, 9, 8, 7, 6, 5, 4, 3, 2]

theorem letter_length (c : Char) (hc : c ∈ alphabet) : (letter c).length = (lenTab'[c.toNat]?).getD 0 := by
  have : ∀ c ∈ alphabet, (letter c).length = (lenTab'[c.toNat]?).getD 0 := by decide +kernel
  exact this c hc

theorem total_length (s : List Char) (hs : ∀ c ∈ s, c ∈ alphabet) :
    (s.flatMap letter).length = ((s.map Char.toNat).map (fun n => (lenTab'[n]?).getD 0)).sum := by
  rw [List.length_flatMap, List.map_map]
  congr 1
  apply List.map_congr_left
  intro c hc
  exact letter_length c (hs c hc)

theorem suo_length : ((chars suoS).flatMap letter).length = 16598 := by
  rw [total_length _ suo_alphabet]; decide +kernel
theorem qi_length : ((chars qiS).flatMap letter).length = 7567 := by
  rw [total_length _ qi_alphabet]; decide +kernel

/-- C22: the two tables of the program -/
theorem c22_tables : ∃ so qi, jieya (chars suoS) = some so ∧ jieya (chars qiS) = some qi ∧ so.length = 16598 ∧ qi.length = 7567 ∧
    (∀ d ∈ so, d = '0' ∨ d = '1' ∨ d = '2') ∧ ∀ d ∈ qi, d = '0' ∨ d = '1' ∨ d = '2' := by
  obtain ⟨a1, a2⟩ := c22_jieya _ suo_alphabet
  obtain ⟨b1, b2⟩ := c22_jieya _ qi_alphabet
  exact ⟨_, _, a1, b1, suo_length, qi_length, a2, b2⟩

end Verif.Ssq
