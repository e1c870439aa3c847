import Verif.Permute
import Mathlib.Tactic.Linarith
import Mathlib.Data.List.Basic

/-! # C64, first part: `reverse` puts the elements of a range into the opposite order and touches nothing else -/

namespace Verif.Permute

open Verif.Sort (wr)

variable {α : Type}

theorem wr_ok {a : List α} {i : Nat} (h : i < a.length) (v : α) : wr a i v = some (a.set i v) := by
  unfold wr; rw [if_pos h]

theorem swp_ok {a : List α} {i j : Nat} (hi : i < a.length) (hj : j < a.length) :
    ∃ b, swp a i j = some b ∧ b.length = a.length ∧
      ∀ k, b[k]? = if k = j then a[i]? else if k = i then a[j]? else a[k]? := by
  refine ⟨(a.set i a[j]).set j a[i], ?_, by simp, ?_⟩
  · unfold swp
    rw [List.getElem?_eq_getElem hi, List.getElem?_eq_getElem hj]
    simp only [Option.bind_eq_bind, Option.bind_some]
    rw [wr_ok hi]
    simp only [Option.bind_some]
    rw [wr_ok (by simpa using hj)]
  · intro k
    rw [List.getElem?_set, List.getElem?_set]
    simp only [List.length_set]
    by_cases h1 : j = k
    · rw [if_pos h1, if_pos h1.symm, if_pos hj, List.getElem?_eq_getElem hi]
    · rw [if_neg h1, if_neg (show ¬ k = j from fun h => h1 h.symm)]
      by_cases h2 : i = k
      · rw [if_pos h2, if_pos h2.symm, if_pos hi, List.getElem?_eq_getElem hj]
      · rw [if_neg h2, if_neg (show ¬ k = i from fun h => h2 h.symm)]

theorem app3 (pre mid post : List α) (k : Nat) : (pre ++ mid ++ post)[k]? =
    if k < pre.length then pre[k]? else if k < pre.length + mid.length then mid[k - pre.length]?
    else post[k - pre.length - mid.length]? := by
  by_cases h1 : k < pre.length
  · rw [if_pos h1, List.append_assoc, List.getElem?_append_left h1]
  · rw [if_neg h1, List.append_assoc, List.getElem?_append_right (by omega)]
    by_cases h2 : k < pre.length + mid.length
    · rw [if_pos h2, List.getElem?_append_left (by omega)]
    · rw [if_neg h2, List.getElem?_append_right (by omega)]

/-- `b` is `a` with the elements of `[f, l)` in the opposite order -/
def Mirror (a b : List α) (f l : Nat) : Prop :=
  b.length = a.length ∧ ∀ k, b[k]? = if f ≤ k ∧ k < l then a[f + l - 1 - k]? else a[k]?

theorem Mirror.refl (a : List α) {f l : Nat} (h : l ≤ f + 1) : Mirror a a f l := by
  refine ⟨rfl, fun k => ?_⟩
  by_cases hk : f ≤ k ∧ k < l
  · rw [if_pos hk]
    have : f + l - 1 - k = k := by omega
    rw [this]
  · rw [if_neg hk]

theorem Mirror.step {a b d : List α} {f l : Nat} (hfl : f + 1 < l)
    (hb1 : b.length = a.length)
    (hb : ∀ k, b[k]? = if k = l - 1 then a[f]? else if k = f then a[l - 1]? else a[k]?)
    (hd : Mirror b d (f + 1) (l - 1)) : Mirror a d f l := by
  refine ⟨hd.1.trans hb1, fun k => ?_⟩
  rw [hd.2 k]
  by_cases hk : f + 1 ≤ k ∧ k < l - 1
  · rw [if_pos hk, if_pos (by omega), hb, if_neg (by omega), if_neg (by omega)]
    congr 1; omega
  · rw [if_neg hk, hb]
    by_cases h1 : k = l - 1
    · rw [if_pos h1, if_pos (by omega)]; congr 1; omega
    · rw [if_neg h1]
      by_cases h2 : k = f
      · rw [if_pos h2, if_pos (by omega)]; congr 1; omega
      · rw [if_neg h2, if_neg (by omega)]

theorem reverseBi_ok : ∀ (fuel : Nat) (a : List α) (f l : Nat), f ≤ l → l ≤ a.length → l - f < fuel →
    ∃ b, reverseBi fuel a f l = some b ∧ Mirror a b f l
  | 0, _, _, _, _, _, h => by omega
  | fuel + 1, a, f, l, hfl, hl, hf => by
    unfold reverseBi
    by_cases h1 : f = l
    · rw [if_pos h1]; exact ⟨a, rfl, Mirror.refl a (by omega)⟩
    · rw [if_neg h1]
      have hd : dec l = some (l - 1) := by unfold dec; rw [if_neg (by omega)]
      rw [hd]; simp only [Option.bind_eq_bind, Option.bind_some]
      by_cases h2 : f = l - 1
      · rw [if_pos h2]; exact ⟨a, rfl, Mirror.refl a (by omega)⟩
      · rw [if_neg h2]
        obtain ⟨b, hb, hb1, hb2⟩ := swp_ok (a := a) (i := f) (j := l - 1) (by omega) (by omega)
        rw [hb]; simp only [Option.bind_some]
        obtain ⟨d, hd, hm⟩ := reverseBi_ok fuel b (f + 1) (l - 1) (by omega) (by omega) (by omega)
        exact ⟨d, hd, Mirror.step (by omega) hb1 hb2 hm⟩

theorem reverseRa_ok : ∀ (fuel : Nat) (a : List α) (f l : Nat), l ≤ a.length → l - f < fuel →
    ∃ b, reverseRa fuel a f l = some b ∧ Mirror a b f l
  | 0, _, _, _, _, h => by omega
  | fuel + 1, a, f, l, hl, hf => by
    unfold reverseRa
    by_cases h1 : f < l
    · rw [if_pos h1]
      have hd : dec l = some (l - 1) := by unfold dec; rw [if_neg (by omega)]
      rw [hd]; simp only [Option.bind_eq_bind, Option.bind_some]
      obtain ⟨b, hb, hb1, hb2⟩ := swp_ok (a := a) (i := f) (j := l - 1) (by omega) (by omega)
      rw [hb]; simp only [Option.bind_some]
      obtain ⟨d, hd, hm⟩ := reverseRa_ok fuel b (f + 1) (l - 1) (by omega) (by omega)
      refine ⟨d, hd, ?_⟩
      by_cases h2 : f + 1 < l
      · exact Mirror.step h2 hb1 hb2 hm
      · refine ⟨hm.1.trans hb1, fun k => ?_⟩
        rw [hm.2 k, if_neg (by omega), hb2]
        by_cases hk : k = f
        · rw [if_pos (by omega), if_pos (by omega)]; congr 1; omega
        · rw [if_neg (by omega), if_neg hk, if_neg (by omega)]
    · rw [if_neg h1]; exact ⟨a, rfl, Mirror.refl a (by omega)⟩

theorem reverse_ok {c : Cat} (hc : c ≠ .fwd) (a : List α) {f l : Nat} (hfl : f ≤ l) (hl : l ≤ a.length) :
    ∃ b, reverse c a f l = some b ∧ Mirror a b f l := by
  cases c with
  | fwd => exact absurd rfl hc
  | bi => exact reverseBi_ok _ a f l hfl hl (by omega)
  | ra => exact reverseRa_ok _ a f l hl (by omega)

/-- what `Mirror` says of a range written between its surroundings -/
theorem Mirror.eq {pre mid post b : List α}
    (h : Mirror (pre ++ mid ++ post) b pre.length (pre.length + mid.length)) : b = pre ++ mid.reverse ++ post := by
  apply List.ext_getElem?
  intro k
  rw [h.2 k, app3, app3, app3, List.length_reverse]
  by_cases h1 : k < pre.length
  · rw [if_neg (by omega), if_pos h1, if_pos h1]
  · by_cases h2 : k < pre.length + mid.length
    · rw [if_pos (by omega), if_neg (by omega), if_pos (by omega), if_neg h1, if_pos h2,
        List.getElem?_reverse (by omega)]
      congr 1; omega
    · rw [if_neg (by omega), if_neg h1, if_neg h2, if_neg h1, if_neg h2]

theorem reverse_list {c : Cat} (hc : c ≠ .fwd) (pre mid post : List α) :
    reverse c (pre ++ mid ++ post) pre.length (pre.length + mid.length) = some (pre ++ mid.reverse ++ post) := by
  obtain ⟨b, hb, hm⟩ := reverse_ok hc (pre ++ mid ++ post) (f := pre.length) (l := pre.length + mid.length)
    (by omega) (by simp only [List.length_append]; omega)
  rw [hb, hm.eq]

end Verif.Permute
