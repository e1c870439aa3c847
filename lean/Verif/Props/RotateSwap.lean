import Verif.Props.Reverse

/-! # C64, second part: `rotate` with forward and with bidirectional iterators -/

namespace Verif.Permute

open Verif.Sort (wr)

variable {α : Type}

/-! ## forward iterators -/

theorem swp_list (A B C : List α) (x y : α) :
    swp (A ++ x :: (B ++ y :: C)) A.length (A.length + 1 + B.length) = some (A ++ y :: (B ++ x :: C)) := by
  obtain ⟨b, hb, hl, hk⟩ := swp_ok (a := A ++ x :: (B ++ y :: C)) (i := A.length) (j := A.length + 1 + B.length)
    (by simp only [List.length_append, List.length_cons]; omega)
    (by simp only [List.length_append, List.length_cons]; omega)
  rw [hb]
  refine congrArg some (List.ext_getElem? fun k => ?_)
  rw [hk]
  have e1 : (A ++ x :: (B ++ y :: C))[A.length]? = some x := by
    rw [List.getElem?_append_right (by omega)]; simp
  have e2 : (A ++ x :: (B ++ y :: C))[A.length + 1 + B.length]? = some y := by
    rw [List.getElem?_append_right (by omega), show A.length + 1 + B.length - A.length = B.length + 1 by omega,
      List.getElem?_cons_succ, List.getElem?_append_right (by omega)]
    simp
  rw [e1, e2]
  by_cases h1 : k = A.length + 1 + B.length
  · rw [if_pos h1, h1, List.getElem?_append_right (by omega),
      show A.length + 1 + B.length - A.length = B.length + 1 by omega,
      List.getElem?_cons_succ, List.getElem?_append_right (by omega)]
    simp
  · rw [if_neg h1]
    by_cases h2 : k = A.length
    · rw [if_pos h2, h2, List.getElem?_append_right (by omega)]; simp
    · rw [if_neg h2]
      by_cases h3 : k < A.length
      · rw [List.getElem?_append_left h3, List.getElem?_append_left h3]
      · obtain ⟨j, rfl⟩ : ∃ j, k = A.length + (j + 1) := ⟨k - A.length - 1, by omega⟩
        rw [List.getElem?_append_right (by omega), List.getElem?_append_right (by omega),
          show A.length + (j + 1) - A.length = j + 1 by omega, List.getElem?_cons_succ, List.getElem?_cons_succ]
        by_cases h4 : j < B.length
        · rw [List.getElem?_append_left h4, List.getElem?_append_left h4]
        · obtain ⟨m, rfl⟩ : ∃ m, j = B.length + (m + 1) := ⟨j - B.length - 1, by omega⟩
          rw [List.getElem?_append_right (by omega), List.getElem?_append_right (by omega),
            show B.length + (m + 1) - B.length = m + 1 by omega, List.getElem?_cons_succ, List.getElem?_cons_succ]

/-- one swap of the forward rotation, with the range in its three parts: remaining front, already moved front, remaining back -/
theorem fwd_swap (pre X Y Z post : List α) (x z : α) :
    swp (pre ++ (x :: X ++ Y ++ (z :: Z) ++ post)) pre.length (pre.length + (X.length + 1) + Y.length) =
      some ((pre ++ [z]) ++ (X ++ (Y ++ [x]) ++ Z ++ post)) := by
  have h := swp_list pre (X ++ Y) (Z ++ post) x z
  have e : pre.length + 1 + (X ++ Y).length = pre.length + (X.length + 1) + Y.length := by
    simp only [List.length_append]; omega
  rw [e] at h
  have e2 : pre ++ (x :: X ++ Y ++ (z :: Z) ++ post) = pre ++ x :: (X ++ Y ++ z :: (Z ++ post)) := by simp
  have e3 : (pre ++ [z]) ++ (X ++ (Y ++ [x]) ++ Z ++ post) = pre ++ z :: (X ++ Y ++ x :: (Z ++ post)) := by simp
  rw [e2, e3, h]

theorem rotFwd2_ok (post : List α) (last : Nat) : ∀ (fuel : Nat) (pre X Y Z : List α),
    X ≠ [] → (Z = [] → Y = []) → X.length + Y.length + Z.length < fuel →
    last = pre.length + X.length + Y.length + Z.length →
    rotFwd2 last fuel (pre ++ (X ++ Y ++ Z ++ post)) pre.length (pre.length + X.length) (pre.length + X.length + Y.length) =
      some (pre ++ (Z ++ Y ++ X ++ post))
  | 0, _, _, _, _, _, _, h, _ => by omega
  | fuel + 1, pre, X, Y, Z, hX, hZ, hf, hlast => by
    unfold rotFwd2
    cases Z with
    | nil =>
      rw [if_neg (by simp only [List.length_nil] at hlast; omega), hZ rfl]; simp
    | cons z Z =>
      obtain ⟨x, X, rfl⟩ : ∃ x X', X = x :: X' := List.exists_cons_of_ne_nil hX
      simp only [List.length_cons] at hlast hf
      rw [if_pos (by simp only [List.length_cons]; omega), List.length_cons, fwd_swap]
      simp only [Option.bind_eq_bind, Option.bind_some]
      have e1 : pre.length + 1 = (pre ++ [z]).length := by simp
      by_cases h1 : X = []
      · subst h1
        rw [if_pos (by simp)]
        have ih := rotFwd2_ok post last fuel (pre ++ [z]) (Y ++ [x]) [] Z (by simp) (fun _ => rfl)
          (by simp only [List.length_append, List.length_nil, List.length_cons] at *; omega)
          (by simp only [List.length_append, List.length_nil, List.length_cons] at *; omega)
        simp only [List.length_append, List.length_nil, List.length_cons, List.nil_append, List.append_nil] at ih ⊢
        rw [show pre.length + (0 + 1) + Y.length + 1 = pre.length + (0 + 1) + (Y.length + (0 + 1)) by omega]
        rw [show pre.length + 1 = pre.length + (0 + 1) by omega]
        rw [show pre.length + (0 + 1) + (Y.length + (0 + 1)) + 0 = pre.length + (0 + 1) + (Y.length + (0 + 1)) by omega] at ih
        rw [ih]; simp
      · have hXl : 0 < X.length := List.length_pos_iff.mpr h1
        rw [if_neg (by omega)]
        by_cases h2 : Z = []
        · subst h2
          rw [if_pos (by simp only [List.length_nil] at hlast; omega)]
          have ih := rotFwd2_ok post last fuel (pre ++ [z]) X [] (Y ++ [x]) h1 (by simp)
            (by simp only [List.length_append, List.length_nil, List.length_cons] at *; omega)
            (by simp only [List.length_append, List.length_nil, List.length_cons] at *; omega)
          simp only [List.length_append, List.length_nil, List.length_cons, List.append_nil] at ih ⊢
          rw [show pre.length + (X.length + 1) = pre.length + (0 + 1) + X.length by omega]
          rw [show pre.length + 1 = pre.length + (0 + 1) by omega]
          rw [show pre.length + (0 + 1) + X.length + 0 = pre.length + (0 + 1) + X.length by omega] at ih
          rw [ih]; simp
        · have hZl : 0 < Z.length := List.length_pos_iff.mpr h2
          rw [if_neg (by omega)]
          have ih := rotFwd2_ok post last fuel (pre ++ [z]) X (Y ++ [x]) Z h1 (fun h => absurd h h2)
            (by simp only [List.length_append, List.length_nil, List.length_cons] at *; omega)
            (by simp only [List.length_append, List.length_nil, List.length_cons] at *; omega)
          simp only [List.length_append, List.length_nil, List.length_cons] at ih ⊢
          rw [show pre.length + (X.length + 1) + Y.length + 1 = pre.length + (0 + 1) + X.length + (Y.length + (0 + 1)) by omega,
            show pre.length + (X.length + 1) = pre.length + (0 + 1) + X.length by omega,
            show pre.length + 1 = pre.length + (0 + 1) by omega]
          rw [ih]; simp

theorem rotFwd1_ok (post : List α) (last : Nat) : ∀ (fuel : Nat) (pre X Y Z : List α),
    X ≠ [] → Z ≠ [] → Z.length < fuel → last = pre.length + X.length + Y.length + Z.length →
    ∃ X' Y', rotFwd1 last fuel (pre ++ (X ++ Y ++ Z ++ post)) pre.length (pre.length + X.length) (pre.length + X.length + Y.length) =
      some ((pre ++ Z) ++ (X' ++ Y' ++ post), (pre ++ Z).length, (pre ++ Z).length + X'.length) ∧
      X' ≠ [] ∧ Y' ++ X' = Y ++ X
  | 0, _, _, _, _, _, _, h, _ => by omega
  | fuel + 1, pre, X, Y, Z, hX, hZ, hf, hlast => by
    unfold rotFwd1
    obtain ⟨x, X, rfl⟩ : ∃ x X', X = x :: X' := List.exists_cons_of_ne_nil hX
    obtain ⟨z, Z, rfl⟩ : ∃ x X', Z = x :: X' := List.exists_cons_of_ne_nil hZ
    simp only [List.length_cons] at hlast hf
    rw [List.length_cons, fwd_swap]
    simp only [Option.bind_eq_bind, Option.bind_some]
    obtain ⟨X2, Y2, hXY, hX2, hcat, hmid, hlen⟩ : ∃ X2 Y2 : List α, X2 ++ Y2 = X ++ (Y ++ [x]) ∧ X2 ≠ [] ∧ Y2 ++ X2 = Y ++ (x :: X) ∧
        (if pre.length + 1 = pre.length + (X.length + 1) then pre.length + (X.length + 1) + Y.length + 1
          else pre.length + (X.length + 1)) = (pre ++ [z]).length + X2.length ∧
        pre.length + (X.length + 1) + Y.length + 1 = (pre ++ [z]).length + X2.length + Y2.length := by
      by_cases h1 : X = []
      · subst h1
        refine ⟨Y ++ [x], [], by simp, by simp, by simp, ?_, ?_⟩
        · rw [if_pos (by simp)]; simp only [List.length_append, List.length_nil, List.length_cons]; omega
        · simp only [List.length_append, List.length_nil, List.length_cons]; omega
      · have hXl : 0 < X.length := List.length_pos_iff.mpr h1
        refine ⟨X, Y ++ [x], rfl, h1, by simp, ?_, ?_⟩
        · rw [if_neg (by omega)]; simp only [List.length_append, List.length_nil, List.length_cons]; omega
        · simp only [List.length_append, List.length_nil, List.length_cons]; omega
    rw [hmid, hlen, ← hXY]
    have e1 : pre.length + 1 = (pre ++ [z]).length := by simp
    rw [e1]
    have hlast2 : last = (pre ++ [z]).length + X2.length + Y2.length + Z.length := by omega
    by_cases h2 : Z = []
    · subst h2
      rw [if_neg (by simp only [List.length_nil] at hlast2; omega)]
      exact ⟨X2, Y2, by simp, hX2, hcat⟩
    · have hZl : 0 < Z.length := List.length_pos_iff.mpr h2
      rw [if_pos (by omega)]
      obtain ⟨X3, Y3, h3, h4, h5⟩ := rotFwd1_ok post last fuel (pre ++ [z]) X2 Y2 Z hX2 h2 (by omega) hlast2
      refine ⟨X3, Y3, ?_, h4, h5.trans hcat⟩
      rw [h3]; simp

theorem rotateFwd_ok (pre X Z post : List α) (hX : X ≠ []) (hZ : Z ≠ []) :
    rotateFwd (pre ++ (X ++ Z ++ post)) pre.length (pre.length + X.length) (pre.length + X.length + Z.length) =
      some (pre ++ (Z ++ X ++ post), pre.length + Z.length) := by
  unfold rotateFwd
  obtain ⟨X2, Y2, h1, h2, h3⟩ := rotFwd1_ok post (pre.length + X.length + Z.length)
    (pre.length + X.length + Z.length - pre.length + 1) pre X [] Z hX hZ (by omega) (by simp)
  simp only [List.append_nil, List.length_nil, Nat.add_zero] at h1
  rw [h1]
  simp only [Option.bind_eq_bind, Option.bind_some]
  simp only [List.nil_append] at h3
  have hlen : X2.length + Y2.length = X.length := by rw [← h3]; simp; omega
  have h4 := rotFwd2_ok post (pre.length + X.length + Z.length)
    (pre.length + X.length + Z.length - (pre ++ Z).length + 1) (pre ++ Z) X2 [] Y2 h2 (fun _ => rfl)
    (by simp only [List.length_append, List.length_nil]; omega) (by simp only [List.length_append, List.length_nil]; omega)
  simp only [List.append_nil, List.length_nil, Nat.add_zero] at h4
  rw [h4, h3]
  simp

/-! ## bidirectional iterators -/

theorem rotBiLoop_ok (m : Nat) : ∀ (fuel : Nat) (a : List α) (f l : Nat), f ≤ m → m ≤ l → l ≤ a.length → l - f < fuel →
    ∃ b f' l', rotBiLoop m fuel a f l = some (b, f', l') ∧ f ≤ f' ∧ f' ≤ m ∧ m ≤ l' ∧ l' + (f' - f) = l ∧
      (f' = m ∨ l' = m) ∧ b.length = a.length ∧ (∀ d, Mirror b d f' l' → Mirror a d f l)
  | 0, _, _, _, _, _, _, h => by omega
  | fuel + 1, a, f, l, hf, hm, hl, hfu => by
    unfold rotBiLoop
    by_cases h1 : f ≠ m ∧ m ≠ l
    · rw [if_pos h1]
      have hd : dec l = some (l - 1) := by unfold dec; rw [if_neg (by omega)]
      rw [hd]; simp only [Option.bind_eq_bind, Option.bind_some]
      obtain ⟨b, hb, hb1, hb2⟩ := swp_ok (a := a) (i := f) (j := l - 1) (by omega) (by omega)
      rw [hb]; simp only [Option.bind_some]
      obtain ⟨d, f', l', h2, h3, h4, h5, h6, h7, h8, h9⟩ :=
        rotBiLoop_ok m fuel b (f + 1) (l - 1) (by omega) (by omega) (by omega) (by omega)
      exact ⟨d, f', l', h2, by omega, h4, h5, by omega, h7, by omega, fun e he => Mirror.step (by omega) hb1 hb2 (h9 e he)⟩
    · rw [if_neg h1]
      exact ⟨a, f, l, rfl, by omega, hf, hm, by omega, by omega, rfl, fun d hd => hd⟩

theorem rotateBi_ok (pre X Z post : List α) :
    rotateBi (pre ++ X ++ Z ++ post) pre.length (pre.length + X.length) (pre.length + X.length + Z.length) =
      some (pre ++ Z ++ X ++ post, pre.length + Z.length) := by
  unfold rotateBi
  have L : (pre ++ X ++ Z ++ post).length = pre.length + X.length + Z.length + post.length := by
    simp only [List.length_append]
  obtain ⟨a1, h1, m1⟩ := reverseBi_ok (pre.length + X.length - pre.length + 1) (pre ++ X ++ Z ++ post) pre.length
    (pre.length + X.length) (by omega) (by omega) (by omega)
  have e1 : a1 = pre ++ X.reverse ++ (Z ++ post) := Mirror.eq (by rw [← List.append_assoc]; exact m1)
  rw [h1, e1]; simp only [Option.bind_eq_bind, Option.bind_some]
  obtain ⟨a2, h2, m2⟩ := reverseBi_ok (pre.length + X.length + Z.length - (pre.length + X.length) + 1)
    (pre ++ X.reverse ++ (Z ++ post)) (pre.length + X.length) (pre.length + X.length + Z.length) (by omega)
    (by simp only [List.length_append, List.length_reverse]; omega) (by omega)
  have e2 : a2 = (pre ++ X.reverse) ++ Z.reverse ++ post := Mirror.eq (by
    simp only [List.length_append, List.length_reverse]; rw [← List.append_assoc] at m2; exact m2)
  rw [h2, e2]; simp only [Option.bind_some]
  obtain ⟨a3, f', l', h3, g1, g2, g3, g4, g5, g6, g7⟩ := rotBiLoop_ok (pre.length + X.length)
    (pre.length + X.length + Z.length - pre.length + 1) ((pre ++ X.reverse) ++ Z.reverse ++ post) pre.length
    (pre.length + X.length + Z.length) (by omega) (by omega)
    (by simp only [List.length_append, List.length_reverse]; omega) (by omega)
  rw [h3]; simp only [Option.bind_some]
  have L3 : a3.length = pre.length + X.length + Z.length + post.length := by
    rw [g6]; simp only [List.length_append, List.length_reverse]
  have key : ∀ d, Mirror a3 d f' l' → d = pre ++ Z ++ X ++ post := by
    intro d hd
    have hd2 := g7 d hd
    have e : (pre ++ X.reverse) ++ Z.reverse ++ post = pre ++ (X.reverse ++ Z.reverse) ++ post := by simp
    rw [e, show pre.length + X.length + Z.length = pre.length + (X.reverse ++ Z.reverse).length by
      simp only [List.length_append, List.length_reverse]; omega] at hd2
    rw [hd2.eq]; simp
  by_cases hc : f' = pre.length + X.length
  · rw [if_pos hc]
    obtain ⟨d, hd, md⟩ := reverseBi_ok (l' - (pre.length + X.length) + 1) a3 (pre.length + X.length) l' (by omega) (by omega) (by omega)
    rw [hd]; simp only [Option.bind_some]
    rw [key d (by rw [hc]; exact md)]
    congr 2; omega
  · rw [if_neg hc]
    obtain ⟨d, hd, md⟩ := reverseBi_ok (pre.length + X.length - f' + 1) a3 f' (pre.length + X.length) (by omega) (by omega) (by omega)
    rw [hd]; simp only [Option.bind_some]
    have hl : l' = pre.length + X.length := by omega
    rw [key d (by rw [hl]; exact md)]
    congr 2; omega

end Verif.Permute
