import Verif.InplaceMerge
import Verif.Props.Arrange
import Verif.Props.Search

/-! # C66: `inplace_merge` is the stable merge, whatever memory the temporary buffer could get -/

namespace Verif.Permute

open Verif.Sort (wr)

variable {α : Type}

/-! ## copying -/

theorem wr_list (A B : List α) (x v : α) : wr (A ++ x :: B) A.length v = some (A ++ v :: B) := by
  rw [wr_ok (by simp)]; simp

theorem get_list (A B : List α) (x : α) : (A ++ x :: B)[A.length]? = some x := by
  rw [List.getElem?_append_right (by omega)]; simp

/-- copying between two arrays -/
theorem copyTo_list : ∀ (X A B C Y D : List α), Y.length = X.length →
    copyTo (A ++ X ++ B) X.length (C ++ Y ++ D) A.length C.length = some (C ++ X ++ D)
  | [], A, B, C, Y, D, h => by
    have : Y = [] := List.length_eq_zero_iff.mp h
    subst this; rfl
  | x :: X, A, B, C, Y, D, h => by
    obtain ⟨y, Y, rfl⟩ : ∃ x X', Y = x :: X' := List.exists_cons_of_ne_nil (by rintro rfl; simp at h)
    rw [List.length_cons]
    unfold copyTo
    have e1 : A ++ x :: X ++ B = A ++ x :: (X ++ B) := by simp
    have e2 : C ++ y :: Y ++ D = C ++ y :: (Y ++ D) := by simp
    rw [e1, get_list, e2]
    simp only [Option.bind_eq_bind, Option.bind_some]
    rw [wr_list]
    simp only [Option.bind_some]
    have ih := copyTo_list X (A ++ [x]) B (C ++ [x]) Y D (by simpa using h)
    have e3 : A ++ [x] ++ X ++ B = A ++ x :: (X ++ B) := by simp
    have e4 : C ++ [x] ++ Y ++ D = C ++ x :: (Y ++ D) := by simp
    rw [e3, e4] at ih
    simp only [List.length_append, List.length_cons, List.length_nil] at ih
    rw [show A.length + 1 = A.length + (0 + 1) by omega, show C.length + 1 = C.length + (0 + 1) by omega, ih]
    simp

theorem copyBackTo_list : ∀ (n : Nat) (X A B C Y D : List α), X.length = n → Y.length = n →
    copyBackTo (A ++ X ++ B) n (C ++ Y ++ D) (A.length + n) (C.length + n) = some (C ++ X ++ D)
  | 0, X, A, B, C, Y, D, hX, hY => by
    have : Y = [] := List.length_eq_zero_iff.mp hY
    have : X = [] := List.length_eq_zero_iff.mp hX
    subst_vars; rfl
  | n + 1, X, A, B, C, Y, D, hX, hY => by
    rcases List.eq_nil_or_concat X with rfl | ⟨X', x, h1⟩
    · simp at hX
    rcases List.eq_nil_or_concat Y with rfl | ⟨Y', y, h2⟩
    · simp at hY
    rw [List.concat_eq_append] at h1 h2
    subst h1 h2
    simp only [List.length_append, List.length_cons, List.length_nil] at hX hY
    unfold copyBackTo dec
    rw [if_neg (by omega), if_neg (by omega)]
    simp only [Option.bind_eq_bind, Option.bind_some]
    have e1 : A ++ (X' ++ [x]) ++ B = (A ++ X') ++ x :: B := by simp
    have e2 : C ++ (Y' ++ [y]) ++ D = (C ++ Y') ++ y :: D := by simp
    rw [e1, show A.length + (n + 1) - 1 = (A ++ X').length by rw [List.length_append]; omega, get_list, e2]
    simp only [Option.bind_some]
    rw [show C.length + (n + 1) - 1 = (C ++ Y').length by rw [List.length_append]; omega, wr_list]
    simp only [Option.bind_some]
    have ih := copyBackTo_list n X' A (x :: B) C Y' (x :: D) (by omega) (by omega)
    rw [show (A ++ X').length = A.length + n by rw [List.length_append]; omega,
      show (C ++ Y').length = C.length + n by rw [List.length_append]; omega, ih]
    simp

/-- copying to an earlier place of the same array -/
theorem copyIn_ok : ∀ (n : Nat) (a : List α) (s d : Nat), d ≤ s → s + n ≤ a.length →
    ∃ b, copyIn n a s d = some b ∧ b.length = a.length ∧
      ∀ k, b[k]? = if d ≤ k ∧ k < d + n then a[s + (k - d)]? else a[k]?
  | 0, a, s, d, _, _ => ⟨a, rfl, rfl, fun k => by rw [if_neg (by omega)]⟩
  | n + 1, a, s, d, hds, hs => by
    have hs1 : s < a.length := by omega
    have hd1 : d < a.length := by omega
    unfold copyIn
    rw [List.getElem?_eq_getElem hs1]
    simp only [Option.bind_eq_bind, Option.bind_some]
    rw [wr_ok hd1]
    simp only [Option.bind_some]
    obtain ⟨b, h1, h2, h3⟩ := copyIn_ok n (a.set d a[s]) (s + 1) (d + 1) (by omega) (by simp; omega)
    refine ⟨b, h1, by rw [h2]; simp, fun k => ?_⟩
    rw [h3 k, List.getElem?_set, List.getElem?_set]
    by_cases hk : d + 1 ≤ k ∧ k < d + 1 + n
    · rw [if_pos hk, if_neg (by omega), if_pos (by omega)]; congr 1; omega
    · rw [if_neg hk]
      by_cases hk2 : d = k
      · rw [if_pos hk2, if_pos hd1, if_pos (by omega), ← List.getElem?_eq_getElem hs1]; congr 1; omega
      · rw [if_neg hk2, if_neg (by omega)]

/-- copying to a later place of the same array -/
theorem copyBackIn_ok : ∀ (n : Nat) (a : List α) (s d : Nat), s ≤ d → n ≤ s → d ≤ a.length →
    ∃ b, copyBackIn n a s d = some b ∧ b.length = a.length ∧
      ∀ k, b[k]? = if d - n ≤ k ∧ k < d then a[k - (d - s)]? else a[k]?
  | 0, a, s, d, _, _, _ => ⟨a, rfl, rfl, fun k => by rw [if_neg (by omega)]⟩
  | n + 1, a, s, d, hds, hs, hd => by
    have hs1 : s - 1 < a.length := by omega
    have hd1 : d - 1 < a.length := by omega
    unfold copyBackIn dec
    rw [if_neg (by omega), if_neg (by omega)]
    simp only [Option.bind_eq_bind, Option.bind_some]
    rw [List.getElem?_eq_getElem hs1]
    simp only [Option.bind_some]
    rw [wr_ok hd1]
    simp only [Option.bind_some]
    obtain ⟨b, h1, h2, h3⟩ := copyBackIn_ok n (a.set (d - 1) a[s - 1]) (s - 1) (d - 1) (by omega) (by omega) (by simp; omega)
    refine ⟨b, h1, by rw [h2]; simp, fun k => ?_⟩
    rw [h3 k, List.getElem?_set, List.getElem?_set]
    by_cases hk : d - 1 - n ≤ k ∧ k < d - 1
    · rw [if_pos hk, if_neg (by omega), if_pos (by omega)]; congr 1; omega
    · rw [if_neg hk]
      by_cases hk2 : d - 1 = k
      · rw [if_pos hk2, if_pos hd1, if_pos (by omega), ← List.getElem?_eq_getElem hs1]; congr 1; omega
      · rw [if_neg hk2, if_neg (by omega)]

theorem copyIn_self (a : List α) (n s : Nat) (h : s + n ≤ a.length) : copyIn n a s s = some a := by
  obtain ⟨b, h1, _, h3⟩ := copyIn_ok n a s s (Nat.le_refl _) h
  rw [h1]
  refine congrArg some (List.ext_getElem? fun k => ?_)
  rw [h3]
  by_cases hk : s ≤ k ∧ k < s + n
  · rw [if_pos hk]; congr 1; omega
  · rw [if_neg hk]

/-- moving a part forward over a gap of the same array, as far as the part itself is concerned -/
theorem copyBackIn_list (P X G Q : List α) :
    ∃ G', copyBackIn X.length (P ++ X ++ G ++ Q) (P.length + X.length) (P.length + X.length + G.length) = some (P ++ G' ++ X ++ Q) ∧
      G'.length = G.length := by
  obtain ⟨b, h1, h2, h3⟩ := copyBackIn_ok X.length (P ++ X ++ G ++ Q) (P.length + X.length) (P.length + X.length + G.length)
    (by omega) (by omega) (by simp; omega)
  refine ⟨(X ++ G).take G.length, ?_, by simp⟩
  rw [h1]
  refine congrArg some (List.ext_getElem? fun k => ?_)
  rw [h3]
  have e1 : P ++ X ++ G ++ Q = P ++ (X ++ G) ++ Q := by simp
  have e2 : P ++ (X ++ G).take G.length ++ X ++ Q = P ++ ((X ++ G).take G.length ++ X) ++ Q := by simp
  rw [e1, e2, app3, app3, app3]
  have l1 : ((X ++ G).take G.length).length = G.length := by simp
  simp only [List.length_append, l1]
  by_cases c1 : k < P.length
  · rw [if_neg (by omega), if_pos c1, if_pos c1]
  · by_cases c2 : k < P.length + G.length
    · rw [if_neg (by omega), if_neg c1, if_pos (by omega), if_neg c1, if_pos (by omega),
        List.getElem?_append_left (l₁ := (X ++ G).take G.length) (by rw [l1]; omega), List.getElem?_take_of_lt (by omega)]
    · by_cases c3 : k < P.length + (X.length + G.length)
      · rw [if_pos (by omega), if_neg (by omega), if_pos (by omega), if_neg c1, if_pos (by omega),
          List.getElem?_append_left (by omega), List.getElem?_append_right (by rw [l1]; omega), l1]
        congr 1; omega
      · rw [if_neg (by omega), if_neg c1, if_neg c3, if_neg c1, if_neg (by omega)]; congr 1; omega

theorem copyIn_list (P G X Q : List α) :
    ∃ G', copyIn X.length (P ++ G ++ X ++ Q) (P.length + G.length) P.length = some (P ++ X ++ G' ++ Q) ∧ G'.length = G.length := by
  obtain ⟨b, h1, h2, h3⟩ := copyIn_ok X.length (P ++ G ++ X ++ Q) (P.length + G.length) P.length (by omega) (by simp; omega)
  refine ⟨(G ++ X).drop X.length, ?_, by simp⟩
  rw [h1]
  refine congrArg some (List.ext_getElem? fun k => ?_)
  rw [h3]
  have e1 : P ++ G ++ X ++ Q = P ++ (G ++ X) ++ Q := by simp
  have e2 : P ++ X ++ (G ++ X).drop X.length ++ Q = P ++ (X ++ (G ++ X).drop X.length) ++ Q := by simp
  rw [e1, e2, app3, app3, app3]
  have l1 : ((G ++ X).drop X.length).length = G.length := by simp
  simp only [List.length_append, l1]
  by_cases c1 : k < P.length
  · rw [if_neg (by omega), if_pos c1, if_pos c1]
  · by_cases c2 : k < P.length + X.length
    · rw [if_pos (by omega), if_neg (by omega), if_pos (by omega), if_neg c1, if_pos (by omega),
        List.getElem?_append_right (by omega), List.getElem?_append_left (by omega)]
      congr 1; omega
    · by_cases c3 : k < P.length + (X.length + G.length)
      · rw [if_neg (by omega), if_neg c1, if_pos (by omega), if_neg c1, if_pos (by omega),
          List.getElem?_append_right (l₁ := X) (by omega), List.getElem?_drop]
        congr 1; omega
      · rw [if_neg (by omega), if_neg c1, if_neg (by omega), if_neg c1, if_neg (by omega)]; congr 1; omega

/-! ## rotating with the help of the buffer -/

theorem split_len (b : List α) {n : Nat} (h : n ≤ b.length) : ∃ Y D, b = Y ++ D ∧ Y.length = n :=
  ⟨b.take n, b.drop n, (List.take_append_drop n b).symm, by simp; omega⟩

theorem rotateAdaptive_ok (c : Cat) (pre L R post buf : List α) :
    ∃ buf', rotateAdaptive c (pre ++ L ++ R ++ post) buf pre.length (pre.length + L.length) (pre.length + L.length + R.length)
      L.length R.length = some (pre ++ R ++ L ++ post, buf', pre.length + R.length) ∧ buf'.length = buf.length := by
  unfold rotateAdaptive
  simp only [show pre.length + L.length + R.length - (pre.length + L.length) = R.length by omega,
    show pre.length + L.length - pre.length = L.length by omega]
  by_cases h1 : L.length > R.length ∧ R.length ≤ buf.length
  · rw [if_pos h1]
    obtain ⟨Y, D, rfl, hY⟩ := split_len buf h1.2
    have c1 := copyTo_list R (pre ++ L) post [] Y D hY
    simp only [List.nil_append, List.length_nil, List.length_append] at c1
    rw [c1]; simp only [Option.bind_eq_bind, Option.bind_some]
    obtain ⟨G, c2, hG⟩ := copyBackIn_list pre L R post
    rw [c2]; simp only [Option.bind_some]
    have c3 := copyTo_list R [] D pre G (L ++ post) hG
    simp only [List.nil_append, List.length_nil] at c3
    have e : pre ++ G ++ (L ++ post) = pre ++ G ++ L ++ post := by simp
    rw [e] at c3
    rw [c3]; simp only [Option.bind_some]
    exact ⟨R ++ D, by simp, by simp [hY]⟩
  · rw [if_neg h1]
    by_cases h2 : L.length ≤ buf.length
    · rw [if_pos h2]
      obtain ⟨Y, D, rfl, hY⟩ := split_len buf h2
      have c1 := copyTo_list L pre (R ++ post) [] Y D hY
      simp only [List.nil_append, List.length_nil] at c1
      have e0 : pre ++ L ++ (R ++ post) = pre ++ L ++ R ++ post := by simp
      rw [e0] at c1
      rw [c1]; simp only [Option.bind_eq_bind, Option.bind_some]
      obtain ⟨G, c2, hG⟩ := copyIn_list pre L R post
      rw [c2]; simp only [Option.bind_some]
      have c3 := copyBackTo_list L.length L [] D (pre ++ R) G post rfl hG
      simp only [List.nil_append, List.length_nil, List.length_append, Nat.zero_add] at c3
      rw [show pre.length + L.length + R.length = pre.length + R.length + L.length by omega, c3]
      simp only [Option.bind_some]
      exact ⟨L ++ D, by simp, by simp [hY]⟩
    · rw [if_neg h2, c64_rotate]
      exact ⟨buf, rfl, rfl⟩

/-! ## merging -/

/-- the stable merge of two lists: Lean's own merge, taking from the right only what comes before -/
def mrg (lt : α → α → Bool) (l r : List α) : List α := List.merge l r (fun x y => !lt y x)

variable {lt : α → α → Bool}

theorem mrg_nil_left (r : List α) : mrg lt [] r = r := by unfold mrg; simp
theorem mrg_nil_right (l : List α) : mrg lt l [] = l := by unfold mrg; simp
theorem mrg_cons (a b : α) (l r : List α) :
    mrg lt (a :: l) (b :: r) = if lt b a then b :: mrg lt (a :: l) r else a :: mrg lt l (b :: r) := by
  unfold mrg
  rw [List.cons_merge_cons]
  cases h : lt b a <;> simp
theorem mrg_len (l r : List α) : (mrg lt l r).length = l.length + r.length := by unfold mrg; simp
theorem mrg_perm (l r : List α) : (mrg lt l r).Perm (l ++ r) := List.merge_perm_append _

/-- cutting both sequences at corresponding places -/
theorem mrg_split : ∀ (L1 R1 L2 R2 : List α), (∀ a ∈ L1, ∀ b ∈ R2, lt b a = false) → (∀ a ∈ L2, ∀ b ∈ R1, lt b a = true) →
    mrg lt (L1 ++ L2) (R1 ++ R2) = mrg lt L1 R1 ++ mrg lt L2 R2
  | [], [], L2, R2, _, _ => by simp [mrg_nil_left]
  | [], b :: R1, L2, R2, h1, h2 => by
    cases L2 with
    | nil => simp [mrg_nil_left]
    | cons a L2 =>
      have hb : lt b a = true := h2 a List.mem_cons_self b List.mem_cons_self
      have ih := mrg_split [] R1 (a :: L2) R2 (by simp) (fun x hx y hy => h2 x hx y (List.mem_cons_of_mem _ hy))
      simp only [List.nil_append, List.cons_append, mrg_nil_left] at ih ⊢
      rw [mrg_cons, if_pos hb, ih]
  | a :: L1, [], L2, R2, h1, h2 => by
    cases R2 with
    | nil => simp [mrg_nil_right]
    | cons b R2 =>
      have hb : lt b a = false := h1 a List.mem_cons_self b List.mem_cons_self
      have ih := mrg_split L1 [] L2 (b :: R2) (fun x hx y hy => h1 x (List.mem_cons_of_mem _ hx) y hy) (by simp)
      simp only [List.nil_append, List.cons_append, mrg_nil_right] at ih ⊢
      rw [mrg_cons, if_neg (by rw [hb]; simp), ih]
  | a :: L1, b :: R1, L2, R2, h1, h2 => by
    simp only [List.cons_append]
    rw [mrg_cons, mrg_cons]
    by_cases h : lt b a = true
    · rw [if_pos h, if_pos h]
      have ih := mrg_split (a :: L1) R1 L2 R2 h1 (fun x hx y hy => h2 x hx y (List.mem_cons_of_mem _ hy))
      rw [List.cons_append] at ih ⊢
      rw [ih]
    · rw [if_neg h, if_neg h]
      have ih := mrg_split L1 (b :: R1) L2 R2 (fun x hx y hy => h1 x (List.mem_cons_of_mem _ hx) y hy) h2
      rw [List.cons_append] at ih ⊢
      rw [ih]
  termination_by L1 R1 => L1.length + R1.length

/-- merging forward from the buffer into the place the left part has left -/
theorem mergeFwd_ok (buf0 post : List α) (last1 last2 : Nat) : ∀ (fuel : Nat) (pre buf1 X G Y : List α), X.length + Y.length < fuel →
    G.length = X.length → last1 = buf1.length + X.length → last2 = pre.length + G.length + Y.length →
    mergeFwd lt (buf1 ++ X ++ buf0) last1 last2 fuel (pre ++ G ++ Y ++ post) buf1.length (pre.length + G.length) pre.length =
      some (pre ++ mrg lt X Y ++ post)
  | 0, _, _, _, _, _, h, _, _, _ => by omega
  | fuel + 1, pre, buf1, X, G, Y, hf, hG, h1, h2 => by
    unfold mergeFwd
    cases X with
    | nil =>
      have : G = [] := List.length_eq_zero_iff.mp hG
      subst this
      simp only [List.length_nil, Nat.add_zero] at h1 h2 ⊢
      rw [if_neg (by omega), h1, Nat.sub_self]
      show (copyTo _ 0 _ _ _ >>= _) = _
      unfold copyTo
      simp only [Option.bind_eq_bind, Option.bind_some, Nat.add_zero]
      rw [copyIn_self _ _ _ (by simp; omega), mrg_nil_left]; simp
    | cons x X =>
      cases Y with
      | nil =>
        simp only [List.length_nil, Nat.add_zero] at h2
        rw [if_neg (by omega), h1, h2, show buf1.length + (x :: X).length - buf1.length = (x :: X).length by omega, Nat.sub_self]
        have := copyTo_list (x :: X) buf1 buf0 pre G post hG
        rw [List.append_nil, this]
        simp only [Option.bind_eq_bind, Option.bind_some]
        unfold copyIn
        rw [mrg_nil_right]
      | cons y Y =>
        obtain ⟨g, G, rfl⟩ : ∃ x X', G = x :: X' := List.exists_cons_of_ne_nil (by rintro rfl; simp at hG)
        simp only [List.length_cons] at h1 h2 hf hG
        rw [if_pos (by simp only [List.length_cons]; omega)]
        have r1 : (pre ++ g :: G ++ y :: Y ++ post)[pre.length + (g :: G).length]? = some y := by
          have := get_list (pre ++ g :: G) (Y ++ post) y
          rw [List.length_append] at this
          have e : pre ++ g :: G ++ y :: Y ++ post = pre ++ g :: G ++ y :: (Y ++ post) := by simp
          rw [e]; exact this
        have r2 : (buf1 ++ x :: X ++ buf0)[buf1.length]? = some x := by
          have e : buf1 ++ x :: X ++ buf0 = buf1 ++ x :: (X ++ buf0) := by simp
          rw [e, get_list]
        rw [r1, r2]; simp only [Option.bind_eq_bind, Option.bind_some]
        have e1 : pre ++ g :: G ++ y :: Y ++ post = pre ++ g :: (G ++ y :: (Y ++ post)) := by simp
        rw [mrg_cons]
        by_cases h : lt y x = true
        · rw [if_pos h, if_pos h, e1, wr_list]
          simp only [Option.bind_some]
          have ih := mergeFwd_ok buf0 post last1 last2 fuel (pre ++ [y]) buf1 (x :: X) (G ++ [y]) Y
            (by simp only [List.length_cons]; omega) (by simp; omega) (by simp only [List.length_cons]; omega) (by simp; omega)
          have e2 : pre ++ [y] ++ (G ++ [y]) ++ Y ++ post = pre ++ y :: (G ++ y :: (Y ++ post)) := by simp
          rw [e2] at ih
          simp only [List.length_append, List.length_cons, List.length_nil] at ih ⊢
          rw [show pre.length + (G.length + 1) + 1 = pre.length + (0 + 1) + (G.length + (0 + 1)) by omega,
            show pre.length + 1 = pre.length + (0 + 1) by omega, ih]
          simp
        · rw [if_neg h, if_neg h, e1, wr_list]
          simp only [Option.bind_some]
          have ih := mergeFwd_ok buf0 post last1 last2 fuel (pre ++ [x]) (buf1 ++ [x]) X G (y :: Y)
            (by simp only [List.length_cons]; omega) (by omega) (by simp; omega) (by simp; omega)
          have e2 : pre ++ [x] ++ G ++ y :: Y ++ post = pre ++ x :: (G ++ y :: (Y ++ post)) := by simp
          have e3 : buf1 ++ [x] ++ X ++ buf0 = buf1 ++ x :: X ++ buf0 := by simp
          rw [e2, e3] at ih
          simp only [List.length_append, List.length_cons, List.length_nil] at ih ⊢
          rw [show pre.length + (G.length + 1) = pre.length + (0 + 1) + G.length by omega,
            show pre.length + 1 = pre.length + (0 + 1) by omega, show buf1.length + 1 = buf1.length + (0 + 1) by omega, ih]
          simp

theorem sorted_snoc {l : List α} {x : α} (h : Sorted lt (l ++ [x])) : Sorted lt l ∧ ∀ y ∈ l, lt x y = false := by
  have h' := List.pairwise_append.mp h
  exact ⟨h'.1, fun y hy => h'.2.2 y hy x List.mem_cons_self⟩

/-- the greatest element of the merge -/
theorem mrg_last (hlt : StrictWeak lt) {L R : List α} {a b : α} (hL : Sorted lt (L ++ [a])) (hR : Sorted lt (R ++ [b])) :
    mrg lt (L ++ [a]) (R ++ [b]) = if lt b a then mrg lt L (R ++ [b]) ++ [a] else mrg lt (L ++ [a]) R ++ [b] := by
  have hL' := sorted_snoc hL
  have hR' := sorted_snoc hR
  by_cases h : lt b a = true
  · rw [if_pos h]
    have := mrg_split (lt := lt) L (R ++ [b]) [a] [] (by simp) ?_
    · rw [List.append_nil, mrg_nil_right] at this; exact this
    · intro x hx y hy
      simp only [List.mem_singleton] at hx
      subst hx
      rcases List.mem_append.mp hy with hy | hy
      · rcases hlt.trans_neg b y x h with h1 | h1
        · rw [hR'.2 y hy] at h1; cases h1
        · exact h1
      · simp only [List.mem_singleton] at hy; subst hy; exact h
  · rw [if_neg h]
    have := mrg_split (lt := lt) (L ++ [a]) R [] [b] ?_ (by simp)
    · rw [List.append_nil, mrg_nil_left] at this; exact this
    · intro x hx y hy
      simp only [List.mem_singleton] at hy
      subst hy
      rcases List.mem_append.mp hx with hx | hx
      · by_contra hc
        have hc : lt y x = true := by simpa using hc
        rcases hlt.trans_neg y a x hc with h1 | h1
        · exact h h1
        · rw [hL'.2 x hx] at h1; cases h1
      · simp only [List.mem_singleton] at hx; subst hx; simpa using h

theorem mergeBackLoop_ok (hlt : StrictWeak lt) (pre : List α) : ∀ (fuel : Nat) (L R G out buf0 : List α) (x y : α),
    L.length + R.length + 1 < fuel → G.length = R.length + 1 → Sorted lt (L ++ [x]) → Sorted lt (R ++ [y]) →
    mergeBackLoop lt (R ++ [y] ++ buf0) pre.length fuel (pre ++ (L ++ [x]) ++ G ++ out) (pre.length + L.length) R.length
        (pre.length + (L.length + 1) + (R.length + 1)) =
      some (pre ++ mrg lt (L ++ [x]) (R ++ [y]) ++ out)
  | 0, _, _, _, _, _, _, _, h, _, _, _ => by omega
  | fuel + 1, L, R, G, out, buf0, x, y, hf, hG, hL, hR => by
    unfold mergeBackLoop dec
    have r1 : (R ++ [y] ++ buf0)[R.length]? = some y := by
      have e : R ++ [y] ++ buf0 = R ++ y :: buf0 := by simp
      rw [e, get_list]
    have r2 : (pre ++ (L ++ [x]) ++ G ++ out)[pre.length + L.length]? = some x := by
      have := get_list (pre ++ L) (G ++ out) x
      rw [List.length_append] at this
      have e : pre ++ (L ++ [x]) ++ G ++ out = pre ++ L ++ x :: (G ++ out) := by simp
      rw [e]; exact this
    rw [r1, r2, if_neg (by omega)]
    simp only [Option.bind_eq_bind, Option.bind_some]
    rcases List.eq_nil_or_concat G with rfl | ⟨G', g, hg⟩
    · simp at hG
    rw [List.concat_eq_append] at hg
    subst hg
    simp only [List.length_append, List.length_cons, List.length_nil] at hG
    have e1 : pre ++ (L ++ [x]) ++ (G' ++ [g]) ++ out = (pre ++ (L ++ [x]) ++ G') ++ g :: out := by simp
    have e2 : pre.length + (L.length + 1) + (R.length + 1) - 1 = (pre ++ (L ++ [x]) ++ G').length := by
      simp only [List.length_append, List.length_cons, List.length_nil]; omega
    rw [mrg_last hlt hL hR]
    by_cases h : lt y x = true
    · rw [if_pos h, if_pos h, e1, e2, wr_list]
      simp only [Option.bind_some]
      rcases List.eq_nil_or_concat L with rfl | ⟨L', x', hx'⟩
      · rw [if_pos (by simp), mrg_nil_left]
        have := copyBackTo_list (R.length + 1) (R ++ [y]) [] buf0 pre ([x] ++ G') (x :: out) (by simp) (by simp; omega)
        simp only [List.nil_append, List.length_nil, Nat.zero_add] at this
        have e3 : pre ++ ([] ++ [x]) ++ G' ++ x :: out = pre ++ ([x] ++ G') ++ x :: out := by simp
        have e4 : (pre ++ ([] ++ [x]) ++ G').length = pre.length + (R.length + 1) := by
          simp only [List.length_append, List.length_cons, List.length_nil]; omega
        rw [e3, e4, this]; simp
      · rw [List.concat_eq_append] at hx'
        subst hx'
        rw [if_neg (by simp), if_neg (by simp)]
        simp only [Option.bind_some]
        have hL2 := (sorted_snoc hL).1
        have ih := mergeBackLoop_ok hlt pre fuel L' R (x :: G') (x :: out) buf0 x' y
          (by simp only [List.length_append, List.length_cons, List.length_nil] at hf; omega) (by simp; omega) hL2 hR
        have e3 : pre ++ (L' ++ [x'] ++ [x]) ++ G' ++ x :: out = pre ++ (L' ++ [x']) ++ (x :: G') ++ x :: out := by simp
        have e4 : (pre ++ (L' ++ [x'] ++ [x]) ++ G').length = pre.length + (L'.length + 1) + (R.length + 1) := by
          simp only [List.length_append, List.length_cons, List.length_nil]; omega
        have e5 : pre.length + (L' ++ [x']).length - 1 = pre.length + L'.length := by
          simp only [List.length_append, List.length_cons, List.length_nil]; omega
        rw [e3, e4, e5, ih]; simp
    · rw [if_neg h, if_neg h, e1, e2, wr_list]
      simp only [Option.bind_some]
      rcases List.eq_nil_or_concat R with rfl | ⟨R', y', hy'⟩
      · have : G' = [] := List.length_eq_zero_iff.mp (by simp only [List.length_nil] at hG; omega)
        subst this
        rw [if_pos (by simp), mrg_nil_right]
        have e3 : pre ++ (L ++ [x]) ++ [] ++ y :: out = pre ++ (L ++ [x]) ++ [] ++ (y :: out) := rfl
        obtain ⟨G2, h3, h4⟩ := copyBackIn_list pre (L ++ [x]) [] (y :: out)
        have : G2 = [] := List.length_eq_zero_iff.mp h4
        subst this
        simp only [List.length_append, List.length_cons, List.length_nil, Nat.add_zero] at h3 ⊢
        rw [show pre.length + L.length + 1 - pre.length = L.length + (0 + 1) by omega,
          show pre.length + L.length + 1 = pre.length + (L.length + (0 + 1)) by omega, h3]
        simp
      · rw [List.concat_eq_append] at hy'
        subst hy'
        rw [if_neg (by simp), if_neg (by simp)]
        simp only [Option.bind_some]
        have hR2 := (sorted_snoc hR).1
        have ih := mergeBackLoop_ok hlt pre fuel L R' G' (y :: out) (y :: buf0) x y'
          (by simp only [List.length_append, List.length_cons, List.length_nil] at hf; omega)
          (by simp only [List.length_append, List.length_cons, List.length_nil] at hG; omega) hL hR2
        have e3 : R' ++ [y'] ++ [y] ++ buf0 = R' ++ [y'] ++ y :: buf0 := by simp
        have e4 : (pre ++ (L ++ [x]) ++ G').length = pre.length + (L.length + 1) + (R'.length + 1) := by
          simp only [List.length_append, List.length_cons, List.length_nil] at hG ⊢; omega
        have e5 : (R' ++ [y']).length - 1 = R'.length := by simp
        rw [e3, e4, e5, ih]; simp

theorem mergeBackward_ok (hlt : StrictWeak lt) (pre L R G out buf0 : List α) (hG : G.length = R.length)
    (hL : Sorted lt L) (hR : Sorted lt R) :
    mergeBackward lt (R ++ buf0) (pre ++ L ++ G ++ out) pre.length (pre.length + L.length) R.length
        (pre.length + L.length + R.length) = some (pre ++ mrg lt L R ++ out) := by
  unfold mergeBackward
  rcases List.eq_nil_or_concat L with rfl | ⟨L', x, hx⟩
  · rw [if_pos (by simp), mrg_nil_left]
    have := copyBackTo_list R.length R [] buf0 pre G out rfl hG
    simpa using this
  · rw [List.concat_eq_append] at hx
    subst hx
    rw [if_neg (by simp)]
    rcases List.eq_nil_or_concat R with rfl | ⟨R', y, hy⟩
    · have : G = [] := List.length_eq_zero_iff.mp hG
      subst this
      rw [if_pos (by simp), mrg_nil_right]
      obtain ⟨G2, h3, h4⟩ := copyBackIn_list pre (L' ++ [x]) [] out
      have : G2 = [] := List.length_eq_zero_iff.mp h4
      subst this
      simp only [List.length_nil, Nat.add_zero] at h3 ⊢
      rw [Nat.add_sub_cancel_left, h3]; simp
    · rw [List.concat_eq_append] at hy
      subst hy
      rw [if_neg (by simp)]
      unfold dec
      rw [if_neg (by simp), if_neg (by simp)]
      simp only [Option.bind_eq_bind, Option.bind_some]
      have := mergeBackLoop_ok hlt pre (pre.length + (L' ++ [x]).length - pre.length + (R' ++ [y]).length + 1) L' R' G out buf0 x y
        (by simp only [List.length_append, List.length_cons, List.length_nil]; omega)
        (by rw [hG]; simp) hL hR
      simp only [List.length_append, List.length_cons, List.length_nil, Nat.zero_add] at this ⊢
      rw [show pre.length + (L'.length + 1) - 1 = pre.length + L'.length by omega,
        show R'.length + 1 - 1 = R'.length by omega]
      exact this

/-! ## cutting -/

theorem sortedOn_of (A R B : List α) (h : Sorted lt R) : SortedOn lt (A ++ R ++ B) A.length (A.length + R.length) := by
  intro i j hi hij hj a b ha hb
  rw [app3, if_neg (by omega), if_pos (by omega)] at ha hb
  have h1 : i - A.length < R.length := by omega
  have h2 : j - A.length < R.length := by omega
  rw [List.getElem?_eq_getElem h1] at ha
  rw [List.getElem?_eq_getElem h2] at hb
  have := List.pairwise_iff_getElem.mp h (i - A.length) (j - A.length) h1 h2 (by omega)
  simp only [Option.some.injEq] at ha hb
  rw [ha, hb] at this
  exact this

theorem boundary_split {p : α → Bool} {A R B : List α} {r : Nat}
    (h : Boundary p (A ++ R ++ B) A.length (A.length + R.length) r) :
    ∃ R1 R2, R = R1 ++ R2 ∧ r = A.length + R1.length ∧ (∀ y ∈ R1, p y = true) ∧ (∀ y ∈ R2, p y = false) := by
  obtain ⟨h1, h2, h3, h4⟩ := h
  refine ⟨R.take (r - A.length), R.drop (r - A.length), (List.take_append_drop _ R).symm, by simp; omega, ?_, ?_⟩
  · intro y hy
    obtain ⟨i, hi, rfl⟩ := List.mem_iff_getElem.mp hy
    simp only [List.length_take] at hi
    refine h3 (A.length + i) _ (by omega) (by omega) ?_
    rw [app3, if_neg (by omega), if_pos (by omega), Nat.add_sub_cancel_left, List.getElem_take, List.getElem?_eq_getElem]
  · intro y hy
    obtain ⟨i, hi, rfl⟩ := List.mem_iff_getElem.mp hy
    simp only [List.length_drop] at hi
    refine h4 (r + i) _ (by omega) (by omega) ?_
    rw [app3, if_neg (by omega), if_pos (by omega), List.getElem_drop]
    rw [List.getElem?_eq_getElem (by omega)]
    congr 2; omega

theorem cuts_ok (hlt : StrictWeak lt) (pre L R post : List α) (hL : Sorted lt L) (hR : Sorted lt R) (hL0 : 0 < L.length)
    (hR0 : 0 < R.length) (h3 : 2 < L.length + R.length) :
    ∃ L1 L2 R1 R2, L = L1 ++ L2 ∧ R = R1 ++ R2 ∧
      cuts lt (pre ++ L ++ R ++ post) pre.length (pre.length + L.length) (pre.length + L.length + R.length) L.length R.length =
        some (pre.length + L1.length, pre.length + L.length + R1.length, L1.length, R1.length) ∧
      (∀ a ∈ L1, ∀ b ∈ R2, lt b a = false) ∧ (∀ a ∈ L2, ∀ b ∈ R1, lt b a = true) ∧
      L1.length + R1.length < L.length + R.length ∧ L2.length + R2.length < L.length + R.length := by
  unfold cuts
  by_cases h : L.length > R.length
  · rw [if_pos h]
    obtain ⟨L1, L2', hsplit, hlen⟩ := split_len L (show L.length / 2 ≤ L.length by omega)
    obtain ⟨x, L2, rfl⟩ : ∃ x X', L2' = x :: X' := List.exists_cons_of_ne_nil (by
      rintro rfl; rw [hsplit] at hlen; simp at hlen; rw [hsplit] at hL0; simp at hL0; omega)
    have hx : (pre ++ L ++ R ++ post)[pre.length + L.length / 2]? = some x := by
      rw [hsplit, ← hsplit, ← hlen]
      have := get_list (pre ++ L1) (L2 ++ R ++ post) x
      rw [List.length_append] at this
      have e : pre ++ L ++ R ++ post = pre ++ L1 ++ x :: (L2 ++ R ++ post) := by rw [hsplit]; simp
      rw [e]; exact this
    simp only []
    rw [hx]; simp only [Option.bind_eq_bind, Option.bind_some]
    have hso := sortedOn_of (lt := lt) (pre ++ L) R post hR
    obtain ⟨r, hr, hb⟩ := Search.c47_lower_bound hlt (pre ++ L ++ R ++ post) (pre ++ L).length ((pre ++ L).length + R.length) x
      (by omega) (by simp; omega) hso
    obtain ⟨R1, R2, e1, e2, e3, e4⟩ := boundary_split hb
    rw [List.length_append] at hr e2
    rw [hr]; simp only [Option.bind_some]
    rw [hsplit] at hL
    have hL' := List.pairwise_append.mp hL
    have hL2 := List.pairwise_cons.mp hL'.2.1
    have hl1 : L.length = L1.length + (L2.length + 1) := by rw [hsplit]; simp
    have hl2 : R.length = R1.length + R2.length := by rw [e1]; simp
    refine ⟨L1, x :: L2, R1, R2, hsplit, e1, ?_, ?_, ?_, by omega, by simp only [List.length_cons]; omega⟩
    · rw [hlen, e2, Nat.add_sub_cancel_left]
    · intro a ha b hb
      by_contra hc
      have hc : lt b a = true := by simpa using hc
      rcases hlt.trans_neg b x a hc with h5 | h5
      · rw [e4 b hb] at h5; cases h5
      · rw [hL'.2.2 a ha x List.mem_cons_self] at h5; cases h5
    · intro a ha b hbR
      rcases List.mem_cons.mp ha with rfl | ha
      · exact e3 b hbR
      · rcases hlt.trans_neg b a x (e3 b hbR) with h5 | h5
        · exact h5
        · rw [hL2.1 a ha] at h5; cases h5
  · rw [if_neg h]
    obtain ⟨R1, R2', hsplit, hlen⟩ := split_len R (show R.length / 2 ≤ R.length by omega)
    obtain ⟨y, R2, rfl⟩ : ∃ x X', R2' = x :: X' := List.exists_cons_of_ne_nil (by
      rintro rfl; rw [hsplit] at hlen; simp at hlen; rw [hsplit] at hR0; simp at hR0; omega)
    have hy : (pre ++ L ++ R ++ post)[pre.length + L.length + R.length / 2]? = some y := by
      rw [← hlen]
      have := get_list (pre ++ L ++ R1) (R2 ++ post) y
      rw [List.length_append, List.length_append] at this
      have e : pre ++ L ++ R ++ post = pre ++ L ++ R1 ++ y :: (R2 ++ post) := by rw [hsplit]; simp
      rw [e]; exact this
    simp only []
    rw [hy]; simp only [Option.bind_eq_bind, Option.bind_some]
    have hso := sortedOn_of (lt := lt) pre L (R ++ post) hL
    have e0 : pre ++ L ++ (R ++ post) = pre ++ L ++ R ++ post := by simp
    obtain ⟨r, hr, hb⟩ := Search.c47_upper_bound hlt (pre ++ L ++ (R ++ post)) pre.length (pre.length + L.length) y
      (by omega) (by simp) hso
    obtain ⟨L1, L2, e1, e2, e3, e4⟩ := boundary_split hb
    rw [e0] at hr
    rw [hr]; simp only [Option.bind_some]
    rw [hsplit] at hR
    have hR' := List.pairwise_append.mp hR
    have hR2 := List.pairwise_cons.mp hR'.2.1
    have hl1 : R.length = R1.length + (R2.length + 1) := by rw [hsplit]; simp
    have hl2 : L.length = L1.length + L2.length := by rw [e1]; simp
    refine ⟨L1, L2, R1, y :: R2, e1, hsplit, ?_, ?_, ?_, by omega, by simp only [List.length_cons]; omega⟩
    · rw [hlen, e2, Nat.add_sub_cancel_left]
    · intro a ha b hb
      have ha' : lt y a = false := by simpa using e3 a ha
      rcases List.mem_cons.mp hb with rfl | hb
      · exact ha'
      · by_contra hc
        have hc : lt b a = true := by simpa using hc
        rcases hlt.trans_neg b y a hc with h5 | h5
        · rw [hR2.1 b hb] at h5; cases h5
        · rw [ha'] at h5; cases h5
    · intro a ha b hb
      have ha' : lt y a = true := by simpa using e4 a ha
      rcases hlt.trans_neg y b a ha' with h5 | h5
      · rw [hR'.2.2 b hb y List.mem_cons_self] at h5; cases h5
      · exact h5

/-! ## the two recursive merges -/

theorem mergeWithout_ok (hlt : StrictWeak lt) (c : Cat) : ∀ (fuel : Nat) (pre L R post : List α), L.length + R.length < fuel →
    Sorted lt L → Sorted lt R →
    mergeWithout lt c fuel (pre ++ L ++ R ++ post) pre.length (pre.length + L.length) (pre.length + L.length + R.length)
      L.length R.length = some (pre ++ mrg lt L R ++ post)
  | 0, _, _, _, _, h, _, _ => by omega
  | fuel + 1, pre, L, R, post, hf, hL, hR => by
    unfold mergeWithout
    by_cases h0 : L.length = 0 ∨ R.length = 0
    · rw [if_pos h0]
      rcases h0 with h0 | h0
      · rw [List.length_eq_zero_iff.mp h0, mrg_nil_left]; simp
      · rw [List.length_eq_zero_iff.mp h0, mrg_nil_right]; simp
    · rw [if_neg h0]
      by_cases h2 : L.length + R.length = 2
      · rw [if_pos h2]
        obtain ⟨x, rfl⟩ := List.length_eq_one_iff.mp (show L.length = 1 by omega)
        obtain ⟨y, rfl⟩ := List.length_eq_one_iff.mp (show R.length = 1 by omega)
        have r1 : (pre ++ [x] ++ [y] ++ post)[pre.length + [x].length]? = some y := by
          have := get_list (pre ++ [x]) post y
          rw [List.length_append] at this
          have e : pre ++ [x] ++ [y] ++ post = pre ++ [x] ++ y :: post := by simp
          rw [e]; exact this
        have r2 : (pre ++ [x] ++ [y] ++ post)[pre.length]? = some x := by
          have e : pre ++ [x] ++ [y] ++ post = pre ++ x :: (y :: post) := by simp
          rw [e, get_list]
        rw [r1, r2]; simp only [Option.bind_eq_bind, Option.bind_some]
        rw [mrg_cons]
        by_cases h : lt y x = true
        · rw [if_pos h, if_pos h, mrg_nil_right]
          have := swp_list pre [] post x y
          simp only [List.nil_append, List.length_nil, Nat.add_zero] at this
          have e : pre ++ [x] ++ [y] ++ post = pre ++ x :: y :: post := by simp
          rw [e, List.length_singleton, this]; simp
        · rw [if_neg h, if_neg h, mrg_nil_left]; simp
      · rw [if_neg h2]
        obtain ⟨L1, L2, R1, R2, e1, e2, hc, d1, d2, d3, d4⟩ := cuts_ok hlt pre L R post hL hR (by omega) (by omega) (by omega)
        rw [hc]; simp only [Option.bind_eq_bind, Option.bind_some]
        have hrot := c64_rotate c (pre ++ L1) L2 R1 (R2 ++ post)
        have hl1 : L.length = L1.length + L2.length := by rw [e1]; simp
        have hl2 : R.length = R1.length + R2.length := by rw [e2]; simp
        simp only [List.length_append] at hrot
        have f1 : pre ++ L ++ R ++ post = pre ++ L1 ++ L2 ++ R1 ++ (R2 ++ post) := by rw [e1, e2]; simp
        rw [f1, show pre.length + L.length + R1.length = pre.length + L1.length + L2.length + R1.length by omega,
          show pre.length + L.length = pre.length + L1.length + L2.length by omega, hrot]
        simp only [Option.bind_some]
        rw [e1] at hL; rw [e2] at hR
        have hLs := List.pairwise_append.mp hL
        have hRs := List.pairwise_append.mp hR
        have ih1 := mergeWithout_ok hlt c fuel pre L1 R1 (L2 ++ (R2 ++ post)) (by omega) hLs.1 hRs.1
        have f2 : pre ++ L1 ++ R1 ++ L2 ++ (R2 ++ post) = pre ++ L1 ++ R1 ++ (L2 ++ (R2 ++ post)) := by simp
        rw [f2, ih1]
        simp only [Option.bind_some]
        have ih2 := mergeWithout_ok hlt c fuel (pre ++ mrg lt L1 R1) L2 R2 post (by omega) hLs.2.1 hRs.2.1
        rw [List.length_append, mrg_len] at ih2
        have f3 : pre ++ mrg lt L1 R1 ++ (L2 ++ (R2 ++ post)) = pre ++ mrg lt L1 R1 ++ L2 ++ R2 ++ post := by simp
        rw [f3, show L.length - L1.length = L2.length by omega, show R.length - R1.length = R2.length by omega,
          show pre.length + L1.length + R1.length = pre.length + (L1.length + R1.length) by omega,
          show pre.length + L1.length + L2.length + R1.length = pre.length + (L1.length + R1.length) + L2.length by omega,
          show pre.length + L1.length + L2.length + R.length = pre.length + (L1.length + R1.length) + L2.length + R2.length by omega, ih2]
        rw [e1, e2, mrg_split L1 R1 L2 R2 d1 d2]; simp

theorem mergeAdaptive_ok (hlt : StrictWeak lt) (c : Cat) : ∀ (fuel : Nat) (pre L R post buf : List α), L.length + R.length < fuel →
    0 < buf.length → Sorted lt L → Sorted lt R →
    ∃ buf', mergeAdaptive lt c fuel (pre ++ L ++ R ++ post) buf pre.length (pre.length + L.length) (pre.length + L.length + R.length)
      L.length R.length = some (pre ++ mrg lt L R ++ post, buf') ∧ buf'.length = buf.length
  | 0, _, _, _, _, _, h, _, _, _ => by omega
  | fuel + 1, pre, L, R, post, buf, hf, hb0, hL, hR => by
    unfold mergeAdaptive
    simp only [show pre.length + L.length + R.length - (pre.length + L.length) = R.length by omega,
      show pre.length + L.length - pre.length = L.length by omega,
      show pre.length + L.length + R.length - pre.length = L.length + R.length by omega]
    by_cases h1 : L.length ≤ R.length ∧ L.length ≤ buf.length
    · rw [if_pos h1]
      obtain ⟨Y, D, rfl, hY⟩ := split_len buf h1.2
      have c1 := copyTo_list L pre (R ++ post) [] Y D hY
      simp only [List.nil_append, List.length_nil] at c1
      have e0 : pre ++ L ++ (R ++ post) = pre ++ L ++ R ++ post := by simp
      rw [e0] at c1
      rw [c1]; simp only [Option.bind_eq_bind, Option.bind_some]
      have := mergeFwd_ok (lt := lt) D post L.length (pre.length + L.length + R.length) (L.length + R.length + 1) pre [] L L R
        (by omega) rfl (by simp) rfl
      simp only [List.nil_append, List.length_nil] at this
      rw [this]
      exact ⟨L ++ D, rfl, by simp [hY]⟩
    · rw [if_neg h1]
      by_cases h2 : R.length ≤ buf.length
      · rw [if_pos h2]
        obtain ⟨Y, D, rfl, hY⟩ := split_len buf h2
        have c1 := copyTo_list R (pre ++ L) post [] Y D hY
        simp only [List.nil_append, List.length_nil, List.length_append] at c1
        rw [c1]; simp only [Option.bind_eq_bind, Option.bind_some]
        have := mergeBackward_ok hlt pre L R R post D rfl hL hR
        rw [this]
        exact ⟨R ++ D, rfl, by simp [hY]⟩
      · rw [if_neg h2]
        obtain ⟨L1, L2, R1, R2, e1, e2, hc, d1, d2, d3, d4⟩ := cuts_ok hlt pre L R post hL hR (by omega) (by omega) (by omega)
        rw [hc]; simp only [Option.bind_eq_bind, Option.bind_some]
        obtain ⟨buf1, hrot, hbl1⟩ := rotateAdaptive_ok c (pre ++ L1) L2 R1 (R2 ++ post) buf
        have hl1 : L.length = L1.length + L2.length := by rw [e1]; simp
        have hl2 : R.length = R1.length + R2.length := by rw [e2]; simp
        simp only [List.length_append] at hrot
        have f1 : pre ++ L ++ R ++ post = pre ++ L1 ++ L2 ++ R1 ++ (R2 ++ post) := by rw [e1, e2]; simp
        rw [f1, show pre.length + L.length + R1.length = pre.length + L1.length + L2.length + R1.length by omega,
          show pre.length + L.length = pre.length + L1.length + L2.length by omega, show L.length - L1.length = L2.length by omega, hrot]
        simp only [Option.bind_some]
        rw [e1] at hL; rw [e2] at hR
        have hLs := List.pairwise_append.mp hL
        have hRs := List.pairwise_append.mp hR
        obtain ⟨buf2, ih1, hbl2⟩ := mergeAdaptive_ok hlt c fuel pre L1 R1 (L2 ++ (R2 ++ post)) buf1 (by omega) (by omega) hLs.1 hRs.1
        have f2 : pre ++ L1 ++ R1 ++ L2 ++ (R2 ++ post) = pre ++ L1 ++ R1 ++ (L2 ++ (R2 ++ post)) := by simp
        rw [f2, ih1]
        simp only [Option.bind_some]
        obtain ⟨buf3, ih2, hbl3⟩ := mergeAdaptive_ok hlt c fuel (pre ++ mrg lt L1 R1) L2 R2 post buf2 (by omega) (by omega) hLs.2.1 hRs.2.1
        rw [List.length_append, mrg_len] at ih2
        have f3 : pre ++ mrg lt L1 R1 ++ (L2 ++ (R2 ++ post)) = pre ++ mrg lt L1 R1 ++ L2 ++ R2 ++ post := by simp
        rw [f3, show R.length - R1.length = R2.length by omega,
          show pre.length + L1.length + R1.length = pre.length + (L1.length + R1.length) by omega,
          show pre.length + L1.length + L2.length + R1.length = pre.length + (L1.length + R1.length) + L2.length by omega,
          show pre.length + L1.length + L2.length + R.length = pre.length + (L1.length + R1.length) + L2.length + R2.length by omega, ih2]
        refine ⟨buf3, ?_, by omega⟩
        rw [e1, e2, mrg_split L1 R1 L2 R2 d1 d2]; simp

/-! ## the merge is the stable one -/

theorem mrg_sorted (hlt : StrictWeak lt) : ∀ (L R : List α), Sorted lt L → Sorted lt R → Sorted lt (mrg lt L R)
  | [], R, _, hR => by rw [mrg_nil_left]; exact hR
  | a :: L, [], hL, _ => by rw [mrg_nil_right]; exact hL
  | a :: L, b :: R, hL, hR => by
    rw [mrg_cons]
    have hL' := List.pairwise_cons.mp hL
    have hR' := List.pairwise_cons.mp hR
    by_cases h : lt b a = true
    · rw [if_pos h]
      refine List.pairwise_cons.mpr ⟨fun z hz => ?_, mrg_sorted hlt (a :: L) R hL hR'.2⟩
      rcases List.mem_append.mp ((mrg_perm (a :: L) R).mem_iff.mp hz) with hz | hz
      · have hza : lt z a = false := by
          rcases List.mem_cons.mp hz with rfl | hz
          · exact irrefl hlt z
          · exact hL'.1 z hz
        by_contra hc
        have hc : lt z b = true := by simpa using hc
        rcases hlt.trans_neg z a b hc with h5 | h5
        · rw [hza] at h5; cases h5
        · rw [hlt.asymm _ _ h5] at h; cases h
      · exact hR'.1 z hz
    · have h' : lt b a = false := by simpa using h
      rw [if_neg h]
      refine List.pairwise_cons.mpr ⟨fun z hz => ?_, mrg_sorted hlt L (b :: R) hL'.2 hR⟩
      rcases List.mem_append.mp ((mrg_perm L (b :: R)).mem_iff.mp hz) with hz | hz
      · exact hL'.1 z hz
      · rcases List.mem_cons.mp hz with rfl | hz
        · exact h'
        · by_contra hc
          have hc : lt z a = true := by simpa using hc
          rcases hlt.trans_neg z b a hc with h5 | h5
          · rw [hR'.1 z hz] at h5; cases h5
          · rw [h'] at h5; cases h5
  termination_by L R => L.length + R.length

theorem mrg_stable (hlt : StrictWeak lt) (x : α) : ∀ (L R : List α), Sorted lt L →
    (mrg lt L R).filter (equiv lt x) = L.filter (equiv lt x) ++ R.filter (equiv lt x)
  | [], R, _ => by rw [mrg_nil_left]; simp
  | a :: L, [], _ => by rw [mrg_nil_right]; simp
  | a :: L, b :: R, hL => by
    rw [mrg_cons]
    have hL' := List.pairwise_cons.mp hL
    by_cases h : lt b a = true
    · rw [if_pos h, List.filter_cons, mrg_stable hlt x (a :: L) R hL]
      by_cases hb : equiv lt x b = true
      · rw [if_pos hb, List.filter_cons (x := b), if_pos hb]
        have hempty : (a :: L).filter (equiv lt x) = [] := by
          rw [List.filter_eq_nil_iff]
          intro z hz hzx
          unfold equiv at hb hzx
          simp only [Bool.and_eq_true, Bool.not_eq_true'] at hb hzx
          have hza : lt z a = false := by
            rcases List.mem_cons.mp hz with rfl | hz
            · exact irrefl hlt z
            · exact hL'.1 z hz
          -- b < a, a ≤ z, z ~ x ~ b
          rcases hlt.trans_neg b z a h with h5 | h5
          · rcases hlt.trans_neg b x z h5 with h6 | h6
            · rw [hb.2] at h6; cases h6
            · rw [hzx.1] at h6; cases h6
          · rw [hza] at h5; cases h5
        rw [hempty]; simp
      · rw [if_neg hb, List.filter_cons (x := b), if_neg hb]
    · rw [if_neg h, List.filter_cons, List.filter_cons (x := a), mrg_stable hlt x L (b :: R) hL'.2]
      by_cases ha : equiv lt x a = true
      · rw [if_pos ha, if_pos ha]; simp
      · rw [if_neg ha, if_neg ha]
  termination_by L R => L.length + R.length

/-- **C66.** For every strict weak order, every array, and every range of it made of two consecutive sorted parts, `inplace_merge` —
with any kind of iterator and whatever the temporary buffer could obtain (no memory at all, or any number of elements from one on with
any contents) — returns, changes nothing outside the range, and leaves the stable merge of the two parts in it. -/
theorem c66_inplace_merge (hlt : StrictWeak lt) (c : Cat) (buf : Option (List α)) (hbuf : ∀ b, buf = some b → 0 < b.length)
    (pre left right post : List α) (hl : Sorted lt left) (hr : Sorted lt right) :
    ∃ out, inplaceMerge lt c buf (pre ++ left ++ right ++ post) pre.length (pre.length + left.length)
        (pre.length + left.length + right.length) = some (pre ++ out ++ post) ∧ StableMerge lt left right out := by
  refine ⟨mrg lt left right, ?_, mrg_sorted hlt _ _ hl hr, mrg_perm _ _, fun x => mrg_stable hlt x _ _ hl⟩
  unfold inplaceMerge
  by_cases h : pre.length = pre.length + left.length ∨ pre.length + left.length = pre.length + left.length + right.length
  · rw [if_pos h]
    rcases h with h | h
    · rw [List.length_eq_zero_iff.mp (show left.length = 0 by omega), mrg_nil_left]; simp
    · rw [List.length_eq_zero_iff.mp (show right.length = 0 by omega), mrg_nil_right]; simp
  · rw [if_neg h]
    simp only [show pre.length + left.length + right.length - (pre.length + left.length) = right.length by omega,
      show pre.length + left.length - pre.length = left.length by omega,
      show pre.length + left.length + right.length - pre.length = left.length + right.length by omega]
    cases buf with
    | none => exact mergeWithout_ok hlt c _ pre left right post (by omega) hl hr
    | some b =>
      obtain ⟨b', h1, _⟩ := mergeAdaptive_ok hlt c (left.length + right.length + 1) pre left right post b (by omega) (hbuf b rfl) hl hr
      show (mergeAdaptive lt c _ _ _ _ _ _ _ _ >>= _) = _
      rw [h1]; rfl

example : inplaceMerge (fun x y : Nat => decide (x < y)) .ra none [9, 1, 3, 5, 7, 2, 3, 4, 8, 0] 1 5 9 =
      some [9, 1, 2, 3, 3, 4, 5, 7, 8, 0] ∧
    inplaceMerge (fun x y : Nat => decide (x < y)) .bi (some [0]) [9, 1, 3, 5, 7, 2, 3, 4, 8, 0] 1 5 9 =
      some [9, 1, 2, 3, 3, 4, 5, 7, 8, 0] ∧
    inplaceMerge (fun x y : Nat => decide (x < y)) .fwd (some [0, 0, 0, 0, 0, 0, 0, 0]) [9, 1, 3, 5, 7, 2, 3, 4, 8, 0] 1 5 9 =
      some [9, 1, 2, 3, 3, 4, 5, 7, 8, 0] := by
  decide

end Verif.Permute
