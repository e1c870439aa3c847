import Verif.Compare
import Verif.OrderSpec
import Verif.Props.CopyAlgo
/-!
# C107 — comparison operators of pairs and containers
-/

namespace Verif.Compare
open Verif Verif.CopyAlgo

variable {α β : Type}

/-- `==` says the same as: neither is before the other -/
def Consistent {γ : Type} (lt eq : γ → γ → Bool) : Prop := ∀ a b, eq a b = true ↔ lt a b = false ∧ lt b a = false

theorem irr {γ : Type} {lt : γ → γ → Bool} (hs : StrictWeak lt) (a : γ) : lt a a = false := by
  cases h : lt a a with
  | false => rfl
  | true => have := hs.asymm a a h; rw [h] at this; exact this

/-- neither before the other is transitive, and may be exchanged on either side of `<` -/
theorem equiv_lt {γ : Type} {lt : γ → γ → Bool} (hs : StrictWeak lt) {a b c : γ} (h1 : lt a b = false) (h2 : lt b a = false) :
    lt a c = lt b c ∧ lt c a = lt c b := by
  have h3 := hs.trans_neg a b c
  have h4 := hs.trans_neg b a c
  have h5 := hs.trans_neg c b a
  have h6 := hs.trans_neg c a b
  rw [h1] at h3 h6; rw [h2] at h4 h5
  constructor
  · cases x : lt a c <;> cases y : lt b c <;> simp_all
  · cases x : lt c a <;> cases y : lt c b <;> simp_all

/-- **C107.** If `==` on the first components agrees with `<`, `<` on pairs is a strict weak order, so pairs can be sorted and used as keys. -/
theorem c107_pair_order {lt1 eq1 : α → α → Bool} {lt2 : β → β → Bool} (h1 : StrictWeak lt1) (h2 : StrictWeak lt2) (hc : Consistent lt1 eq1) :
    StrictWeak (pairLt lt1 eq1 lt2) := by
  have he : ∀ a b, eq1 a b = (!lt1 a b && !lt1 b a) := by
    intro a b
    have := hc a b
    cases h : eq1 a b <;> cases h' : lt1 a b <;> cases h'' : lt1 b a <;> simp_all
  refine ⟨fun a b h => ?_, fun a b c h => ?_⟩
  · have g1 := h1.asymm a.1 b.1
    have g2 := h2.asymm a.2 b.2
    unfold pairLt at h ⊢
    rw [he] at h ⊢
    cases x : lt1 a.1 b.1 <;> cases y : lt1 b.1 a.1 <;> simp_all
  · unfold pairLt at h ⊢
    rw [he] at h
    rw [he, he]
    have g1 := h1.trans_neg a.1 b.1 c.1
    have g2 := h2.trans_neg a.2 b.2 c.2
    have g3 := h1.asymm a.1 b.1
    have g4 := h1.asymm b.1 c.1
    have g5 := @equiv_lt _ _ h1 a.1 c.1 b.1
    cases x1 : lt1 a.1 c.1 <;> cases x2 : lt1 c.1 a.1 <;> cases x3 : lt1 a.1 b.1 <;> cases x4 : lt1 b.1 a.1 <;> cases x5 : lt1 b.1 c.1 <;>
      cases x6 : lt1 c.1 b.1 <;> simp_all

/-- **C107.** `==` of pairs agrees with their `<` if that holds for both components. -/
theorem c107_pair_eq {lt1 eq1 : α → α → Bool} {lt2 eq2 : β → β → Bool} (h1 : StrictWeak lt1) (hc : Consistent lt1 eq1) (hd : Consistent lt2 eq2) :
    Consistent (pairLt lt1 eq1 lt2) (pairEq eq1 eq2) := by
  intro a b
  have g1 := hc a.1 b.1
  have g2 := hc b.1 a.1
  have g3 := hd a.2 b.2
  have g4 := h1.asymm a.1 b.1
  unfold pairLt pairEq
  cases x1 : lt1 a.1 b.1 <;> cases x2 : lt1 b.1 a.1 <;> cases x3 : lt2 a.2 b.2 <;> cases x4 : lt2 b.2 a.2 <;>
    cases x5 : eq1 a.1 b.1 <;> cases x6 : eq1 b.1 a.1 <;> cases x7 : eq2 a.2 b.2 <;> simp_all

/-- **C107, defect.** `<` of pairs asks `==` of the first components: if two of them are neither before one another nor equal (letters
compared without regard to case, say), the second components are ignored, and `<` on pairs is no strict weak order. -/
theorem c107_pair_defect : ∃ (lt1 eq1 lt2 : ℕ → ℕ → Bool), StrictWeak lt1 ∧ (∀ a b, eq1 a b = true ↔ a = b) ∧ StrictWeak lt2 ∧ ¬ StrictWeak (pairLt lt1 eq1 lt2) := by
  have hd : ∀ k : ℕ, StrictWeak (fun a b : ℕ => decide (a / (k + 1) < b / (k + 1))) := by
    intro k
    refine ⟨fun a b h => ?_, fun a b c h => ?_⟩
    · simp only [decide_eq_true_eq, decide_eq_false_iff_not] at h ⊢
      exact fun h' => Nat.lt_asymm h h'
    · simp only [decide_eq_true_eq] at h ⊢
      rcases Nat.lt_or_ge (a / (k + 1)) (b / (k + 1)) with g | g
      · exact Or.inl g
      · exact Or.inr (Nat.lt_of_le_of_lt g h)
  refine ⟨fun a b => decide (a / 2 < b / 2), fun a b => a == b, fun a b => decide (a / 1 < b / 1), hd 1, by simp, hd 0, fun h => ?_⟩
  -- (2, 0) < (2, 5), but (3, 9) is between neither
  rcases h.trans_neg (2, 0) (3, 9) (2, 5) (by decide) with h | h <;> exact absurd h (by decide)

/-- **C107.** What `!=`, `>`, `<=`, `>=` answer, given that `<` is a strict weak order and `==` agrees with it: exactly one of `a < b`,
`a == b`, `a > b` holds, `<=` and `>=` are "less or equal" and "greater or equal". -/
theorem c107_operators {γ : Type} {lt eq : γ → γ → Bool} (hs : StrictWeak lt) (hc : Consistent lt eq) (a b : γ) :
    ((lt a b = true ∧ eq a b = false ∧ opGt lt a b = false) ∨ (lt a b = false ∧ eq a b = true ∧ opGt lt a b = false) ∨
      (lt a b = false ∧ eq a b = false ∧ opGt lt a b = true)) ∧
    (opNe eq a b = true ↔ lt a b = true ∨ opGt lt a b = true) ∧ (opLe lt a b = true ↔ lt a b = true ∨ eq a b = true) ∧
    (opGe lt a b = true ↔ opGt lt a b = true ∨ eq a b = true) := by
  have g1 := hs.asymm a b
  have g2 := hc a b
  unfold opGt opNe opLe opGe
  cases x : lt a b <;> cases y : lt b a <;> cases z : eq a b <;> simp_all

/-! ## containers -/

/-- equal sequences: the same length and corresponding elements equal -/
def SeqEq (eq : α → α → Bool) (x y : List α) : Prop :=
  x.length = y.length ∧ ∀ i < x.length, ∃ a b, x[i]? = some a ∧ y[i]? = some b ∧ eq a b = true

/-- **C107.** `==` of vectors, deques and the ordered containers. -/
theorem c107_seq_eq (eq : α → α → Bool) (x y : List α) {m : Mem α} {f1 f2 : ℕ} (h1 : Holds m f1 x) (h2 : Holds m f2 y) :
    ∃ r, seqEq eq m f1 (f1 + x.length) f2 (f2 + y.length) = some r ∧ (r = true ↔ SeqEq eq x y) := by
  unfold seqEq
  rw [Nat.add_sub_cancel_left, Nat.add_sub_cancel_left]
  by_cases e : x.length = y.length
  · rw [if_pos e]
    obtain ⟨r, e1, e2⟩ := c103_equal eq x y (x.length + 1) h1 h2 (Nat.le_of_eq e) (Nat.lt_succ_self _)
    exact ⟨r, e1, e2.trans ⟨fun h => ⟨e, h⟩, fun h => h.2⟩⟩
  · rw [if_neg e]
    exact ⟨false, rfl, fun h => (by cases h), fun h => absurd h.1 e⟩

theorem seqEq_nil_cons (eq : α → α → Bool) (b : α) (y : List α) : ¬ SeqEq eq [] (b :: y) := fun h => by have := h.1; simp at this
theorem seqEq_cons_nil (eq : α → α → Bool) (b : α) (y : List α) : ¬ SeqEq eq (b :: y) [] := fun h => by have := h.1; simp at this
theorem seqEq_cons (eq : α → α → Bool) (a b : α) (x y : List α) : SeqEq eq (a :: x) (b :: y) ↔ eq a b = true ∧ SeqEq eq x y := by
  constructor
  · intro h
    refine ⟨?_, by simpa using h.1, fun i hi => ?_⟩
    · obtain ⟨u, v, e1, e2, e3⟩ := h.2 0 (by simp)
      simp at e1 e2
      rw [e1, e2]; exact e3
    · obtain ⟨u, v, e1, e2, e3⟩ := h.2 (i + 1) (by simpa using hi)
      exact ⟨u, v, by simpa using e1, by simpa using e2, e3⟩
  · intro h
    refine ⟨by simpa using h.2.1, fun i hi => ?_⟩
    cases i with
    | zero => exact ⟨a, b, rfl, rfl, h.1⟩
    | succ i =>
      obtain ⟨u, v, e1, e2, e3⟩ := h.2.2 i (by simpa using hi)
      exact ⟨u, v, by simpa using e1, by simpa using e2, e3⟩

/-- **C107.** `==` of lists, which does not ask for the sizes first, means the same. -/
theorem c107_list_eq (eq : α → α → Bool) : ∀ (x y : List α) (fuel : ℕ) {m : Mem α} {f1 f2 : ℕ}, Holds m f1 x → Holds m f2 y → x.length < fuel →
    ∃ r, listEq eq fuel m f1 (f1 + x.length) f2 (f2 + y.length) = some r ∧ (r = true ↔ SeqEq eq x y) := by
  intro x
  induction x with
  | nil =>
    intro y fuel m f1 f2 h1 h2 hf
    obtain ⟨fuel, rfl⟩ := Nat.exists_eq_succ_of_ne_zero (show fuel ≠ 0 by omega)
    unfold listEq
    rw [if_neg (by simp)]
    refine ⟨_, rfl, ?_⟩
    cases y with
    | nil => simp [SeqEq]
    | cons b y => simp [seqEq_nil_cons]
  | cons a x ih =>
    intro y fuel m f1 f2 h1 h2 hf
    obtain ⟨fuel, rfl⟩ := Nat.exists_eq_succ_of_ne_zero (show fuel ≠ 0 by omega)
    cases y with
    | nil =>
      unfold listEq
      rw [if_neg (by simp)]
      exact ⟨_, rfl, by simp [seqEq_cons_nil]⟩
    | cons b y =>
      have e1 : m f1 = some a := by simpa using h1 0 (by simp)
      have e2 : m f2 = some b := by simpa using h2 0 (by simp)
      unfold listEq
      rw [if_pos (by simp), e1, e2]
      show ∃ r, (if eq a b = true then _ else _) = some r ∧ _
      rw [seqEq_cons]
      by_cases h : eq a b = true
      · rw [if_pos h]
        obtain ⟨r, g1, g2⟩ := ih y fuel h1.tail h2.tail (by simpa using hf)
        refine ⟨r, ?_, by rw [g2]; simp [h]⟩
        rw [← g1, List.length_cons, List.length_cons, show f1 + (x.length + 1) = f1 + 1 + x.length by omega, show f2 + (y.length + 1) = f2 + 1 + y.length by omega]
      · rw [if_neg h]
        exact ⟨_, rfl, by simp [h]⟩

/-- **C107.** `<` of containers is dictionary order. -/
theorem c107_seq_lt (lt : α → α → Bool) (x y : List α) {m : Mem α} {f1 f2 : ℕ} (h1 : Holds m f1 x) (h2 : Holds m f2 y) :
    ∃ r, seqLt lt m f1 (f1 + x.length) f2 (f2 + y.length) = some r ∧ (r = true ↔ LexLess lt x y) := by
  unfold seqLt
  rw [Nat.add_sub_cancel_left]
  exact c103_lex lt x y _ h1 h2 (Nat.lt_succ_self _)

open Classical in
/-- **C107.** Dictionary order is a strict weak order if that of the elements is; so containers can be sorted and used as keys. -/
theorem c107_lex_order {lt : α → α → Bool} (hs : StrictWeak lt) : StrictWeak (fun x y => decide (LexLess lt x y)) := by
  constructor
  · intro x
    induction x with
    | nil =>
      intro y _
      simp [lexLess_nil_right]
    | cons a x ih =>
      intro y h
      cases y with
      | nil => simp [lexLess_nil_right] at h
      | cons b y =>
        simp only [decide_eq_true_eq, decide_eq_false_iff_not, lexLess_cons] at h ⊢
        have g := ih y
        simp only [decide_eq_true_eq, decide_eq_false_iff_not] at g
        have g1 := hs.asymm a b
        have g2 := hs.asymm b a
        rcases h with h | ⟨h3, h4, h5⟩
        · have := g1 h
          simp [h, this]
        · simp [h3, h4, g h5]
  · intro x
    induction x with
    | nil =>
      intro y z h
      simp only [decide_eq_true_eq] at h ⊢
      cases z with
      | nil => exact absurd h (lexLess_nil_right _ _)
      | cons c z =>
        cases y with
        | nil => exact Or.inr (lexLess_nil_cons _ _ _)
        | cons b y => exact Or.inl (lexLess_nil_cons _ _ _)
    | cons a x ih =>
      intro y z h
      simp only [decide_eq_true_eq] at h ⊢
      cases z with
      | nil => exact absurd h (lexLess_nil_right _ _)
      | cons c z =>
        cases y with
        | nil => exact Or.inr (lexLess_nil_cons _ _ _)
        | cons b y =>
          simp only [lexLess_cons] at h ⊢
          have g := ih y z
          simp only [decide_eq_true_eq] at g
          have g1 := hs.trans_neg a b c
          have g3 := hs.asymm a b
          have g4 := hs.asymm b c
          have g5 := @equiv_lt _ _ hs a c b
          cases x1 : lt a b with
          | true => exact Or.inl (Or.inl rfl)
          | false =>
            cases x5 : lt b c with
            | true => exact Or.inr (Or.inl rfl)
            | false =>
              rcases h with h | ⟨h3, h4, h5⟩
              · rcases g1 h with g | g
                · rw [x1] at g; cases g
                · rw [x5] at g; cases g
              · have g6 := g5 h3 h4
                rcases g h5 with g | g
                · exact Or.inl (Or.inr ⟨rfl, by rw [g6.2, x5], g⟩)
                · exact Or.inr (Or.inr ⟨rfl, by rw [← g6.1, x1], g⟩)

open Classical in
/-- **C107.** If `==` of the elements agrees with their `<`, then `==` of containers agrees with their `<`. -/
theorem c107_seq_consistent {lt eq : α → α → Bool} (hc : Consistent lt eq) (x y : List α) :
    SeqEq eq x y ↔ ¬ LexLess lt x y ∧ ¬ LexLess lt y x := by
  induction x generalizing y with
  | nil =>
    cases y with
    | nil => simp [SeqEq, lexLess_nil_right]
    | cons b y => simp [seqEq_nil_cons, lexLess_nil_cons]
  | cons a x ih =>
    cases y with
    | nil => simp [seqEq_cons_nil, lexLess_nil_cons]
    | cons b y =>
      rw [seqEq_cons, lexLess_cons, lexLess_cons, ih y, hc a b]
      cases lt a b <;> cases lt b a <;> simp

/-! ## concrete cases -/

example : Consistent (fun a b : ℕ => decide (a < b)) (fun a b => a == b) := by
  intro a b
  simp only [beq_iff_eq, decide_eq_false_iff_not]
  omega
example : pairLt (fun a b : ℕ => decide (a < b)) (fun a b => a == b) (fun a b : ℕ => decide (a < b)) (3, 7) (3, 9) = true := by decide
example : SeqEq (fun a b : ℕ => a % 10 == b % 10) [1, 22] [11, 2] := ⟨rfl, fun i hi => by
  have : i = 0 ∨ i = 1 := by simp at hi; omega
  rcases this with rfl | rfl
  · exact ⟨1, 11, rfl, rfl, rfl⟩
  · exact ⟨22, 2, rfl, rfl, rfl⟩⟩

end Verif.Compare
