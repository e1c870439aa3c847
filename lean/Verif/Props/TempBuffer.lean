import Verif.TempBuffer
import Mathlib.Tactic.Common
import Mathlib.Order.Basic
/-!
# C109 — the temporary buffer
-/

namespace Verif.TempBuffer

theorem bs {β γ : Type} {x : Option β} {b : β} {f : β → Option γ} (h : x = some b) : (x >>= f) = f b := by rw [h]; rfl

/-- what the manager answered: every request refused down to one element; or the requests for `L`, `L/2`, … refused, `k` of them, and
the next one granted with the block `p` -/
def Refused (m : ℕ → ℕ → Option ℕ) (sz c L : ℕ) : Prop := ∀ k, 0 < L / 2 ^ k → m (c + k) (L / 2 ^ k * sz) = none

def Granted (m : ℕ → ℕ → Option ℕ) (sz c L k p : ℕ) : Prop :=
  (∀ i < k, m (c + i) (L / 2 ^ i * sz) = none) ∧ 0 < L / 2 ^ k ∧ m (c + k) (L / 2 ^ k * sz) = some p

theorem request_spec (m : ℕ → ℕ → Option ℕ) (sz : ℕ) (L : ℕ) : ∀ (h : Heap) (b : Ptr), 0 < L →
    (Refused m sz h.calls L ∧ ∃ c, request m sz h b L = ({ h with calls := c }, .null, 0)) ∨
    ∃ k p, Granted m sz h.calls L k p ∧
      request m sz h b L = ({ block := upd h.block p (some (L / 2 ^ k * sz)), calls := h.calls + k + 1 }, .to p, L / 2 ^ k) := by
  induction L using Nat.strongRecOn with
  | ind L ih =>
    intro h b hL
    rw [request, if_pos hL]
    cases hm : m h.calls (L * sz) with
    | some p =>
      exact Or.inr ⟨0, p, ⟨fun i hi => absurd hi (Nat.not_lt_zero i), by simpa using hL, by simpa using hm⟩, by simp⟩
    | none =>
      have hd : ∀ k, L / 2 / 2 ^ k = L / 2 ^ (k + 1) := fun k => by rw [Nat.div_div_eq_div_mul, Nat.pow_succ, Nat.mul_comm]
      by_cases h0 : L / 2 = 0
      · refine Or.inl ⟨fun k hk => ?_, h.calls + 1, ?_⟩
        · cases k with
          | zero => simpa using hm
          | succ k => rw [← hd, h0, Nat.zero_div] at hk; exact absurd hk (Nat.lt_irrefl 0)
        · show request m sz { h with calls := h.calls + 1 } .null (L / 2) = _
          rw [request, if_neg (by omega), h0]
      · rcases ih (L / 2) (by omega) { h with calls := h.calls + 1 } .null (by omega) with ⟨h1, c, h2⟩ | ⟨k, p, ⟨h1, h2, h3⟩, h4⟩
        · refine Or.inl ⟨fun k hk => ?_, c, h2⟩
          cases k with
          | zero => simpa using hm
          | succ k =>
            have := h1 k (by rw [hd]; exact hk)
            rw [hd] at this
            rw [← this]; congr 1; show h.calls + (k + 1) = h.calls + 1 + k; omega
        · refine Or.inr ⟨k + 1, p, ⟨fun i hi => ?_, by rw [← hd]; exact h2, ?_⟩, ?_⟩
          · cases i with
            | zero => simpa using hm
            | succ i =>
              have := h1 i (by omega)
              rw [hd] at this
              rw [← this]; congr 1; show h.calls + (i + 1) = h.calls + 1 + i; omega
          · rw [hd] at h3
            rw [← h3]; congr 1; show h.calls + (k + 1) = h.calls + 1 + k; omega
          · show request m sz { h with calls := h.calls + 1 } .null (L / 2) = _
            rw [h4, hd]
            have : h.calls + 1 + k + 1 = h.calls + (k + 1) + 1 := by omega
            rw [← this]

/-! ### the length -/

theorem limit_eq (sz n : ℕ) : limit sz n = min n (2147483647 / sz) := by
  unfold limit
  generalize 2147483647 / sz = x
  split <;> omega

/-- `get_temporary_buffer(n)`: the null pointer and 0 exactly when every request was refused; otherwise a block of its own, of the first size
granted in the sequence min(n, limit), half of it, a quarter, …; never more than asked for, never more than INT_MAX bytes -/
theorem c109_get (m : ℕ → ℕ → Option ℕ) (sz : ℕ) (h : Heap) (n : ℕ) (hn : 0 < min n (2147483647 / sz)) :
    (Refused m sz h.calls (min n (2147483647 / sz)) ∧ ∃ c, getBuffer m sz h n = ({ h with calls := c }, .null, 0)) ∨
    ∃ k p l, Granted m sz h.calls (min n (2147483647 / sz)) k p ∧ l = min n (2147483647 / sz) / 2 ^ k ∧ 0 < l ∧ l ≤ n ∧ l * sz ≤ 2147483647 ∧
      getBuffer m sz h n = ({ block := upd h.block p (some (l * sz)), calls := h.calls + k + 1 }, .to p, l) := by
  unfold getBuffer
  rw [limit_eq]
  rcases request_spec m sz _ h .null hn with ⟨h1, c, h2⟩ | ⟨k, p, h1, h2⟩
  · exact Or.inl ⟨h1, c, by rw [h2]⟩
  · have hle1 : min n (2147483647 / sz) / 2 ^ k ≤ n := Nat.le_trans (Nat.div_le_self _ _) (Nat.min_le_left _ _)
    have hle2 : min n (2147483647 / sz) / 2 ^ k ≤ 2147483647 / sz := Nat.le_trans (Nat.div_le_self _ _) (Nat.min_le_right _ _)
    refine Or.inr ⟨k, p, _, h1, rfl, h1.2.1, hle1, ?_, by rw [h2]⟩
    calc _ ≤ 2147483647 / sz * sz := Nat.mul_le_mul_right _ hle2
      _ ≤ _ := Nat.div_mul_le_self _ _

/-- nothing to ask for: the null pointer and 0 -/
theorem c109_get_zero (m : ℕ → ℕ → Option ℕ) (sz : ℕ) (h : Heap) (n : ℕ) (hn : min n (2147483647 / sz) = 0) :
    getBuffer m sz h n = (h, .null, 0) := by
  unfold getBuffer
  rw [limit_eq, hn, request, if_neg (by omega)]

/-- whatever the manager answers (it does not give out a block twice), releasing what was got puts the blocks back as they were -/
theorem c109_get_release (m : ℕ → ℕ → Option ℕ) (sz : ℕ) (h : Heap) (hm : ∀ k b p, m k b = some p → h.block p = none) (n : ℕ) :
    ∃ h', free (getBuffer m sz h n).1 (getBuffer m sz h n).2.1 = some h' ∧ h'.block = h.block := by
  by_cases hn : min n (2147483647 / sz) = 0
  · rw [c109_get_zero m sz h n hn]; exact ⟨h, rfl, rfl⟩
  · rcases c109_get m sz h n (Nat.pos_of_ne_zero hn) with ⟨-, c, e⟩ | ⟨k, p, l, hg, -, -, -, -, e⟩
    · rw [e]; exact ⟨_, rfl, rfl⟩
    · rw [e]
      refine ⟨_, if_pos (by simp [upd]), ?_⟩
      funext j
      show upd (upd h.block p _) p none j = _
      unfold upd
      split
      · rename_i hj; rw [hj]; exact (hm _ _ _ hg.2.2).symm
      · rfl

/-! ### the objects -/

theorem fillGo_ok (throws : ℕ → Bool) (k : ℕ) : ∀ (o : ℕ → Bool) (cur : ℕ), (∀ i, cur ≤ i → i < cur + k → throws i = false) →
    fillGo throws o cur k = (fun i => if cur ≤ i ∧ i < cur + k then true else o i, cur + k, true) := by
  induction k with
  | zero =>
    intro o cur _
    rw [fillGo]
    refine Prod.ext (funext fun i => ?_) rfl
    show o i = if cur ≤ i ∧ i < cur + 0 then true else o i
    rw [if_neg (by omega)]
  | succ k ih =>
    intro o cur ht
    rw [fillGo, if_neg (by rw [ht cur (Nat.le_refl _) (by omega)]; exact Bool.false_ne_true), ih _ _ fun i h1 h2 => ht i (by omega) (by omega)]
    refine Prod.ext (funext fun i => ?_) (Prod.ext (show cur + 1 + k = cur + (k + 1) by omega) rfl)
    show (if cur + 1 ≤ i ∧ i < cur + 1 + k then true else upd o cur true i) = if cur ≤ i ∧ i < cur + (k + 1) then true else o i
    unfold upd
    split <;> split <;> (try split) <;> first | rfl | omega

theorem fillGo_fail (throws : ℕ → Bool) (k : ℕ) : ∀ (o : ℕ → Bool) (cur i : ℕ), cur ≤ i → i < cur + k → throws i = true →
    (∀ j, cur ≤ j → j < i → throws j = false) →
    fillGo throws o cur k = (fun j => if cur ≤ j ∧ j < i then true else o j, i, false) := by
  induction k with
  | zero => intro o cur i h1 h2; omega
  | succ k ih =>
    intro o cur i h1 h2 ht hf
    rw [fillGo]
    by_cases hc : cur = i
    · subst hc
      rw [if_pos ht]
      refine Prod.ext (funext fun j => ?_) rfl
      show o j = if cur ≤ j ∧ j < cur then true else o j
      rw [if_neg (by omega)]
    · rw [if_neg (by rw [hf cur (Nat.le_refl _) (by omega)]; exact Bool.false_ne_true), ih _ _ i (by omega) (by omega) ht fun j a b => hf j (by omega) b]
      refine Prod.ext (funext fun j => ?_) rfl
      show (if cur + 1 ≤ j ∧ j < i then true else upd o cur true j) = if cur ≤ j ∧ j < i then true else o j
      unfold upd
      split <;> split <;> (try split) <;> first | rfl | omega

theorem destroyFrom_ok (k : ℕ) : ∀ (o : ℕ → Bool) (a : ℕ), (∀ i, a ≤ i → i < a + k → o i = true) →
    destroyFrom o a k = some (fun i => if a ≤ i ∧ i < a + k then false else o i) := by
  induction k with
  | zero =>
    intro o a _
    rw [destroyFrom]
    congr 1
    funext i
    rw [if_neg (by omega)]
  | succ k ih =>
    intro o a ho
    rw [destroyFrom, if_pos (ho a (Nat.le_refl _) (by omega)), ih]
    · congr 1
      funext i
      unfold upd
      split <;> split <;> (try split) <;> first | rfl | omega
    · intro i h1 h2
      unfold upd
      rw [if_neg (by omega)]; exact ho i (by omega) (by omega)

/-- the buffer over a range that is not empty: `requested_size()` is the number of elements; `begin()` is null exactly when every request was
refused, and `size()` is then 0; otherwise it is a new block of the first size granted.  Without a trivial constructor exactly the slots of
the buffer hold an object. -/
theorem c109_construct (m : ℕ → ℕ → Option ℕ) (sz : ℕ) (triv dt : Bool) (throws : ℕ → Bool) (h : Heap) (n : ℕ)
    (hn : 0 < min n (2147483647 / sz)) (ht : ∀ i, throws i = false) :
    (Refused m sz h.calls (min n (2147483647 / sz)) ∧ ∃ c, construct m sz triv dt throws h n =
      some ({ h with calls := c }, { orig := n, len := 0, buffer := .null, obj := fun _ => false })) ∨
    ∃ k p l, Granted m sz h.calls (min n (2147483647 / sz)) k p ∧ l = min n (2147483647 / sz) / 2 ^ k ∧ 0 < l ∧ l ≤ n ∧ l * sz ≤ 2147483647 ∧
      construct m sz triv dt throws h n = some ({ block := upd h.block p (some (l * sz)), calls := h.calls + k + 1 },
        { orig := n, len := l, buffer := .to p, obj := fun i => !triv && decide (i < l) }) := by
  unfold construct
  rw [limit_eq]
  rcases request_spec m sz _ h .junk hn with ⟨h1, c, h2⟩ | ⟨k, p, h1, h2⟩
  · refine Or.inl ⟨h1, c, ?_⟩
    rw [h2]
    exact if_neg (by simp)
  · have hle1 : min n (2147483647 / sz) / 2 ^ k ≤ n := Nat.le_trans (Nat.div_le_self _ _) (Nat.min_le_left _ _)
    have hle2 : min n (2147483647 / sz) / 2 ^ k ≤ 2147483647 / sz := Nat.le_trans (Nat.div_le_self _ _) (Nat.min_le_right _ _)
    refine Or.inr ⟨k, p, _, h1, rfl, h1.2.1, hle1, ?_, ?_⟩
    · calc _ ≤ 2147483647 / sz * sz := Nat.mul_le_mul_right _ hle2
        _ ≤ _ := Nat.div_mul_le_self _ _
    · rw [h2]
      have hl := h1.2.1
      generalize min n (2147483647 / sz) / 2 ^ k = l at hl ⊢
      cases triv with
      | true => exact (if_neg (by simp)).trans (by simp)
      | false =>
        refine (if_pos ⟨hl, rfl⟩).trans ?_
        refine (bs (b := fun i => decide (i < l)) ?_).trans (by simp)
        unfold fill
        rw [fillGo_ok throws l _ 0 fun i _ _ => ht i]
        show some _ = some _
        congr 1
        funext i
        simp

/-- the whole life of the buffer over a range that is not empty, whatever the memory manager answers (it does not give out a block in use):
the destructor is defined, destroys every object of the buffer and gives the block back -/
theorem c109_life (m : ℕ → ℕ → Option ℕ) (sz : ℕ) (triv dt : Bool) (htd : triv = true → dt = true) (throws : ℕ → Bool) (h : Heap)
    (hm : ∀ k b p, m k b = some p → h.block p = none) (n : ℕ) (hn : 0 < min n (2147483647 / sz)) (ht : ∀ i, throws i = false) :
    ∃ h1 b h2 o, construct m sz triv dt throws h n = some (h1, b) ∧ b.orig = n ∧ destruct dt h1 b = some (h2, o) ∧ h2.block = h.block ∧
      (dt = false → ∀ i, o i = false) := by
  rcases c109_construct m sz triv dt throws h n hn ht with ⟨-, c, e⟩ | ⟨k, p, l, hg, -, hl, -, -, e⟩
  · refine ⟨_, _, { h with calls := c }, fun _ => false, e, rfl, ?_, rfl, fun _ _ => rfl⟩
    unfold destruct
    refine (bs (b := fun _ => false) ?_).trans rfl
    unfold destroy
    cases dt <;> rfl
  · have hf : free { block := upd h.block p (some (l * sz)), calls := h.calls + k + 1 } (.to p) = some { block := h.block, calls := h.calls + k + 1 } := by
      refine (if_pos (by simp [upd])).trans ?_
      congr 2
      funext j
      show upd (upd h.block p _) p none j = _
      unfold upd
      split
      · rename_i hj; rw [hj]; exact (hm _ _ _ hg.2.2).symm
      · rfl
    cases dt with
    | true =>
      refine ⟨_, _, { block := h.block, calls := h.calls + k + 1 }, fun i => !triv && decide (i < l), e, rfl, ?_, rfl, fun h => absurd h (by decide)⟩
      unfold destruct
      refine (bs (b := fun i => !triv && decide (i < l)) rfl).trans ?_
      exact bs hf
    | false =>
      cases triv with
      | true => exact absurd (htd rfl) (by decide)
      | false =>
        refine ⟨_, _, { block := h.block, calls := h.calls + k + 1 }, fun _ => false, e, rfl, ?_, rfl, fun _ _ => rfl⟩
        unfold destruct
        refine (bs (b := fun _ => false) ?_).trans ?_
        · show destroyFrom _ 0 l = _
          rw [destroyFrom_ok l _ 0 (by simp)]
          congr 1
          funext i
          simp
        · exact bs hf

/-- DEFECT: over an empty range the pointer of the buffer is never set, and the destructor frees it (the two users of the class leave before) -/
theorem c109_empty_defect (m : ℕ → ℕ → Option ℕ) (sz : ℕ) (triv dt : Bool) (throws : ℕ → Bool) (h : Heap) :
    ∃ b, construct m sz triv dt throws h 0 = some (h, b) ∧ destruct dt h b = none := by
  refine ⟨{ orig := 0, len := 0, buffer := .junk, obj := fun _ => false }, ?_, ?_⟩
  · unfold construct
    rw [limit_eq, Nat.zero_min, request, if_neg (by omega)]
    exact if_neg (by simp)
  · unfold destruct destroy
    cases dt <;> rfl

/-- DEFECT: when the copy constructor of the elements throws, the copies are destroyed and the exception ends there, but the length stays:
the destructor then destroys objects that do not exist -/
theorem c109_throw_defect (m : ℕ → ℕ → Option ℕ) (sz : ℕ) (throws : ℕ → Bool) (h : Heap) (n k p : ℕ) (hn : 0 < min n (2147483647 / sz))
    (hg : Granted m sz h.calls (min n (2147483647 / sz)) k p) (i : ℕ) (hi : i < min n (2147483647 / sz) / 2 ^ k) (ht : throws i = true)
    (hf : ∀ j < i, throws j = false) :
    ∃ h1 b, construct m sz false false throws h n = some (h1, b) ∧ b.len = min n (2147483647 / sz) / 2 ^ k ∧ (∀ j, b.obj j = false) ∧
      destruct false h1 b = none := by
  have hu : request m sz h .junk (min n (2147483647 / sz)) =
      ({ block := upd h.block p (some (min n (2147483647 / sz) / 2 ^ k * sz)), calls := h.calls + k + 1 }, .to p, min n (2147483647 / sz) / 2 ^ k) := by
    rcases request_spec m sz _ h .junk hn with ⟨h1, -⟩ | ⟨k', p', h1, h2⟩
    · have := h1 k hg.2.1
      rw [hg.2.2] at this; cases this
    · have hk : k' = k := by
        rcases Nat.lt_trichotomy k' k with hl | hl | hl
        · have := hg.1 k' hl
          rw [h1.2.2] at this; cases this
        · exact hl
        · have := h1.1 k hl
          rw [hg.2.2] at this; cases this
      subst hk
      have hp : p' = p := Option.some.inj (h1.2.2.symm.trans hg.2.2)
      subst hp
      exact h2
  have hl := hg.2.1
  unfold construct
  rw [limit_eq, hu]
  generalize min n (2147483647 / sz) / 2 ^ k = l at hl hi ⊢
  refine ⟨_, { orig := n, len := l, buffer := .to p, obj := fun _ => false }, (if_pos ⟨hl, rfl⟩).trans (bs (b := fun _ => false) ?_), rfl, fun _ => rfl, ?_⟩
  · unfold fill
    rw [fillGo_fail throws l _ 0 i (Nat.zero_le _) (by omega) ht fun j _ hj => hf j hj]
    show destroyFrom _ 0 i = _
    rw [destroyFrom_ok i _ 0 (by intro j h1 h2; exact if_pos ⟨h1, by omega⟩)]
    congr 1
    funext j
    by_cases hj : j < i <;> simp [hj]
  · unfold destruct destroy
    obtain ⟨l', rfl⟩ : ∃ l', l = l' + 1 := ⟨l - 1, by omega⟩
    rfl

/-- a case: ten elements of 8 bytes, a manager that refuses more than 40 bytes: the buffer has 5 slots after one refusal -/
example : Granted (fun _ b => if b ≤ 40 then some 7 else none) 8 0 (min 10 (2147483647 / 8)) 1 7 := by
  refine ⟨fun i hi => ?_, by decide, by decide⟩
  have : i = 0 := by omega
  subst this; decide

end Verif.TempBuffer
