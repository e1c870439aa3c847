import Verif.Uninit
import Mathlib.Tactic.Common
/-!
# C113: construction in raw memory
-/
namespace Verif.Uninit

variable {V : Type}

/-! ## Specification -/

/-- `a` is one of the `n` cells from `p` on -/
def In (a p n : ℕ) : Prop := p ≤ a ∧ a < p + n

/-- the `n` cells from `p` on hold the objects `f 0, f 1, …` -/
def Holds (m : Mem V) (p n : ℕ) (f : ℕ → V) : Prop := ∀ j < n, m (p + j) = some (f j)

/-- there is no object in the `n` cells from `p` on -/
def Raw (m : Mem V) (p n : ℕ) : Prop := ∀ j < n, m (p + j) = none

/-- no copy of the `n` elements throws -/
def Quiet (throws : ℕ → Bool) (n : ℕ) : Prop := ∀ j < n, throws j = false

/-! ## Proof -/

/-- the memory after `t` elements -/
def mid (left : V → V) (m : Mem V) (first cur t : ℕ) : Mem V := fun a =>
  if cur ≤ a ∧ a < cur + t then m (first + (a - cur)) else if first ≤ a ∧ a < first + t then (m a).map left else m a

/-- the memory with `t` objects `v` -/
def midFill (v : V) (m : Mem V) (cur t : ℕ) : Mem V := fun a => if cur ≤ a ∧ a < cur + t then some v else m a

theorem disj {m : Mem V} {first n cur : ℕ} {f : ℕ → V} (hs : Holds m first n f) (hr : Raw m cur n) :
    n = 0 ∨ first + n ≤ cur ∨ cur + n ≤ first := by
  by_contra h
  rcases Nat.le_total first cur with c | c
  · have h1 := hs (cur - first) (by omega)
    have h2 := hr 0 (by omega)
    rw [show first + (cur - first) = cur + 0 by omega, h2] at h1
    cases h1
  · have h1 := hs 0 (by omega)
    have h2 := hr (first - cur) (by omega)
    rw [show cur + (first - cur) = first + 0 by omega, h1] at h2
    cases h2

theorem mid_zero (left : V → V) (m : Mem V) (first cur : ℕ) : mid left m first cur 0 = m := by
  funext a
  unfold mid
  rw [if_neg (by omega), if_neg (by omega)]

theorem mid_step (left : V → V) (m : Mem V) (first cur t : ℕ) (v : V) (hv : m first = some v)
    (hd : first + (t + 1) ≤ cur ∨ cur + (t + 1) ≤ first) :
    mid left (upd (upd m first (some (left v))) cur (some v)) (first + 1) (cur + 1) t = mid left m first cur (t + 1) := by
  funext a
  unfold mid
  by_cases h1 : cur ≤ a ∧ a < cur + (t + 1)
  · rw [if_pos h1]
    by_cases h2 : a = cur
    · rw [if_neg (by omega), if_neg (by omega), h2, Nat.sub_self, Nat.add_zero, hv]
      simp [upd]
    · rw [if_pos (by omega), show first + 1 + (a - (cur + 1)) = first + (a - cur) by omega]
      unfold upd
      rw [if_neg (by omega), if_neg (by omega)]
  · rw [if_neg h1, if_neg (by omega)]
    by_cases h2 : a = first
    · rw [if_neg (by omega), if_pos (by omega), h2, hv]
      unfold upd
      rw [if_neg (by omega), if_pos rfl]
      rfl
    · have e : upd (upd m first (some (left v))) cur (some v) a = m a := by
        unfold upd
        rw [if_neg (by omega), if_neg (by omega)]
      rw [e]
      by_cases h3 : first ≤ a ∧ a < first + (t + 1)
      · rw [if_pos h3, if_pos (by omega)]
      · rw [if_neg h3, if_neg (by omega)]

theorem buildGo_steps (throws : ℕ → Bool) (left spoilt : V → V) (k : ℕ) : ∀ (t : ℕ) (m : Mem V) (first cur i : ℕ) (f : ℕ → V),
    Holds m first t f → Raw m cur t → (∀ j < t, throws (i + j) = false) →
    buildGo throws left spoilt m first cur i (t + k) = buildGo throws left spoilt (mid left m first cur t) (first + t) (cur + t) (i + t) k := by
  intro t
  induction t with
  | zero => intro m first cur i f _ _ _; rw [mid_zero]; simp
  | succ t ih =>
    intro m first cur i f hs hr ht
    have hd := disj hs hr
    have h0 := hs 0 (by omega)
    rw [Nat.add_zero] at h0
    have h1 := hr 0 (by omega)
    rw [Nat.add_zero] at h1
    have h2 := ht 0 (by omega)
    rw [Nat.add_zero] at h2
    rw [show t + 1 + k = (t + k) + 1 by omega]
    have e : construct (upd m first (some (left (f 0)))) cur (f 0) = some (upd (upd m first (some (left (f 0)))) cur (some (f 0))) := by
      unfold construct
      rw [if_pos]
      unfold upd
      rw [if_neg (by omega), h1]
      rfl
    rw [buildGo, h0]
    simp only [Option.bind_eq_bind, Option.bind_some, h2, Bool.false_eq_true, if_false, e]
    rw [ih _ (first + 1) (cur + 1) (i + 1) (fun j => f (j + 1)), mid_step left m first cur t (f 0) h0 (by omega)]
    · rw [show first + 1 + t = first + (t + 1) by omega, show cur + 1 + t = cur + (t + 1) by omega, show i + 1 + t = i + (t + 1) by omega]
    · intro j hj
      unfold upd
      rw [if_neg (by omega), if_neg (by omega), show first + 1 + j = first + (j + 1) by omega]
      exact hs (j + 1) (by omega)
    · intro j hj
      unfold upd
      rw [if_neg (by omega), if_neg (by omega), show cur + 1 + j = cur + (j + 1) by omega]
      exact hr (j + 1) (by omega)
    · intro j hj
      rw [show i + 1 + j = i + (j + 1) by omega]
      exact ht (j + 1) (by omega)

theorem assignGo_eq (left : V → V) : ∀ (t : ℕ) (m : Mem V) (first cur : ℕ) (f : ℕ → V),
    Holds m first t f → (t = 0 ∨ first + t ≤ cur ∨ cur + t ≤ first) →
    assignGo left m first cur t = some (mid left m first cur t, cur + t) := by
  intro t
  induction t with
  | zero => intro m first cur f _ _; rw [mid_zero]; rfl
  | succ t ih =>
    intro m first cur f hs hd
    have h0 := hs 0 (by omega)
    rw [Nat.add_zero] at h0
    rw [assignGo, h0]
    simp only [Option.bind_eq_bind, Option.bind_some]
    rw [ih _ (first + 1) (cur + 1) (fun j => f (j + 1)) _ (by omega), mid_step left m first cur t (f 0) h0 (by omega)]
    · rw [show cur + 1 + t = cur + (t + 1) by omega]
    · intro j hj
      unfold upd
      rw [if_neg (by omega), if_neg (by omega), show first + 1 + j = first + (j + 1) by omega]
      exact hs (j + 1) (by omega)

theorem midFill_zero (v : V) (m : Mem V) (cur : ℕ) : midFill v m cur 0 = m := by
  funext a
  unfold midFill
  rw [if_neg (by omega)]

theorem midFill_step (v : V) (m : Mem V) (cur t : ℕ) : midFill v (upd m cur (some v)) (cur + 1) t = midFill v m cur (t + 1) := by
  funext a
  unfold midFill upd
  by_cases h1 : cur ≤ a ∧ a < cur + (t + 1)
  · rw [if_pos h1]
    by_cases h2 : a = cur
    · rw [if_neg (by omega), if_pos h2]
    · rw [if_pos (by omega)]
  · rw [if_neg h1, if_neg (by omega), if_neg (by omega)]

theorem fillGo_steps (throws : ℕ → Bool) (v : V) (k : ℕ) : ∀ (t : ℕ) (m : Mem V) (cur i : ℕ), Raw m cur t → (∀ j < t, throws (i + j) = false) →
    fillGo throws v m cur i (t + k) = fillGo throws v (midFill v m cur t) (cur + t) (i + t) k := by
  intro t
  induction t with
  | zero => intro m cur i _ _; rw [midFill_zero]; simp
  | succ t ih =>
    intro m cur i hr ht
    have h1 := hr 0 (by omega)
    rw [Nat.add_zero] at h1
    have h2 := ht 0 (by omega)
    rw [Nat.add_zero] at h2
    rw [show t + 1 + k = (t + k) + 1 by omega, fillGo]
    have e : construct m cur v = some (upd m cur (some v)) := by
      unfold construct
      rw [if_pos (by rw [h1]; rfl)]
    simp only [Option.bind_eq_bind, Option.bind_some, h2, Bool.false_eq_true, if_false, e]
    rw [ih _ (cur + 1) (i + 1), midFill_step]
    · rw [show cur + 1 + t = cur + (t + 1) by omega, show i + 1 + t = i + (t + 1) by omega]
    · intro j hj
      unfold upd
      rw [if_neg (by omega), show cur + 1 + j = cur + (j + 1) by omega]
      exact hr (j + 1) (by omega)
    · intro j hj
      rw [show i + 1 + j = i + (j + 1) by omega]
      exact ht (j + 1) (by omega)

theorem assignFill_eq (v : V) : ∀ (t : ℕ) (m : Mem V) (cur : ℕ), assignFill v m cur t = (midFill v m cur t, cur + t) := by
  intro t
  induction t with
  | zero => intro m cur; rw [midFill_zero]; rfl
  | succ t ih => intro m cur; rw [assignFill, ih, midFill_step, show cur + 1 + t = cur + (t + 1) by omega]

theorem destroyUp_true (m : Mem V) (a k : ℕ) : destroyUp true m a k = some m := by
  induction k generalizing a with
  | zero => rfl
  | succ k ih => rw [destroyUp]; simp only [destroyOne, if_true, Option.bind_eq_bind, Option.bind_some]; exact ih _

theorem destroyUp_false : ∀ (k : ℕ) (m : Mem V) (a : ℕ), (∀ j < k, (m (a + j)).isSome = true) →
    destroyUp false m a k = some fun b => if a ≤ b ∧ b < a + k then none else m b := by
  intro k
  induction k with
  | zero =>
    intro m a _
    rw [destroyUp]
    congr 1
    funext b
    rw [if_neg (by omega)]
  | succ k ih =>
    intro m a h
    have h0 := h 0 (by omega)
    rw [Nat.add_zero] at h0
    rw [destroyUp]
    simp only [destroyOne, Bool.false_eq_true, if_false, h0, if_true, Option.bind_eq_bind, Option.bind_some]
    rw [ih]
    · congr 1
      funext b
      unfold upd
      by_cases h1 : a ≤ b ∧ b < a + (k + 1)
      · rw [if_pos h1]
        by_cases h2 : b = a
        · rw [if_neg (by omega), if_pos h2]
        · rw [if_pos (by omega)]
      · rw [if_neg h1, if_neg (by omega), if_neg (by omega)]
    · intro j hj
      unfold upd
      rw [if_neg (by omega), show a + 1 + j = a + (j + 1) by omega]
      exact h (j + 1) (by omega)

theorem mid_target {left : V → V} {m : Mem V} {first cur t j : ℕ} {f : ℕ → V} (hs : Holds m first t f) (hj : j < t) :
    mid left m first cur t (cur + j) = some (f j) := by
  unfold mid
  rw [if_pos (by omega), show cur + j - cur = j by omega]
  exact hs j hj

theorem mid_source {left : V → V} {m : Mem V} {first cur t j : ℕ} {f : ℕ → V} (hs : Holds m first t f) (hj : j < t)
    (hd : t = 0 ∨ first + t ≤ cur ∨ cur + t ≤ first) : mid left m first cur t (first + j) = some (left (f j)) := by
  unfold mid
  rw [if_neg (by omega), if_pos (by omega), hs j hj]
  rfl

theorem mid_id (m : Mem V) (first cur t a : ℕ) (h : ¬ In a cur t) : mid id m first cur t a = m a := by
  unfold In at h
  unfold mid
  rw [if_neg h]
  split <;> simp

theorem mid_other {left : V → V} (m : Mem V) {first cur t a : ℕ} (h : ¬ In a cur t) (h2 : ¬ In a first t) : mid left m first cur t a = m a := by
  unfold In at h h2
  unfold mid
  rw [if_neg h, if_neg h2]

/-- building all of a range -/
theorem build_all {throws : ℕ → Bool} {left spoilt : V → V} {m : Mem V} {first n result : ℕ} {f : ℕ → V} (hs : Holds m first n f)
    (hr : Raw m result n) (hq : Quiet throws n) :
    buildGo throws left spoilt m first result 0 n = some (mid left m first result n, .all (result + n)) := by
  have := buildGo_steps throws left spoilt 0 n m first result 0 f hs hr (fun j hj => (Nat.zero_add j).symm ▸ hq j hj)
  rw [Nat.add_zero] at this
  rw [this]
  rfl

/-- building up to the exception -/
theorem build_throw {throws : ℕ → Bool} {left spoilt : V → V} {m : Mem V} {first n result k : ℕ} {f : ℕ → V} (hs : Holds m first n f)
    (hr : Raw m result n) (hk : k < n) (hq : Quiet throws k) (ht : throws k = true) :
    buildGo throws left spoilt m first result 0 n =
      some (upd (mid left m first result k) (first + k) (some (spoilt (f k))), .threw (result + k)) := by
  have := buildGo_steps throws left spoilt (n - k - 1 + 1) k m first result 0 f (fun j hj => hs j (by omega)) (fun j hj => hr j (by omega))
    (fun j hj => (Nat.zero_add j).symm ▸ hq j hj)
  rw [show k + (n - k - 1 + 1) = n by omega] at this
  rw [this, buildGo]
  have hd := disj hs hr
  have e : mid left m first result k (first + k) = some (f k) := by
    rw [mid_other m (by unfold In; omega) (by unfold In; omega)]
    exact hs k hk
  rw [e]
  simp [ht]

/-- **C113.**  `uninitialized_copy` and `uninitialized_copy_n`: from a range of objects to raw memory of the same length, no copy throwing:
afterwards the target holds the same values, all other memory is as before, and the end of the target is returned. -/
theorem c113_copy (ct dt : Bool) (throws : ℕ → Bool) (m : Mem V) (first n result : ℕ) (f : ℕ → V) (hs : Holds m first n f) (hr : Raw m result n)
    (hq : Quiet throws n) :
    ∃ m', uninitCopy ct dt throws m first n result = some (m', .ret (result + n)) ∧
      uninitCopyN ct dt throws m first n result = some (m', .ret (result + n)) ∧ Holds m' result n f ∧ ∀ a, ¬ In a result n → m' a = m a := by
  refine ⟨mid id m first result n, ?_, ?_, fun j hj => mid_target hs hj, fun a ha => mid_id m first result n a ha⟩
  · unfold uninitCopy
    rw [assignGo_eq id n m first result f hs (disj hs hr), build_all hs hr hq]
    cases ct <;> rfl
  · unfold uninitCopyN
    rw [assignGo_eq id n m first result f hs (disj hs hr), build_all hs hr hq]
    cases ct <;> rfl

/-- **C113.**  `uninitialized_fill` and `uninitialized_fill_n`. -/
theorem c113_fill (ct dt : Bool) (throws : ℕ → Bool) (m : Mem V) (first n : ℕ) (v : V) (hr : Raw m first n) (hq : Quiet throws n) :
    ∃ m', uninitFill ct dt throws m first n v = some (m', .void) ∧ uninitFillN ct dt throws m first n v = some (m', .ret (first + n)) ∧
      Holds m' first n (fun _ => v) ∧ ∀ a, ¬ In a first n → m' a = m a := by
  have := fillGo_steps throws v 0 n m first 0 hr (fun j hj => (Nat.zero_add j).symm ▸ hq j hj)
  rw [Nat.add_zero] at this
  refine ⟨midFill v m first n, ?_, ?_, fun j hj => ?_, fun a ha => ?_⟩
  · unfold uninitFill
    rw [assignFill_eq, this]
    cases ct <;> rfl
  · unfold uninitFillN
    rw [assignFill_eq, this]
    cases ct <;> rfl
  · unfold midFill
    rw [if_pos (by omega)]
  · unfold In at ha
    unfold midFill
    rw [if_neg ha]

/-- **C113.**  `uninitialized_move` and `uninitialized_move_n`: the target holds the values, the source what a move leaves. -/
theorem c113_move (mt dt : Bool) (throws : ℕ → Bool) (left spoilt : V → V) (m : Mem V) (first n result : ℕ) (f : ℕ → V) (hs : Holds m first n f)
    (hr : Raw m result n) (hq : Quiet throws n) :
    ∃ m', uninitMove mt dt throws left spoilt m first n result = some (m', .ret (result + n)) ∧
      uninitMoveN mt dt throws left spoilt m first n result = some (m', .ret (result + n)) ∧ Holds m' result n f ∧
      Holds m' first n (fun j => left (f j)) ∧ ∀ a, ¬ In a result n → ¬ In a first n → m' a = m a := by
  refine ⟨mid left m first result n, ?_, ?_, fun j hj => mid_target hs hj, fun j hj => mid_source hs hj (disj hs hr), fun a h1 h2 => mid_other m h1 h2⟩
  · unfold uninitMove
    rw [assignGo_eq left n m first result f hs (disj hs hr), build_all hs hr hq]
    cases mt <;> rfl
  · unfold uninitMoveN
    rw [assignGo_eq left n m first result f hs (disj hs hr), build_all hs hr hq]
    cases mt <;> rfl

/-- **C113.**  When copy number `k` throws, both `fill`s destroy what was made, and the memory is as it was before; but they return as
if all was well: the exception does not reach the caller. -/
theorem c113_fill_throw (throws : ℕ → Bool) (m : Mem V) (first n k : ℕ) (v : V) (hr : Raw m first n) (hk : k < n) (hq : Quiet throws k)
    (ht : throws k = true) :
    uninitFill false false throws m first n v = some (m, .void) ∧ uninitFillN false false throws m first n v = some (m, .ret (first + k)) := by
  have := fillGo_steps throws v (n - k - 1 + 1) k m first 0 (fun j hj => hr j (by omega)) (fun j hj => (Nat.zero_add j).symm ▸ hq j hj)
  rw [show k + (n - k - 1 + 1) = n by omega] at this
  have e2 : fillGo throws v m first 0 n = some (midFill v m first k, .threw (first + k)) := by
    rw [this, fillGo]
    simp [ht]
  have e : destroyUp false (midFill v m first k) first k = some m := by
    rw [destroyUp_false]
    · congr 1
      funext b
      by_cases h : first ≤ b ∧ b < first + k
      · rw [if_pos h]
        have := hr (b - first) (by omega)
        rw [show first + (b - first) = b by omega] at this
        exact this.symm
      · rw [if_neg h, midFill, if_neg h]
    · intro j hj
      rw [midFill, if_pos (by omega)]
      rfl
  constructor
  · unfold uninitFill
    rw [e2]
    simp [e]
  · unfold uninitFillN
    rw [e2]
    simp [e]

/-- **C113.**  When move number `k` throws, both `move`s destroy what was made: the target is raw again, `k` elements of the source are moved
from, the rest is as before.  Only `uninitialized_move_n` lets the caller know. -/
theorem c113_move_throw (throws : ℕ → Bool) (left spoilt : V → V) (m : Mem V) (first n result k : ℕ) (f : ℕ → V) (hs : Holds m first n f)
    (hr : Raw m result n) (hk : k < n) (hq : Quiet throws k) (ht : throws k = true) :
    ∃ m', uninitMove false false throws left spoilt m first n result = some (m', .ret (result + k)) ∧
      uninitMoveN false false throws left spoilt m first n result = some (m', .exc) ∧
      Holds m' first n (fun j => if j < k then left (f j) else if j = k then spoilt (f j) else f j) ∧
      ∀ a, ¬ In a first n → m' a = m a := by
  have hd := disj hs hr
  have hs' : Holds m first k f := fun j hj => hs j (by omega)
  have b := build_throw (left := left) (spoilt := spoilt) hs hr hk hq ht
  have e := destroyUp_false k (upd (mid left m first result k) (first + k) (some (spoilt (f k)))) result (by
    intro j hj
    unfold upd
    rw [if_neg (by omega), mid_target hs' hj]
    rfl)
  refine ⟨fun b => if result ≤ b ∧ b < result + k then none else upd (mid left m first result k) (first + k) (some (spoilt (f k))) b, ?_, ?_, ?_, ?_⟩
  rotate_left 1
  · unfold uninitMoveN
    rw [b]
    simp only [Bool.false_eq_true, if_false, Option.bind_eq_bind, Option.bind_some, show result + k - result = k by omega, e]
  · intro j hj
    dsimp only
    rw [if_neg (by omega)]
    unfold upd
    by_cases h1 : j < k
    · rw [if_neg (by omega), mid_source hs' h1 (by omega), if_pos h1]
    · rw [if_neg h1]
      by_cases h2 : j = k
      · rw [if_pos (by omega), if_pos h2, h2]
      · rw [if_neg (by omega), if_neg h2, mid_other m (by unfold In; omega) (by unfold In; omega)]
        exact hs j hj
  · intro a ha
    unfold In at ha
    dsimp only
    by_cases h1 : result ≤ a ∧ a < result + k
    · rw [if_pos h1]
      have := hr (a - result) (by omega)
      rw [show result + (a - result) = a by omega] at this
      exact this.symm
    · rw [if_neg h1]
      unfold upd
      rw [if_neg (by omega), mid_other m h1 (by unfold In; omega)]
  · unfold uninitMove
    rw [b]
    simp only [Bool.false_eq_true, if_false, Option.bind_eq_bind, Option.bind_some, show result + k - result = k by omega, e]

/-- **C113, defect.**  When copy number `k ≥ 1` throws, `uninitialized_copy` and `uninitialized_copy_n` first run the destructor in the cell whose
construction failed, where there is no object: undefined behaviour. -/
theorem c113_copy_throw_defect (throws : ℕ → Bool) (m : Mem V) (first n result k : ℕ) (f : ℕ → V) (hs : Holds m first n f)
    (hr : Raw m result n) (h1 : 1 ≤ k) (hk : k < n) (hq : Quiet throws k) (ht : throws k = true) :
    uninitCopy false false throws m first n result = none ∧ uninitCopyN false false throws m first n result = none := by
  have hd := disj hs hr
  have b := build_throw (left := id) (spoilt := id) hs hr hk hq ht
  have e : destroyDown false (upd (mid id m first result k) (first + k) (some (id (f k)))) result k = none := by
    obtain ⟨j, rfl⟩ : ∃ j, k = j + 1 := ⟨k - 1, by omega⟩
    rw [destroyDown]
    have h3 : upd (mid id m first result (j + 1)) (first + (j + 1)) (some (id (f (j + 1)))) (result + (j + 1)) = none := by
      unfold upd
      rw [if_neg (by omega), mid_id m first result (j + 1) _ (by unfold In; omega)]
      exact hr (j + 1) hk
    unfold destroyOne
    rw [h3]
    rfl
  constructor
  · unfold uninitCopy
    rw [b]
    simp only [Bool.false_eq_true, if_false, Option.bind_eq_bind, Option.bind_some, show result + k - result = k by omega, e]
    rfl
  · unfold uninitCopyN
    rw [b]
    simp only [Bool.false_eq_true, if_false, Option.bind_eq_bind, Option.bind_some, show result + k - result = k by omega, e]
    rfl

/-- **C113.**  A vector made from `n` copies of a value or from a range, no copy throwing, has `n` objects with these values, and its destructor
leaves the memory as it was before. -/
theorem c113_vector (ct : Bool) (throws : ℕ → Bool) (m : Mem V) (base first n : ℕ) (v : V) (f : ℕ → V) (hs : Holds m first n f)
    (hr : Raw m base n) (hq : Quiet throws n) :
    (∃ m', vectorFill ct false throws m base n v = some (m', some (base, base + n)) ∧ Holds m' base n (fun _ => v) ∧
      vectorDestroy false m' base (base + n) = some m) ∧
    ∃ m', vectorRange ct false throws m base first n = some (m', some (base, base + n)) ∧ Holds m' base n f ∧
      vectorDestroy false m' base (base + n) = some m := by
  have back : ∀ m' : Mem V, ∀ g, Holds m' base n g → (∀ a, ¬ In a base n → m' a = m a) → vectorDestroy false m' base (base + n) = some m := by
    intro m' g hg ho
    unfold vectorDestroy
    rw [show base + n - base = n by omega, destroyUp_false n m' base (fun j hj => by rw [hg j hj]; rfl)]
    congr 1
    funext b
    by_cases h : base ≤ b ∧ b < base + n
    · rw [if_pos h]
      have := hr (b - base) (by omega)
      rw [show base + (b - base) = b by omega] at this
      exact this.symm
    · rw [if_neg h]
      exact ho b h
  obtain ⟨m1, _, a2, a3, a4⟩ := c113_fill ct false throws m base n v hr hq
  obtain ⟨m2, b1, _, b3, b4⟩ := c113_copy ct false throws m first n base f hs hr hq
  refine ⟨⟨m1, ?_, a3, back m1 _ a3 a4⟩, m2, ?_, b3, back m2 _ b3 b4⟩
  · unfold vectorFill
    rw [a2]
    rfl
  · unfold vectorRange
    rw [b1]
    rfl

/-- **C113, defect.**  When a copy throws, `vector(n, value)` ends normally with a vector of size `n` that has not one object; its
destructor destroys what does not exist. -/
theorem c113_vector_defect (throws : ℕ → Bool) (m : Mem V) (base n k : ℕ) (v : V) (hr : Raw m base n) (hk : k < n) (hq : Quiet throws k)
    (ht : throws k = true) :
    vectorFill false false throws m base n v = some (m, some (base, base + n)) ∧ vectorDestroy false m base (base + n) = none := by
  constructor
  · unfold vectorFill
    rw [(c113_fill_throw throws m base n k v hr hk hq ht).2]
    rfl
  · have h := hr 0 (by omega)
    rw [Nat.add_zero] at h
    obtain ⟨j, rfl⟩ : ∃ j, n = j + 1 := ⟨n - 1, by omega⟩
    unfold vectorDestroy
    rw [show base + (j + 1) - base = j + 1 by omega, destroyUp]
    unfold destroyOne
    rw [h]
    rfl

/-- three objects at 10, raw memory at 20; the second copy throws -/
example : Holds (fun a => if 10 ≤ a ∧ a < 13 then some a else none) 10 3 (fun j => 10 + j) ∧
    Raw (fun a => if 10 ≤ a ∧ a < 13 then some a else none) 20 3 ∧ Quiet (fun i => i == 1) 1 := by
  refine ⟨fun j hj => ?_, fun j hj => ?_, fun j hj => ?_⟩
  · show (if 10 ≤ 10 + j ∧ 10 + j < 13 then some (10 + j) else none) = some (10 + j)
    rw [if_pos (by omega)]
  · show (if 10 ≤ 20 + j ∧ 20 + j < 13 then some (20 + j) else none) = none
    rw [if_neg (by omega)]
  · obtain rfl : j = 0 := by omega
    rfl

/-- moved strings: the second move fails, the first string is gone from its place -/
example : ∃ m', uninitMoveN false false (fun i => i == 1) (fun _ => "") id
      (fun a => if a < 2 then some "abc" else none) 0 2 5 = some (m', .exc) ∧ m' 0 = some "" ∧ m' 1 = some "abc" ∧ m' 5 = none := by
  exact ⟨_, rfl, rfl, rfl, rfl⟩

end Verif.Uninit
