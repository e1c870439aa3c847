import Verif.CopyAlgo
import Mathlib.Tactic.SplitIfs

/-!
# C103 — copying, moving, filling and comparing ranges, also within one array
-/

namespace Verif.CopyAlgo

variable {α : Type}

/-! ## specification -/

/-- `n` positions from `a` on lie in arrays -/
def Arr (m : Mem α) (a n : ℕ) : Prop := ∀ i < n, ∃ v, m (a + i) = some v

/-- `m'` is `m` with the `n` values from `src` on put at `dst` on, nothing else changed -/
def Copied (m m' : Mem α) (src dst n : ℕ) : Prop := (∀ i < n, m' (dst + i) = m (src + i)) ∧ ∀ q, (q < dst ∨ dst + n ≤ q) → m' q = m q

/-- the range from `a` on holds the list `l` -/
def Holds (m : Mem α) (a : ℕ) (l : List α) : Prop := ∀ i < l.length, m (a + i) = l[i]?

/-- dictionary order -/
def LexLess (lt : α → α → Bool) (x y : List α) : Prop :=
  ∃ i : ℕ, (∀ j < i, ∃ a b, x[j]? = some a ∧ y[j]? = some b ∧ lt a b = false ∧ lt b a = false) ∧
    ((x[i]? = none ∧ ∃ b, y[i]? = some b) ∨ ∃ a b, x[i]? = some a ∧ y[i]? = some b ∧ lt a b = true)

/-! ## lemmas -/

theorem write_ok {m : Mem α} {p : ℕ} {w : α} (h : m p = some w) (v : α) : write m p v = some fun q => if q = p then some v else m q := by
  unfold write; rw [h]; rfl

theorem Arr.write {m : Mem α} {a n p : ℕ} {v : α} (h : Arr m a n) : Arr (fun q => if q = p then some v else m q) a n := by
  intro i hi
  by_cases e : a + i = p
  · exact ⟨v, by simp [e]⟩
  · obtain ⟨w, hw⟩ := h i hi
    exact ⟨w, by simp [e, hw]⟩

theorem Arr.head {m : Mem α} {a n : ℕ} (h : Arr m a (n + 1)) : ∃ v, m a = some v := h 0 (by omega)
theorem Arr.last {m : Mem α} {a n : ℕ} (h : Arr m a (n + 1)) : ∃ v, m (a + n) = some v := h n (by omega)
theorem Arr.tail {m : Mem α} {a n : ℕ} (h : Arr m a (n + 1)) : Arr m (a + 1) n := fun i hi => by
  obtain ⟨v, hv⟩ := h (i + 1) (by omega)
  exact ⟨v, by rw [← hv]; congr 1; omega⟩
theorem Arr.init {m : Mem α} {a n : ℕ} (h : Arr m a (n + 1)) : Arr m a n := fun i hi => h i (by omega)

theorem copyLoop_step {m : Mem α} {first result n : ℕ} {v w : α} (h1 : m first = some v) (h2 : m result = some w) :
    copyLoop (n + 1) m first result = copyLoop n (fun q => if q = result then some v else m q) (first + 1) (result + 1) := by
  show (m first).bind _ = _
  rw [h1]
  show (write m result v).bind _ = _
  rw [write_ok h2]; rfl

theorem copyLoop_ok : ∀ (n : ℕ) {m : Mem α} {first result : ℕ}, Arr m first n → Arr m result n → (result ≤ first ∨ first + n ≤ result) →
    ∃ m', copyLoop n m first result = some (m', result + n) ∧ Copied m m' first result n
  | 0, m, _, _, _, _, _ => ⟨m, rfl, fun i hi => by omega, fun _ _ => rfl⟩
  | n + 1, m, first, result, a, b, hc => by
    obtain ⟨v, hv⟩ := a.head
    obtain ⟨w, hw⟩ := b.head
    obtain ⟨m', e, c1, c2⟩ := copyLoop_ok n (m := fun q => if q = result then some v else m q) (first := first + 1) (result := result + 1) a.tail.write b.tail.write (by omega)
    refine ⟨m', by rw [copyLoop_step hv hw, e]; congr 2; omega, fun i hi => ?_, fun q hq => ?_⟩
    · cases i with
      | zero => rw [Nat.add_zero, c2 _ (by omega)]; simp [hv]
      | succ i =>
        have := c1 i (by omega)
        rw [show result + (i + 1) = result + 1 + i by omega, this]
        try simp only
        rw [if_neg (by omega), show first + (i + 1) = first + 1 + i by omega]
    · rw [c2 q (by omega)]
      try simp only
      rw [if_neg (by omega)]

theorem succ_mod (i s : ℕ) (hs : 0 < s) : (i + 1) % s = if i % s + 1 = s then 0 else i % s + 1 := by
  have := Nat.mod_lt i hs
  rw [← Nat.mod_add_mod]
  split_ifs with h
  · rw [h, Nat.mod_self]
  · exact Nat.mod_eq_of_lt (by omega)

theorem copyLoop_rep : ∀ (n : ℕ) {m : Mem α} {first result : ℕ}, Arr m first n → Arr m result n → first < result →
    ∃ m', copyLoop n m first result = some (m', result + n) ∧ (∀ i < n, m' (result + i) = m (first + i % (result - first))) ∧ ∀ q, (q < result ∨ result + n ≤ q) → m' q = m q
  | 0, m, _, _, _, _, _ => ⟨m, rfl, fun i hi => by omega, fun _ _ => rfl⟩
  | n + 1, m, first, result, a, b, hc => by
    obtain ⟨v, hv⟩ := a.head
    obtain ⟨w, hw⟩ := b.head
    obtain ⟨m', e, c1, c2⟩ := copyLoop_rep n (m := fun q => if q = result then some v else m q) (first := first + 1) (result := result + 1) a.tail.write b.tail.write (by omega)
    refine ⟨m', by rw [copyLoop_step hv hw, e]; congr 2; omega, fun i hi => ?_, fun q hq => ?_⟩
    · cases i with
      | zero => rw [Nat.add_zero, c2 _ (by omega)]; simp [hv]
      | succ i =>
        have := c1 i (by omega)
        rw [show result + (i + 1) = result + 1 + i by omega, this, succ_mod _ _ (by omega), show result + 1 - (first + 1) = result - first by omega]
        try simp only
        have := Nat.mod_lt i (show 0 < result - first by omega)
        by_cases h : i % (result - first) + 1 = result - first
        · rw [if_pos (by omega), if_pos h, Nat.add_zero, hv]
        · rw [if_neg (by omega), if_neg h, show first + 1 + i % (result - first) = first + (i % (result - first) + 1) by omega]
    · rw [c2 q (by omega)]
      try simp only
      rw [if_neg (by omega)]

theorem copyInput_eq : ∀ (n : ℕ) (fuel : ℕ) (m : Mem α) (first result : ℕ), n < fuel → copyInput fuel m first (first + n) result = copyLoop n m first result
  | 0, fuel + 1, m, first, result, _ => by simp [copyInput, copyLoop]
  | n + 1, fuel + 1, m, first, result, hf => by
    unfold copyInput copyLoop
    rw [if_pos (by omega)]
    congr 1; funext v; congr 1; funext m'
    rw [show first + (n + 1) = first + 1 + n by omega]
    exact copyInput_eq n fuel m' _ _ (by omega)
  | _, 0, _, _, _, h => by omega

theorem memmove_ok {m : Mem α} {dst src n : ℕ} (a : Arr m src n) (b : Arr m dst n) : ∃ m', memmove m dst src n = some m' ∧ Copied m m' src dst n := by
  refine ⟨_, if_pos ?_, fun i hi => ?_, fun q hq => ?_⟩
  · intro i hi
    obtain ⟨v, hv⟩ := a i hi
    obtain ⟨w, hw⟩ := b i hi
    simp [hv, hw]
  · simp only
    rw [if_pos (by omega), Nat.add_sub_cancel_left]
  · simp only
    rw [if_neg (by omega)]

theorem backLoop_step {m : Mem α} {first dst n : ℕ} {v w : α} (h1 : m (first + n) = some v) (h2 : m (dst + n) = some w) :
    backLoop (n + 1) m (first + (n + 1)) (dst + (n + 1)) = backLoop n (fun q => if q = dst + n then some v else m q) (first + n) (dst + n) := by
  unfold backLoop
  rw [if_neg (by omega)]
  show (m (first + n)).bind _ = _
  rw [h1]
  show (write m (dst + n) v).bind _ = _
  rw [write_ok h2]
  cases n <;> rfl

theorem backLoop_ok : ∀ (n : ℕ) {m : Mem α} {first dst : ℕ}, Arr m first n → Arr m dst n → (first ≤ dst ∨ dst + n ≤ first) →
    ∃ m', backLoop n m (first + n) (dst + n) = some (m', dst) ∧ Copied m m' first dst n
  | 0, m, _, _, _, _, _ => ⟨m, rfl, fun i hi => by omega, fun _ _ => rfl⟩
  | n + 1, m, first, dst, a, b, hc => by
    obtain ⟨v, hv⟩ := a.last
    obtain ⟨w, hw⟩ := b.last
    obtain ⟨m', e, c1, c2⟩ := backLoop_ok n (m := fun q => if q = dst + n then some v else m q) (first := first) (dst := dst) a.init.write b.init.write (by omega)
    refine ⟨m', by rw [backLoop_step hv hw, e], fun i hi => ?_, fun q hq => ?_⟩
    · by_cases h : i = n
      · subst h; rw [c2 _ (by omega)]; simp [hv]
      · have := c1 i (by omega)
        rw [this]
        try simp only
        rw [if_neg (by omega)]
    · rw [c2 q (by omega)]
      try simp only
      rw [if_neg (by omega)]

theorem backLoop_rep : ∀ (n : ℕ) {m : Mem α} {first dst : ℕ}, Arr m first n → Arr m dst n → dst < first →
    ∃ m', backLoop n m (first + n) (dst + n) = some (m', dst) ∧ (∀ i < n, m' (dst + (n - 1 - i)) = m (first + n - 1 - i % (first - dst))) ∧ ∀ q, (q < dst ∨ dst + n ≤ q) → m' q = m q
  | 0, m, _, _, _, _, _ => ⟨m, rfl, fun i hi => by omega, fun _ _ => rfl⟩
  | n + 1, m, first, dst, a, b, hc => by
    obtain ⟨v, hv⟩ := a.last
    obtain ⟨w, hw⟩ := b.last
    obtain ⟨m', e, c1, c2⟩ := backLoop_rep n (m := fun q => if q = dst + n then some v else m q) (first := first) (dst := dst) a.init.write b.init.write hc
    refine ⟨m', by rw [backLoop_step hv hw, e], fun i hi => ?_, fun q hq => ?_⟩
    · cases i with
      | zero => rw [show n + 1 - 1 - 0 = n by omega, c2 _ (by omega)]; simp [hv]
      | succ i =>
        have := c1 i (by omega)
        rw [show n + 1 - 1 - (i + 1) = n - 1 - i by omega, this, succ_mod _ _ (by omega)]
        try simp only
        have h1 := Nat.mod_lt i (show 0 < first - dst by omega)
        have h2 := Nat.mod_le i (first - dst)
        by_cases h : i % (first - dst) + 1 = first - dst
        · rw [if_pos (by omega), if_pos h, show first + (n + 1) - 1 - 0 = first + n by omega, hv]
        · rw [if_neg (by omega), if_neg h, show first + (n + 1) - 1 - (i % (first - dst) + 1) = first + n - 1 - i % (first - dst) by omega]
    · rw [c2 q (by omega)]
      try simp only
      rw [if_neg (by omega)]

theorem backBidirectional_eq : ∀ (n : ℕ) (fuel : ℕ) (m : Mem α) (first result : ℕ), n < fuel → backBidirectional fuel m first (first + n) result = backLoop n m (first + n) result
  | 0, fuel + 1, m, first, result, _ => by simp [backBidirectional, backLoop]
  | n + 1, fuel + 1, m, first, result, hf => by
    unfold backBidirectional backLoop
    rw [if_pos (by omega)]
    by_cases h : first + (n + 1) = 0 ∨ result = 0
    · rw [if_pos h, if_pos h]
    · rw [if_neg h, if_neg h]
      congr 1; funext v; congr 1; funext m'
      exact backBidirectional_eq n fuel m' _ _ (by omega)
  | _, 0, _, _, _, h => by omega

/-! ## C103 -/

/-- **C103** `copy` — with all iterator categories — puts the values of the source at the destination, changes nothing else and returns the end of the destination, also within one array, unless the
destination begins inside the source. -/
theorem c103_copy {m : Mem α} {first n result : ℕ} (a : Arr m first n) (b : Arr m result n) (hc : ¬ (first < result ∧ result < first + n)) :
    ∃ m', copyRandom m first (first + n) result = some (m', result + n) ∧ copyInput (n + 1) m first (first + n) result = some (m', result + n) ∧
      copyTrivial m first (first + n) result = some (m', result + n) ∧ Copied m m' first result n := by
  obtain ⟨m', e, c⟩ := copyLoop_ok n a b (by omega)
  refine ⟨m', ?_, by rw [copyInput_eq n _ _ _ _ (by omega), e], ?_, c⟩
  · unfold copyRandom
    rw [show (((first + n : ℕ) : ℤ) - (first : ℤ)).toNat = n by omega, e]
  · obtain ⟨m2, e2, c2⟩ := memmove_ok a b
    have : m2 = m' := by
      funext q
      by_cases h : q < result ∨ result + n ≤ q
      · rw [c2.2 q h, c.2 q h]
      · have h1 := c2.1 (q - result) (by omega)
        have h2 := c.1 (q - result) (by omega)
        rw [show result + (q - result) = q by omega] at h1 h2
        rw [h1, h2]
    unfold copyTrivial
    rw [if_neg (by omega), Nat.add_sub_cancel_left]
    split_ifs with h
    · rw [e2, this]; rfl
    · have hn : n = 0 := by omega
      subst hn
      have : m' = m := funext fun q => c.2 q (by omega)
      rw [this]

/-- **C103** If the destination begins inside the source, `copy` of trivially copyable elements through pointers is still right … -/
theorem c103_copy_pointers {m : Mem α} {first n result : ℕ} (a : Arr m first n) (b : Arr m result n) :
    ∃ m', copyTrivial m first (first + n) result = some (m', result + n) ∧ Copied m m' first result n := by
  obtain ⟨m', e, c⟩ := memmove_ok a b
  unfold copyTrivial
  rw [if_neg (by omega), Nat.add_sub_cancel_left]
  split_ifs with h
  · exact ⟨m', by rw [e]; rfl, c⟩
  · have hn : n = 0 := by omega
    subst hn
    exact ⟨m, rfl, fun i hi => by omega, fun _ _ => rfl⟩

/-- **C103** … but with every other element or iterator type the elements before the destination are repeated. -/
theorem c103_copy_overlap {m : Mem α} {first n result : ℕ} (a : Arr m first n) (b : Arr m result n) (hc : first < result) :
    ∃ m', copyRandom m first (first + n) result = some (m', result + n) ∧ copyInput (n + 1) m first (first + n) result = some (m', result + n) ∧
      (∀ i < n, m' (result + i) = m (first + i % (result - first))) ∧ ∀ q, (q < result ∨ result + n ≤ q) → m' q = m q := by
  obtain ⟨m', e, c⟩ := copyLoop_rep n a b hc
  refine ⟨m', ?_, by rw [copyInput_eq n _ _ _ _ (by omega), e], c⟩
  unfold copyRandom
  rw [show (((first + n : ℕ) : ℤ) - (first : ℤ)).toNat = n by omega, e]

/-- **C103** `copy_backward` does so unless the destination ends inside the source; it returns the beginning of the destination. -/
theorem c103_copy_backward {m : Mem α} {first n dst : ℕ} (a : Arr m first n) (b : Arr m dst n) (hc : ¬ (first < dst + n ∧ dst + n < first + n)) :
    ∃ m', backRandom m first (first + n) (dst + n) = some (m', dst) ∧ backBidirectional (n + 1) m first (first + n) (dst + n) = some (m', dst) ∧
      backTrivial m first (first + n) (dst + n) = some (m', dst) ∧ Copied m m' first dst n := by
  obtain ⟨m', e, c⟩ := backLoop_ok n a b (by omega)
  refine ⟨m', ?_, by rw [backBidirectional_eq n _ _ _ _ (by omega), e], ?_, c⟩
  · unfold backRandom
    rw [show (((first + n : ℕ) : ℤ) - (first : ℤ)).toNat = n by omega, e]
  · obtain ⟨m2, e2, c2⟩ := memmove_ok a b
    have : m2 = m' := by
      funext q
      by_cases h : q < dst ∨ dst + n ≤ q
      · rw [c2.2 q h, c.2 q h]
      · have h1 := c2.1 (q - dst) (by omega)
        have h2 := c.1 (q - dst) (by omega)
        rw [show dst + (q - dst) = q by omega] at h1 h2
        rw [h1, h2]
    unfold backTrivial
    rw [if_neg (by omega), Nat.add_sub_cancel_left]
    split_ifs with h h'
    · omega
    · rw [Nat.add_sub_cancel, e2, this]; rfl
    · have hn : n = 0 := by omega
      subst hn
      have : m' = m := funext fun q => c.2 q (by omega)
      rw [this]; rfl

/-- **C103** `copy_backward` to a destination that ends inside the source repeats the elements behind it. -/
theorem c103_copy_backward_overlap {m : Mem α} {first n dst : ℕ} (a : Arr m first n) (b : Arr m dst n) (hc : dst < first) :
    ∃ m', backRandom m first (first + n) (dst + n) = some (m', dst) ∧ (∀ i < n, m' (dst + (n - 1 - i)) = m (first + n - 1 - i % (first - dst))) ∧ ∀ q, (q < dst ∨ dst + n ≤ q) → m' q = m q := by
  obtain ⟨m', e, c⟩ := backLoop_rep n a b hc
  refine ⟨m', ?_, c⟩
  unfold backRandom
  rw [show (((first + n : ℕ) : ℤ) - (first : ℤ)).toNat = n by omega, e]

theorem copyNInput_eq : ∀ (n : ℕ) (m : Mem α) (first result : ℕ), copyNInput n m first result = (copyLoop n m first result).map fun x => (x.1, first + n, x.2)
  | 0, m, first, result => rfl
  | n + 1, m, first, result => by
    unfold copyNInput copyLoop
    cases m first with
    | none => rfl
    | some v =>
      show (write m result v).bind _ = ((write m result v).bind _).map _
      cases write m result v with
      | none => rfl
      | some m1 =>
        show copyNInput n m1 _ _ = (copyLoop n m1 _ _).map _
        rw [copyNInput_eq n m1]
        rw [show first + (n + 1) = first + 1 + n by omega]

/-- **C103** `copy_n` returns both ends. -/
theorem c103_copy_n {m : Mem α} {first n result : ℕ} (a : Arr m first n) (b : Arr m result n) (hc : ¬ (first < result ∧ result < first + n)) :
    ∃ m', copyNRandom n m first result = some (m', first + n, result + n) ∧ copyNInput n m first result = some (m', first + n, result + n) ∧ Copied m m' first result n := by
  obtain ⟨m', e1, _, _, c⟩ := c103_copy a b hc
  refine ⟨m', ?_, ?_, c⟩
  · unfold copyNRandom
    show (copyRandom m first (first + n) result).bind _ = _
    rw [e1]; rfl
  · rw [copyNInput_eq]
    unfold copyRandom at e1
    rw [show (((first + n : ℕ) : ℤ) - (first : ℤ)).toNat = n by omega] at e1
    rw [e1]; rfl

theorem Holds.head {m : Mem α} {a : ℕ} {x : α} {l : List α} (h : Holds m a (x :: l)) : m a = some x := by simpa using h 0 (by simp)
theorem Holds.tail {m : Mem α} {a : ℕ} {x : α} {l : List α} (h : Holds m a (x :: l)) : Holds m (a + 1) l := fun i hi => by
  have := h (i + 1) (by simpa using hi)
  rw [show a + 1 + i = a + (i + 1) by omega, this]; simp
theorem Holds.write {m : Mem α} {a p : ℕ} {v : α} {l : List α} (h : Holds m a l) (hp : p < a ∨ a + l.length ≤ p) : Holds (fun q => if q = p then some v else m q) a l := fun i hi => by
  try simp only
  rw [if_neg (by omega), h i hi]

/-- **C103** `copy_if` puts exactly the elements with the property, in their order, at the destination — which may be the source itself — and returns their end; it needs room for these only. -/
theorem c103_copy_if (p : α → Bool) : ∀ (l : List α) (fuel : ℕ) {m : Mem α} {first result : ℕ}, Holds m first l → Arr m result (l.filter p).length → l.length < fuel →
    (result ≤ first ∨ first + l.length ≤ result) →
    ∃ m', copyIf p fuel m first (first + l.length) result = some (m', result + (l.filter p).length) ∧ Holds m' result (l.filter p) ∧
      ∀ q, (q < result ∨ result + (l.filter p).length ≤ q) → m' q = m q
  | [], fuel + 1, m, first, result, _, _, _, _ => ⟨m, by simp [copyIf], fun i hi => by simp at hi, fun _ _ => rfl⟩
  | x :: l, fuel + 1, m, first, result, h, b, hf, hc => by
    have hl : (x :: l).length = l.length + 1 := rfl
    rw [hl] at hf hc ⊢
    by_cases hp : p x = true
    · have hfl : (x :: l).filter p = x :: l.filter p := by simp [hp]
      rw [hfl] at b ⊢
      have hl2 : (x :: l.filter p).length = (l.filter p).length + 1 := rfl
      rw [hl2] at b ⊢
      obtain ⟨w, hw⟩ := b.head
      obtain ⟨m', e, c1, c2⟩ := c103_copy_if p l fuel (m := fun q => if q = result then some x else m q) (first := first + 1) (result := result + 1) (h.tail.write (by omega)) b.tail.write (by omega) (by omega)
      refine ⟨m', ?_, fun i hi => ?_, fun q hq => ?_⟩
      · unfold copyIf
        rw [if_pos (by omega)]
        show (m first).bind _ = _
        rw [h.head]
        show (if p x then ((write m result x).bind _) else _) = _
        rw [if_pos hp, write_ok hw, show first + (l.length + 1) = first + 1 + l.length by omega, show result + ((l.filter p).length + 1) = result + 1 + (l.filter p).length by omega]
        exact e
      · cases i with
        | zero => rw [Nat.add_zero, c2 _ (by omega)]; simp
        | succ i =>
          have := c1 i (by rw [hl2] at hi; omega)
          rw [show result + (i + 1) = result + 1 + i by omega, this]; simp
      · rw [c2 q (by omega)]
        try simp only
        rw [if_neg (by omega)]
    · have hfl : (x :: l).filter p = l.filter p := by simp [hp]
      rw [hfl] at b ⊢
      obtain ⟨m', e, c1, c2⟩ := c103_copy_if p l fuel (m := m) (first := first + 1) (result := result) h.tail b (by omega) (by omega)
      refine ⟨m', ?_, c1, c2⟩
      unfold copyIf
      rw [if_pos (by omega)]
      show (m first).bind _ = _
      rw [h.head]
      show (if p x then _ else copyIf p fuel m (first + 1) _ result) = _
      rw [if_neg hp, show first + (l.length + 1) = first + 1 + l.length by omega]
      exact e
  | _, 0, _, _, _, _, _, hf, _ => by omega

theorem moveCell_ok {e v w : α} {m : Mem α} {first result : ℕ} (h1 : m first = some v) (h2 : m result = some w) :
    moveCell e m first result = some fun q => if q = first then some e else if q = result then some v else m q := by
  show (m first).bind _ = _
  rw [h1]
  show (write m result v).bind _ = _
  rw [write_ok h2]
  have h3 : ∃ u, (fun q => if q = result then some v else m q) first = some u := by
    by_cases h : first = result
    · exact ⟨v, by simp [h]⟩
    · exact ⟨v, by simp [h, h1]⟩
  obtain ⟨u, hu⟩ := h3
  exact write_ok hu e

theorem moveLoop_ok (e : α) : ∀ (n : ℕ) {m : Mem α} {first result : ℕ}, Arr m first n → Arr m result n → (result < first ∨ first + n ≤ result) →
    ∃ m', moveLoop e n m first result = some (m', result + n) ∧ (∀ i < n, m' (result + i) = m (first + i)) ∧
      (∀ q, first ≤ q → q < first + n → (q < result ∨ result + n ≤ q) → m' q = some e) ∧
      ∀ q, (q < first ∨ first + n ≤ q) → (q < result ∨ result + n ≤ q) → m' q = m q
  | 0, m, _, _, _, _, _ => ⟨m, rfl, fun i hi => by omega, fun q h1 h2 => by omega, fun _ _ _ => rfl⟩
  | n + 1, m, first, result, a, b, hc => by
    obtain ⟨v, hv⟩ := a.head
    obtain ⟨w, hw⟩ := b.head
    obtain ⟨m', e1, c1, c2, c3⟩ := moveLoop_ok e n (m := fun q => if q = first then some e else if q = result then some v else m q) (first := first + 1) (result := result + 1)
      (a.tail.write (p := result) (v := v)).write (b.tail.write (p := result) (v := v)).write (by omega)
    refine ⟨m', ?_, fun i hi => ?_, fun q h1 h2 h3 => ?_, fun q h1 h2 => ?_⟩
    · show (moveCell e m first result).bind _ = _
      rw [moveCell_ok hv hw, show result + (n + 1) = result + 1 + n by omega]
      exact e1
    · cases i with
      | zero =>
        rw [Nat.add_zero, c3 _ (by omega) (by omega)]
        try simp only
        rw [if_neg (by omega)]; simp [hv]
      | succ i =>
        have := c1 i (by omega)
        rw [show result + (i + 1) = result + 1 + i by omega, this]
        try simp only
        rw [if_neg (by omega), if_neg (by omega), show first + (i + 1) = first + 1 + i by omega]
    · by_cases h : q = first
      · rw [c3 q (by omega) (by omega)]; simp [h]
      · exact c2 q (by omega) (by omega) (by omega)
    · rw [c3 q (by omega) (by omega)]
      try simp only
      rw [if_neg (by omega), if_neg (by omega)]

/-- **C103** `move` puts the values at the destination and leaves exactly the source elements outside the destination moved-from, unless the destination begins in the source (or is the source). -/
theorem c103_move (e : α) {m : Mem α} {first n result : ℕ} (a : Arr m first n) (b : Arr m result n) (hc : ¬ (first ≤ result ∧ result < first + n)) :
    ∃ m', moveRandom e m first (first + n) result = some (m', result + n) ∧ (∀ i < n, m' (result + i) = m (first + i)) ∧
      (∀ q, first ≤ q → q < first + n → (q < result ∨ result + n ≤ q) → m' q = some e) ∧
      ∀ q, (q < first ∨ first + n ≤ q) → (q < result ∨ result + n ≤ q) → m' q = m q := by
  obtain ⟨m', e1, c⟩ := moveLoop_ok e n a b (by omega)
  refine ⟨m', ?_, c⟩
  unfold moveRandom
  rw [show (((first + n : ℕ) : ℤ) - (first : ℤ)).toNat = n by omega, e1]

theorem moveLoop_self (e : α) : ∀ (n : ℕ) {m : Mem α} {first : ℕ}, Arr m first n →
    ∃ m', moveLoop e n m first first = some (m', first + n) ∧ (∀ i < n, m' (first + i) = some e) ∧ ∀ q, (q < first ∨ first + n ≤ q) → m' q = m q
  | 0, m, _, _ => ⟨m, rfl, fun i hi => by omega, fun _ _ => rfl⟩
  | n + 1, m, first, a => by
    obtain ⟨v, hv⟩ := a.head
    obtain ⟨m', e1, c1, c2⟩ := moveLoop_self e n (m := fun q => if q = first then some e else if q = first then some v else m q) (first := first + 1) (a.tail.write (p := first) (v := v)).write
    refine ⟨m', ?_, fun i hi => ?_, fun q hq => ?_⟩
    · show (moveCell e m first first).bind _ = _
      rw [moveCell_ok hv hv, show first + (n + 1) = first + 1 + n by omega]
      exact e1
    · cases i with
      | zero => rw [Nat.add_zero, c2 _ (by omega)]; simp
      | succ i => rw [show first + (i + 1) = first + 1 + i by omega]; exact c1 i (by omega)
    · rw [c2 q (by omega)]
      try simp only
      rw [if_neg (by omega), if_neg (by omega)]

/-- **C103** Moving a range to itself empties all its elements. -/
theorem c103_move_self (e : α) {m : Mem α} {first n : ℕ} (a : Arr m first n) :
    ∃ m', moveRandom e m first (first + n) first = some (m', first + n) ∧ (∀ i < n, m' (first + i) = some e) ∧ ∀ q, (q < first ∨ first + n ≤ q) → m' q = m q := by
  obtain ⟨m', e1, c⟩ := moveLoop_self e n a
  refine ⟨m', ?_, c⟩
  unfold moveRandom
  rw [show (((first + n : ℕ) : ℤ) - (first : ℤ)).toNat = n by omega, e1]

theorem moveBackLoop_ok (e : α) : ∀ (n : ℕ) {m : Mem α} {first dst : ℕ}, Arr m first n → Arr m dst n → (first < dst ∨ dst + n ≤ first) →
    ∃ m', moveBackLoop e n m (first + n) (dst + n) = some (m', dst) ∧ (∀ i < n, m' (dst + i) = m (first + i)) ∧
      (∀ q, first ≤ q → q < first + n → (q < dst ∨ dst + n ≤ q) → m' q = some e) ∧
      ∀ q, (q < first ∨ first + n ≤ q) → (q < dst ∨ dst + n ≤ q) → m' q = m q
  | 0, m, _, _, _, _, _ => ⟨m, rfl, fun i hi => by omega, fun q h1 h2 => by omega, fun _ _ _ => rfl⟩
  | n + 1, m, first, dst, a, b, hc => by
    obtain ⟨v, hv⟩ := a.last
    obtain ⟨w, hw⟩ := b.last
    obtain ⟨m', e1, c1, c2, c3⟩ := moveBackLoop_ok e n (m := fun q => if q = first + n then some e else if q = dst + n then some v else m q) (first := first) (dst := dst)
      (a.init.write (p := dst + n) (v := v)).write (b.init.write (p := dst + n) (v := v)).write (by omega)
    refine ⟨m', ?_, fun i hi => ?_, fun q h1 h2 h3 => ?_, fun q h1 h2 => ?_⟩
    · unfold moveBackLoop
      rw [if_neg (by omega)]
      show (moveCell e m (first + n) (dst + n)).bind _ = _
      rw [moveCell_ok hv hw]
      exact e1
    · by_cases h : i = n
      · subst h
        rw [c3 _ (by omega) (by omega)]
        try simp only
        rw [if_neg (by omega)]; simp [hv]
      · have := c1 i (by omega)
        rw [this]
        try simp only
        rw [if_neg (by omega), if_neg (by omega)]
    · by_cases h : q = first + n
      · rw [c3 q (by omega) (by omega)]; simp [h]
      · exact c2 q (by omega) (by omega) (by omega)
    · rw [c3 q (by omega) (by omega)]
      try simp only
      rw [if_neg (by omega), if_neg (by omega)]

/-- **C103** `move_backward` likewise, unless the destination ends in the source (or is the source). -/
theorem c103_move_backward (e : α) {m : Mem α} {first n dst : ℕ} (a : Arr m first n) (b : Arr m dst n) (hc : ¬ (first < dst + n ∧ dst + n ≤ first + n)) :
    ∃ m', moveBackRandom e m first (first + n) (dst + n) = some (m', dst) ∧ (∀ i < n, m' (dst + i) = m (first + i)) ∧
      (∀ q, first ≤ q → q < first + n → (q < dst ∨ dst + n ≤ q) → m' q = some e) ∧
      ∀ q, (q < first ∨ first + n ≤ q) → (q < dst ∨ dst + n ≤ q) → m' q = m q := by
  obtain ⟨m', e1, c⟩ := moveBackLoop_ok e n a b (by omega)
  refine ⟨m', ?_, c⟩
  unfold moveBackRandom
  rw [show (((first + n : ℕ) : ℤ) - (first : ℤ)).toNat = n by omega, e1]

theorem fillN_ok : ∀ (n : ℕ) {m : Mem α} {first r : ℕ} {v : α}, Arr m first n → m r = some v →
    ∃ m', fillN n m first r = some (m', first + n) ∧ (∀ i < n, m' (first + i) = some v) ∧ ∀ q, (q < first ∨ first + n ≤ q) → m' q = m q
  | 0, m, _, _, _, _, _ => ⟨m, rfl, fun i hi => by omega, fun _ _ => rfl⟩
  | n + 1, m, first, r, v, a, hr => by
    obtain ⟨w, hw⟩ := a.head
    obtain ⟨m', e, c1, c2⟩ := fillN_ok n (m := fun q => if q = first then some v else m q) (first := first + 1) (r := r) (v := v) a.tail.write (by simp [hr])
    refine ⟨m', ?_, fun i hi => ?_, fun q hq => ?_⟩
    · show (m r).bind _ = _
      rw [hr]
      show (write m first v).bind _ = _
      rw [write_ok hw, show first + (n + 1) = first + 1 + n by omega]
      exact e
    · cases i with
      | zero => rw [Nat.add_zero, c2 _ (by omega)]; simp
      | succ i => rw [show first + (i + 1) = first + 1 + i by omega]; exact c1 i (by omega)
    · rw [c2 q (by omega)]
      try simp only
      rw [if_neg (by omega)]

theorem fillForward_eq : ∀ (n : ℕ) (fuel : ℕ) (m : Mem α) (first r : ℕ), n < fuel → fillForward fuel m first (first + n) r = (fillN n m first r).map Prod.fst
  | 0, fuel + 1, m, first, r, _ => by simp [fillForward, fillN]
  | n + 1, fuel + 1, m, first, r, hf => by
    unfold fillForward fillN
    rw [if_pos (by omega)]
    cases m r with
    | none => rfl
    | some v =>
      show (write m first v).bind _ = ((write m first v).bind _).map _
      cases write m first v with
      | none => rfl
      | some m1 =>
        rw [show first + (n + 1) = first + 1 + n by omega]
        exact fillForward_eq n fuel m1 _ _ (by omega)
  | _, 0, _, _, _, h => by omega

/-- **C103** `fill` and `fill_n` set every element of the range to the value and nothing else, also if the value is a reference to an element of the range itself. -/
theorem c103_fill {m : Mem α} {first n r : ℕ} {v : α} (a : Arr m first n) (hr : m r = some v) :
    ∃ m', fillN n m first r = some (m', first + n) ∧ fillRandom m first (first + n) r = some m' ∧ fillForward (n + 1) m first (first + n) r = some m' ∧
      (∀ i < n, m' (first + i) = some v) ∧ ∀ q, (q < first ∨ first + n ≤ q) → m' q = m q := by
  obtain ⟨m', e, c⟩ := fillN_ok n a hr
  refine ⟨m', e, ?_, ?_, c⟩
  · unfold fillRandom
    rw [show (((first + n : ℕ) : ℤ) - (first : ℤ)).toNat = n by omega, e]; rfl
  · rw [fillForward_eq n _ _ _ _ (by omega), e]; rfl

/-- **C103** `equal` says whether all elements correspond. -/
theorem c103_equal (eq : α → α → Bool) : ∀ (x y : List α) (fuel : ℕ) {m : Mem α} {f1 f2 : ℕ}, Holds m f1 x → Holds m f2 y → x.length ≤ y.length → x.length < fuel →
    ∃ r, equal eq fuel m f1 (f1 + x.length) f2 = some r ∧ (r = true ↔ ∀ i < x.length, ∃ a b, x[i]? = some a ∧ y[i]? = some b ∧ eq a b = true)
  | [], y, fuel + 1, m, f1, f2, _, _, _, _ => ⟨true, by simp [equal], by simp⟩
  | a :: x, b :: y, fuel + 1, m, f1, f2, h1, h2, hl, hf => by
    obtain ⟨r, e, hr⟩ := c103_equal eq x y fuel h1.tail h2.tail (by simpa using hl) (by simpa using hf)
    have key : ∀ z, (if (!eq a b) = true then some false else equal eq fuel m (f1 + 1) (f1 + (a :: x).length) (f2 + 1)) = z → equal eq (fuel + 1) m f1 (f1 + (a :: x).length) f2 = z := by
      intro z hz
      rw [← hz, equal, if_pos (by simp)]
      show (m f1).bind _ = _
      rw [h1.head]
      show (m f2).bind _ = _
      rw [h2.head]
      rfl
    by_cases he : eq a b = true
    · refine ⟨r, key _ (by rw [if_neg (by simp [he]), ← e]; congr 1; simp; omega), hr.trans ⟨fun h i hi => ?_, fun h i hi => ?_⟩⟩
      · cases i with
        | zero => exact ⟨a, b, by simp, by simp, he⟩
        | succ i => simpa using h i (by simpa using hi)
      · simpa using h (i + 1) (by simpa using hi)
    · refine ⟨false, key _ (if_pos (by simp [he])), by simp, fun h => ?_⟩
      obtain ⟨u, w, hu, hw, h⟩ := h 0 (by simp)
      simp at hu hw
      exact absurd (hu ▸ hw ▸ h) he
  | _ :: _, [], _, _, _, _, _, _, hl, _ => by simp at hl
  | _, _, 0, _, _, _, _, _, _, hf => by omega

theorem lexLess_nil_right (lt : α → α → Bool) (x : List α) : ¬ LexLess lt x [] := by
  rintro ⟨i, _, ⟨_, b, hb⟩ | ⟨a, b, _, hb, _⟩⟩ <;> simp at hb

theorem lexLess_nil_cons (lt : α → α → Bool) (b : α) (y : List α) : LexLess lt [] (b :: y) := ⟨0, fun j hj => by omega, Or.inl ⟨by simp, b, by simp⟩⟩

theorem lexLess_cons (lt : α → α → Bool) (a b : α) (x y : List α) : LexLess lt (a :: x) (b :: y) ↔ (lt a b = true ∨ (lt a b = false ∧ lt b a = false ∧ LexLess lt x y)) := by
  constructor
  · rintro ⟨i, h1, h2⟩
    cases i with
    | zero =>
      rcases h2 with ⟨h, _⟩ | ⟨u, w, hu, hw, h⟩
      · simp at h
      · simp at hu hw; left; rw [hu, hw]; exact h
    | succ i =>
      obtain ⟨u, w, hu, hw, h3, h4⟩ := h1 0 (by omega)
      simp at hu hw
      subst hu hw
      right
      refine ⟨h3, h4, i, fun j hj => ?_, by simpa using h2⟩
      have := h1 (j + 1) (by omega)
      simpa using this
  · rintro (h | ⟨h1, h2, i, h3, h4⟩)
    · exact ⟨0, fun j hj => by omega, Or.inr ⟨a, b, by simp, by simp, h⟩⟩
    · refine ⟨i + 1, fun j hj => ?_, by simpa using h4⟩
      cases j with
      | zero => exact ⟨a, b, by simp, by simp, h1, h2⟩
      | succ j => simpa using h3 j (by omega)

/-- **C103** `lexicographical_compare` is dictionary order. -/
theorem c103_lex (lt : α → α → Bool) : ∀ (x y : List α) (fuel : ℕ) {m : Mem α} {f1 f2 : ℕ}, Holds m f1 x → Holds m f2 y → x.length < fuel →
    ∃ r, lexCompare lt fuel m f1 (f1 + x.length) f2 (f2 + y.length) = some r ∧ (r = true ↔ LexLess lt x y)
  | x, [], fuel + 1, m, f1, f2, _, _, _ => ⟨false, by simp [lexCompare], by simp [lexLess_nil_right]⟩
  | [], b :: y, fuel + 1, m, f1, f2, _, _, _ => ⟨true, by simp [lexCompare], by simp [lexLess_nil_cons]⟩
  | a :: x, b :: y, fuel + 1, m, f1, f2, h1, h2, hf => by
    obtain ⟨r, e, hr⟩ := c103_lex lt x y fuel h1.tail h2.tail (by simpa using hf)
    have key : ∀ z, (if lt a b = true then some true else if lt b a = true then some false else lexCompare lt fuel m (f1 + 1) (f1 + (a :: x).length) (f2 + 1) (f2 + (b :: y).length)) = z →
        lexCompare lt (fuel + 1) m f1 (f1 + (a :: x).length) f2 (f2 + (b :: y).length) = z := by
      intro z hz
      rw [← hz]
      rw [lexCompare]
      rw [if_pos (by simp)]
      show (m f1).bind _ = _
      rw [h1.head]
      show (m f2).bind _ = _
      rw [h2.head]
      rfl
    rw [lexLess_cons]
    by_cases h3 : lt a b = true
    · exact ⟨true, key _ (if_pos h3), by simp [h3]⟩
    · by_cases h4 : lt b a = true
      · exact ⟨false, key _ (by rw [if_neg h3, if_pos h4]), by simp [h3, h4]⟩
      · refine ⟨r, key _ ?_, by simp [h3, h4, hr]⟩
        rw [if_neg h3, if_neg h4, ← e]
        congr 1 <;> simp <;> omega
  | _, _, 0, _, _, _, _, _, hf => by omega

theorem memcmp_spec : ∀ (n : ℕ) (x y : List (Fin 256)) {m : Mem (Fin 256)} {f1 f2 : ℕ}, Holds m f1 x → Holds m f2 y → n = min x.length y.length →
    ∃ r, memcmp m f1 f2 n = some r ∧ ((r = 0 ∧ (LexLess (fun a b => decide (a < b)) x y ↔ x.length < y.length)) ∨ (r ≠ 0 ∧ (LexLess (fun a b => decide (a < b)) x y ↔ r < 0)))
  | 0, x, y, m, f1, f2, _, _, hn => by
    refine ⟨0, rfl, Or.inl ⟨rfl, ?_⟩⟩
    cases y with
    | nil => simp [lexLess_nil_right]
    | cons b y =>
      cases x with
      | nil => simp [lexLess_nil_cons]
      | cons a x => simp at hn
  | n + 1, a :: x, b :: y, m, f1, f2, h1, h2, hn => by
    obtain ⟨r, e, hr⟩ := memcmp_spec n x y h1.tail h2.tail (by simp at hn; omega)
    have key : ∀ z, (if a = b then memcmp m (f1 + 1) (f2 + 1) n else some (if a < b then -1 else 1)) = z → memcmp m f1 f2 (n + 1) = z := by
      intro z hz
      rw [← hz]
      show (m f1).bind _ = _
      rw [h1.head]
      show (m f2).bind _ = _
      rw [h2.head]
      rfl
    simp only [lexLess_cons]
    by_cases hab : a = b
    · subst hab
      exact ⟨r, key _ (by rw [if_pos rfl, e]), by simpa using hr⟩
    · refine ⟨_, key _ (if_neg hab), Or.inr ?_⟩
      by_cases hl : a < b
      · simp [hl]
      · have : b < a := by omega
        simp [hl, this]
  | _ + 1, [], _, _, _, _, _, _, hn => by simp at hn
  | _ + 1, _ :: _, [], _, _, _, _, _, hn => by simp at hn

/-- **C103** The overload for `unsigned char` gives the same order. -/
theorem c103_lex_bytes (x y : List (Fin 256)) {m : Mem (Fin 256)} {f1 f2 : ℕ} (h1 : Holds m f1 x) (h2 : Holds m f2 y) :
    ∃ r, lexBytes m f1 (f1 + x.length) f2 (f2 + y.length) = some r ∧ (r = true ↔ LexLess (fun a b => decide (a < b)) x y) := by
  obtain ⟨r, e, hr⟩ := memcmp_spec _ x y h1 h2 rfl
  have hm : (if y.length < x.length then y.length else x.length) = min x.length y.length := by
    rcases Nat.lt_or_ge y.length x.length with h | h
    · rw [if_pos h, Nat.min_eq_right (by omega)]
    · rw [if_neg (by omega), Nat.min_eq_left h]
  refine ⟨if r ≠ 0 then decide (r < 0) else decide (x.length < y.length), ?_, ?_⟩
  · unfold lexBytes
    simp only [Nat.add_sub_cancel_left]
    rw [hm]
    show (memcmp m f1 f2 _).bind _ = _
    rw [e]; rfl
  · rcases hr with ⟨h, hx⟩ | ⟨h, hx⟩
    · simp [h, hx]
    · simp [h, hx]

/-- **C103** `mismatch` finds the first pair that does not correspond, or both ends. -/
theorem c103_mismatch (eq : α → α → Bool) : ∀ (x y : List α) (fuel : ℕ) {m : Mem α} {f1 f2 : ℕ}, Holds m f1 x → Holds m f2 y → x.length ≤ y.length → x.length < fuel →
    ∃ k, mismatch eq fuel m f1 (f1 + x.length) f2 = some (f1 + k, f2 + k) ∧ (∀ j < k, ∃ a b, x[j]? = some a ∧ y[j]? = some b ∧ eq a b = true) ∧
      (k = x.length ∨ ∃ a b, x[k]? = some a ∧ y[k]? = some b ∧ eq a b = false)
  | [], y, fuel + 1, m, f1, f2, _, _, _, _ => ⟨0, by simp [mismatch], fun j hj => by omega, Or.inl rfl⟩
  | a :: x, b :: y, fuel + 1, m, f1, f2, h1, h2, hl, hf => by
    obtain ⟨k, e, h3, h4⟩ := c103_mismatch eq x y fuel h1.tail h2.tail (by simpa using hl) (by simpa using hf)
    have key : ∀ z, (if eq a b = true then mismatch eq fuel m (f1 + 1) (f1 + (a :: x).length) (f2 + 1) else some (f1, f2)) = z → mismatch eq (fuel + 1) m f1 (f1 + (a :: x).length) f2 = z := by
      intro z hz
      rw [← hz, mismatch, if_pos (by simp)]
      show (m f1).bind _ = _
      rw [h1.head]
      show (m f2).bind _ = _
      rw [h2.head]
      rfl
    by_cases he : eq a b = true
    · refine ⟨k + 1, key _ ?_, fun j hj => ?_, ?_⟩
      · rw [if_pos he, show f1 + (a :: x).length = f1 + 1 + x.length by simp; omega, e]
        congr 2 <;> omega
      · cases j with
        | zero => exact ⟨a, b, by simp, by simp, he⟩
        | succ j => simpa using h3 j (by omega)
      · rcases h4 with h4 | h4
        · left; simp [h4]
        · right; simpa using h4
    · exact ⟨0, key _ (if_neg he), fun j hj => by omega, Or.inr ⟨a, b, by simp, by simp, by simpa using he⟩⟩
  | _ :: _, [], _, _, _, _, _, _, hl, _ => by simp at hl
  | _, _, 0, _, _, _, _, _, _, hf => by omega

/-! ## the hypotheses can be met -/

/-- ten cells holding their own numbers -/
def demo : Mem ℕ := fun q => if q < 10 then some q else none

theorem demo_arr (a n : ℕ) (h : a + n ≤ 10) : Arr demo a n := fun i hi => ⟨a + i, by unfold demo; rw [if_pos (by omega)]⟩

/-- down by two within one array; up by two with `copy` repeats the first two elements -/
example : ∃ m', copyRandom demo 2 8 0 = some (m', 6) ∧ m' 0 = some 2 ∧ m' 5 = some 7 ∧ m' 6 = some 6 := by
  obtain ⟨m', e, _, _, c1, c2⟩ := c103_copy (first := 2) (n := 6) (result := 0) (demo_arr 2 6 (by omega)) (demo_arr 0 6 (by omega)) (by omega)
  exact ⟨m', e, c1 0 (by omega), c1 5 (by omega), c2 6 (by omega)⟩
example : ∃ m', copyRandom demo 0 5 2 = some (m', 7) ∧ m' 2 = some 0 ∧ m' 3 = some 1 ∧ m' 4 = some 0 ∧ m' 6 = some 0 := by
  obtain ⟨m', e, _, c1, c2⟩ := c103_copy_overlap (first := 0) (n := 5) (result := 2) (demo_arr 0 5 (by omega)) (demo_arr 2 5 (by omega)) (by omega)
  exact ⟨m', e, c1 0 (by omega), c1 1 (by omega), c1 2 (by omega), c1 4 (by omega)⟩
example : ∃ m', backRandom demo 0 5 7 = some (m', 2) ∧ m' 2 = some 0 ∧ m' 6 = some 4 := by
  obtain ⟨m', e, _, _, c1, c2⟩ := c103_copy_backward (first := 0) (n := 5) (dst := 2) (demo_arr 0 5 (by omega)) (demo_arr 2 5 (by omega)) (by omega)
  exact ⟨m', e, c1 0 (by omega), c1 4 (by omega)⟩
/-- filling 2…6 with the element at 4 -/
example : ∃ m', fillRandom demo 2 7 4 = some m' ∧ m' 2 = some 4 ∧ m' 6 = some 4 := by
  obtain ⟨m', _, e, _, c1, c2⟩ := c103_fill (first := 2) (n := 5) (r := 4) (demo_arr 2 5 (by omega)) (show demo 4 = some 4 from rfl)
  exact ⟨m', e, c1 0 (by omega), c1 4 (by omega)⟩
example : ∃ m', moveRandom 99 demo 3 6 1 = some (m', 4) ∧ m' 1 = some 3 ∧ m' 3 = some 5 ∧ m' 4 = some 99 := by
  obtain ⟨m', e, c1, c2, _⟩ := c103_move 99 (first := 3) (n := 3) (result := 1) (demo_arr 3 3 (by omega)) (demo_arr 1 3 (by omega)) (by omega)
  exact ⟨m', e, c1 0 (by omega), c1 2 (by omega), c2 4 (by omega) (by omega) (by omega)⟩
example : lexCompare (fun a b => decide (a < b)) 3 demo 1 3 2 6 = some true := by decide

end Verif.CopyAlgo
