import Verif.DequeInit
import Verif.DequeSpec
/-!
# C98–C100: the deque, the queue and the stack
-/
namespace Verif.Deque
open Verif.DequeSpec

variable {α : Type}

/-- One operation on the program's state. -/
def runOp (B : ℕ) (s : St α) : Op α → Option (St α)
  | .pushFront v => pushFront B s v
  | .pushBack v => pushBack B s v
  | .popFront => popFront B s
  | .popBack => popBack B s
  | .insert i v => insertAt B s i v
  | .erase i => eraseAt B s i
  | .assign i v => setAt B s i v
  | .clear => clear B s
  | .shrinkToFit => shrink B s

/-- A history of operations on the program's state. -/
def runAll (B : ℕ) (ops : List (Op α)) (s : St α) : Option (St α) :=
  ops.foldlM (fun s op => runOp B s op) s

/-- What a caller can see of a deque: its size, `empty`, every element, the two ends. -/
structure Shows (B : ℕ) (s : St α) (l : List α) : Prop where
  size : size B s = l.length
  empty : empty s = l.isEmpty
  get : ∀ i, i < l.length → get B s i = l[i]?
  front : l ≠ [] → front B s = l.head?
  back : l ≠ [] → back B s = l.getLast?

theorem Inv.shows {B : ℕ} {s : St α} {l : List α} (h : Inv B s l) : Shows B s l :=
  ⟨size_ok h, empty_ok h, fun _ hi => get_ok h (Nat.le_of_lt hi), fun _ => front_ok h,
    fun hl => back_ok h hl⟩

theorem bufSize_ge {sz : ℕ} (h : 1 ≤ sz) : 16 ≤ bufSize sz := by
  unfold bufSize
  split_ifs with h1
  · rw [Nat.le_div_iff_mul_le h]; omega
  · exact Nat.le_refl _

theorem runOp_ok {B : ℕ} (hB : 2 ≤ B) {s : St α} {l l' : List α} (h : Inv B s l) (op : Op α)
    (ho : op.apply l = some l') :
    ∃ s', runOp B s op = some s' ∧ Inv B s' l' ∧
      (op.isClear = false → Tight s → Tight s') ∧
      (op.isEnd = true → ∃ d : ℤ, (pos B s'.b : ℤ) = pos B s.b - op.frontNet + d * B) := by
  cases op with
  | pushFront v =>
    cases ho
    obtain ⟨s', a1, a2, a3, d, a4⟩ := pushFront_ok hB h v
    exact ⟨s', a1, a2, fun _ => a3, fun _ => ⟨d, a4⟩⟩
  | pushBack v =>
    cases ho
    obtain ⟨s', a1, a2, a3, d, a4⟩ := pushBack_ok hB h v
    exact ⟨s', a1, a2, fun _ => a3, fun _ => ⟨d, by rw [a4]; simp only [Op.frontNet]; omega⟩⟩
  | popFront =>
    cases l with
    | nil => cases ho
    | cons a l =>
      cases ho
      obtain ⟨s', a1, a2, a3, a4⟩ := popFront_ok h
      exact ⟨s', a1, a2, fun _ => a3, fun _ => ⟨0, by rw [a4]; simp only [Op.frontNet]; omega⟩⟩
  | popBack =>
    have ho : (if l.isEmpty then none else some l.dropLast) = some l' := ho
    cases l with
    | nil => cases ho
    | cons a l =>
      cases ho
      have hne : a :: l ≠ [] := List.cons_ne_nil _ _
      rw [← List.dropLast_append_getLast hne] at h
      obtain ⟨s', a1, a2, a3, a4⟩ := popBack_ok h
      exact ⟨s', a1, a2, fun _ => a3, fun _ => ⟨0, by rw [a4]; simp only [Op.frontNet]; omega⟩⟩
  | insert i v =>
    have ho : (if i ≤ l.length then some (l.take i ++ v :: l.drop i) else none) = some l' := ho
    split_ifs at ho with hi
    cases ho
    obtain ⟨s', a1, a2, a3⟩ := insertAt_ok hB h hi v
    exact ⟨s', a1, a2, fun _ => a3, fun hc => by cases hc⟩
  | erase i =>
    have ho : (if i < l.length then some (l.take i ++ l.drop (i + 1)) else none) = some l' := ho
    split_ifs at ho with hi
    cases ho
    obtain ⟨s', a1, a2, a3⟩ := eraseAt_ok h hi
    exact ⟨s', a1, a2, fun _ => a3, fun hc => by cases hc⟩
  | assign i v =>
    have ho : (if i < l.length then some (l.set i v) else none) = some l' := ho
    split_ifs at ho with hi
    cases ho
    obtain ⟨s', a1, a2, a3⟩ := setAt_ok h hi v
    exact ⟨s', a1, a2, fun _ => a3.tight, fun _ => ⟨0, by rw [a3.1]; simp only [Op.frontNet]; omega⟩⟩
  | clear =>
    cases ho
    obtain ⟨s', a1, a2, a3, a4⟩ := clear_ok h
    exact ⟨s', a1, a2, fun hc => (by cases hc), fun hc => (by cases hc)⟩
  | shrinkToFit =>
    cases ho
    obtain ⟨s', a1, a2, a3, a4, a5⟩ := shrink_ok h
    exact ⟨s', a1, a2, fun _ => a5, fun hc => by cases hc⟩

theorem runAll_ok {B : ℕ} (hB : 2 ≤ B) (ops : List (Op α)) : ∀ {s : St α} {l l' : List α},
    Inv B s l → history ops l = some l' →
    ∃ s', runAll B ops s = some s' ∧ Inv B s' l' ∧
      ((∀ op ∈ ops, op.isClear = false) → Tight s → Tight s') ∧
      ((∀ op ∈ ops, op.isEnd = true) →
        ∃ d : ℤ, (pos B s'.b : ℤ) = pos B s.b - (ops.map Op.frontNet).sum + d * B) := by
  induction ops with
  | nil =>
    intro s l l' h ho
    cases ho
    exact ⟨s, rfl, h, fun _ t => t, fun _ => ⟨0, by simp⟩⟩
  | cons op ops ih =>
    intro s l l' h ho
    cases h1 : op.apply l with
    | none =>
      have : history (op :: ops) l = none := by
        show (op.apply l >>= _) = none
        rw [h1]; rfl
      rw [this] at ho; cases ho
    | some m =>
      have ho : history ops m = some l' := by
        have : history (op :: ops) l = history ops m := by
          show (op.apply l >>= _) = _
          rw [h1]; rfl
        rw [← this]; exact ho
      obtain ⟨s1, a1, a2, a3, a4⟩ := runOp_ok hB h op h1
      obtain ⟨s2, b1, b2, b3, b4⟩ := ih a2 ho
      refine ⟨s2, ?_, b2, fun hc t => ?_, fun hc => ?_⟩
      · show (runOp B s op >>= _) = _
        rw [a1]; exact b1
      · exact b3 (fun o ho => hc o (List.mem_cons_of_mem _ ho)) (a3 (hc op List.mem_cons_self) t)
      · obtain ⟨d, hd⟩ := a4 (hc op List.mem_cons_self)
        obtain ⟨d', hd'⟩ := b4 (fun o ho => hc o (List.mem_cons_of_mem _ ho))
        refine ⟨d + d', ?_⟩
        rw [hd', hd, List.map_cons, List.sum_cons, Int.add_mul]
        omega

/-! ### C98 -/

/-- **C98.** A deque built from any sequence, after any history of operations
that the sequence allows, shows exactly the resulting sequence; no operation
of such a history touches memory it must not touch, and neither does the
destructor at the end.  Elements may have any size. -/
theorem c98_history {sz : ℕ} (hsz : 1 ≤ sz) (l₀ l : List α) (ops : List (Op α))
    (ho : history ops l₀ = some l) :
    ∃ s, (ofList (bufSize sz) l₀ >>= runAll (bufSize sz) ops) = some s ∧
      Shows (bufSize sz) s l ∧ ∃ left, destructor (bufSize sz) s = some left := by
  have hB := bufSize_ge hsz
  obtain ⟨s0, a1, a2, a3, a4⟩ := ofList_ok (B := bufSize sz) (by omega) l₀
  obtain ⟨s, b1, b2, b3, b4⟩ := runAll_ok (by omega) ops a2 ho
  obtain ⟨left, c1, c2⟩ := destructor_ok b2
  exact ⟨s, (bind_some a1).trans b1, b2.shows, left, c1⟩

/-- A deque of `n` copies of a value is the deque of that sequence. -/
theorem c98_fill {sz : ℕ} (hsz : 1 ≤ sz) (n : ℕ) (v : α) :
    ofFill (bufSize sz) n v = ofList (bufSize sz) (List.replicate n v) :=
  ofFill_eq (by have := bufSize_ge hsz; omega) n v

/-- The hypothesis of `c98_history` is met by a history using every operation. -/
example : history [.pushFront 7, .pushBack 8, .insert 2 9, .erase 0, .assign 1 5, .popFront,
    .shrinkToFit, .popBack] [1, 2] = some [5, 2] := rfl

/-! ### C99 -/

/-- **C99.** While elements are only pushed, popped, inserted, erased and
assigned one at a time, a deque keeps exactly the buffers which the cells from
its first element to the cell after its last one lie in: with `l` elements
there are at least `l / B + 1` and at most `(l + B - 1) / B + 1` of them. -/
theorem c99_buffers {sz : ℕ} (hsz : 1 ≤ sz) (l₀ l : List α) (ops : List (Op α))
    (ho : history ops l₀ = some l) (hc : ∀ op ∈ ops, op.isClear = false) :
    ∃ s, (ofList (bufSize sz) l₀ >>= runAll (bufSize sz) ops) = some s ∧
      l.length / bufSize sz + 1 ≤ s.live.length ∧
      s.live.length ≤ (l.length + bufSize sz - 1) / bufSize sz + 1 := by
  have hB := bufSize_ge hsz
  generalize bufSize sz = B at *
  obtain ⟨s0, a1, a2, a3, a4⟩ := ofList_ok (B := B) (by omega) l₀
  obtain ⟨s, b1, b2, b3, b4⟩ := runAll_ok (by omega) ops a2 ho
  refine ⟨s, (bind_some a1).trans b1, ?_, ?_⟩
  all_goals
    have ht := (b3 hc a3).2
    have hn := b2.nodes
    have hlen := b2.len
    have hbo := b2.boff
    have heo := b2.eoff
    unfold pos at hlen
    have hen : s.e.node * B = s.b.node * B + (s.e.node - s.b.node) * B := by
      rw [← Nat.add_mul]; congr 1; omega
    have hl : s.live.length = (s.e.node - s.b.node) + 1 := by omega
    rw [hl]
    generalize s.e.node - s.b.node = k at *
  · have : l.length / B < k + 1 := by
      rw [Nat.div_lt_iff_lt_mul (by omega), Nat.add_mul, Nat.one_mul]; omega
    omega
  · have : k ≤ (l.length + B - 1) / B := by
      rw [Nat.le_div_iff_mul_le (by omega)]; omega
    omega

/-- **C99.** What the destructor leaves allocated, exactly.  After pushes and
pops only, with `f` more pushes than pops at the front, the destructor leaves
`⌊(size - f) / B⌋ - ⌊-f / B⌋` buffers allocated: one less than the number of
buffers the elements spread over. -/
theorem c99_destructor {sz : ℕ} (hsz : 1 ≤ sz) (l₀ l : List α) (ops : List (Op α))
    (ho : history ops l₀ = some l) (hc : ∀ op ∈ ops, op.isEnd = true) :
    ∃ s left, (ofList (bufSize sz) l₀ >>= runAll (bufSize sz) ops) = some s ∧
      destructor (bufSize sz) s = some left ∧
      (left.length : ℤ) = ((l.length : ℤ) - (ops.map Op.frontNet).sum) / (bufSize sz : ℤ)
        - (-(ops.map Op.frontNet).sum) / (bufSize sz : ℤ) := by
  have hB := bufSize_ge hsz
  generalize bufSize sz = B at *
  obtain ⟨s0, a1, a2, a3, a4⟩ := ofList_ok (B := B) (by omega) l₀
  obtain ⟨s, b1, b2, b3, b4⟩ := runAll_ok (by omega) ops a2 ho
  obtain ⟨left, c1, c2⟩ := destructor_ok b2
  refine ⟨s, left, (bind_some a1).trans b1, c1, ?_⟩
  have hcl : ∀ op ∈ ops, op.isClear = false := by
    intro op hop
    have := hc op hop
    cases op <;> first | rfl | (cases this)
  rw [c2 (b3 hcl a3)]
  obtain ⟨d, hd⟩ := b4 hc
  generalize (ops.map Op.frontNet).sum = f at *
  have hn := b2.nodes
  have hlen := b2.len
  have hbo := b2.boff
  have heo := b2.eoff
  have p0 : (pos B s0.b : ℤ) = s0.b.node * B := by unfold pos; rw [a4]; push_cast; omega
  have pb : (pos B s.b : ℤ) = s.b.off + s.b.node * B := by unfold pos; push_cast; omega
  have pe : (pos B s.e : ℤ) = s.e.off + s.e.node * B := by unfold pos; push_cast; omega
  have e1 : -f = s.b.off + ((s.b.node : ℤ) - s0.b.node - d) * B := by
    rw [Int.sub_mul, Int.sub_mul]; omega
  have e2 : (l.length : ℤ) - f = s.e.off + ((s.e.node : ℤ) - s0.b.node - d) * B := by
    rw [Int.sub_mul, Int.sub_mul]; omega
  rw [e1, e2, Int.add_mul_ediv_right _ _ (by omega), Int.add_mul_ediv_right _ _ (by omega),
    Int.ediv_eq_zero_of_lt (by omega) (by omega), Int.ediv_eq_zero_of_lt (by omega) (by omega)]
  omega

/-- Defect: a deque filled by `n` pushes at the back leaks `n / B` buffers. -/
theorem c99_leak {sz : ℕ} (hsz : 1 ≤ sz) (l : List α) :
    ∃ s left, (ofList (bufSize sz) [] >>= runAll (bufSize sz) (l.map Op.pushBack)) = some s ∧
      destructor (bufSize sz) s = some left ∧ left.length = l.length / bufSize sz := by
  have hh : ∀ (l m : List α), history (l.map Op.pushBack) m = some (m ++ l) := by
    intro l
    induction l with
    | nil => intro m; rw [List.append_nil]; rfl
    | cons a l ih =>
      intro m
      show history (l.map Op.pushBack) (m ++ [a]) = _
      rw [ih, List.append_assoc]; rfl
  obtain ⟨s, left, h1, h2, h3⟩ := c99_destructor hsz [] l (l.map Op.pushBack) (hh l []) (by
    intro op hop
    obtain ⟨a, _, rfl⟩ := List.mem_map.1 hop
    rfl)
  refine ⟨s, left, h1, h2, ?_⟩
  have hz : ((l.map Op.pushBack).map Op.frontNet).sum = (0 : ℤ) := by
    clear h1 h2 h3
    induction l with
    | nil => rfl
    | cons a l ih =>
      rw [List.map_cons, List.map_cons, List.sum_cons, ih]; rfl
  rw [hz, Int.neg_zero, Int.zero_ediv, Int.sub_zero, Int.sub_zero] at h3
  exact_mod_cast h3

/-- 600 elements of 8 bytes: one buffer of 512 cells is leaked. -/
example : (List.replicate 600 (0 : ℕ)).length / bufSize 8 = 1 := by
  rw [List.length_replicate]; rfl

/-- Defect: `clear` releases nothing.  After any history without an earlier
`clear`, the empty deque still holds every buffer its elements were in. -/
theorem c99_clear {sz : ℕ} (hsz : 1 ≤ sz) (l₀ l : List α) (ops : List (Op α))
    (ho : history ops l₀ = some l) (hc : ∀ op ∈ ops, op.isClear = false) :
    ∃ s s', (ofList (bufSize sz) l₀ >>= runAll (bufSize sz) ops) = some s ∧
      clear (bufSize sz) s = some s' ∧ Shows (bufSize sz) s' [] ∧ s'.live = s.live := by
  have hB := bufSize_ge hsz
  obtain ⟨s0, a1, a2, a3, a4⟩ := ofList_ok (B := bufSize sz) (by omega) l₀
  obtain ⟨s, b1, b2, b3, b4⟩ := runAll_ok (by omega) ops a2 ho
  obtain ⟨s', c1, c2, c3, c4⟩ := clear_ok b2
  exact ⟨s, s', (bind_some a1).trans b1, c1, c2.shows, c4 (b3 hc a3)⟩

/-- Defect: a deque built from a one-element range of input iterators has two
elements, and its first element was never constructed. -/
theorem c99_input {B : ℕ} (hB : 3 ≤ B) (v : α) :
    ∃ s, ofInput B [v] = some s ∧ size B s = 2 ∧ get B s 0 = none ∧ get B s 1 = some v := by
  have h1 : 1 / B = 0 := Nat.div_eq_of_lt (by omega)
  have h2 : 1 % B = 1 := Nat.mod_eq_of_lt (by omega)
  let s0 : St α := ⟨upd (fun _ => none) 3 (some 0), 8, ⟨3, 0, 0⟩, ⟨3, 0, 1⟩,
    upd (fun _ _ => none) 0 (fun _ => none), [0], 1⟩
  have e0 : mapInit B 1 = some s0 := by
    unfold mapInit
    simp only [h1, h2]
    rfl
  have hne : (1 : ℕ) ≠ B - 1 := by omega
  have e1 : construct B s0 0 1 v = some { s0 with mem := upd s0.mem 0 (upd (s0.mem 0) 1 (some v)) } :=
    if_pos ⟨List.mem_singleton.2 rfl, by omega, rfl⟩
  let s1 : St α := { s0 with mem := upd s0.mem 0 (upd (s0.mem 0) 1 (some v)), e := ⟨3, 0, 2⟩ }
  have e2 : pushBack B s0 v = some s1 := by
    unfold pushBack
    rw [if_pos (show s0.e.off ≠ B - 1 from hne)]
    exact (bind_some e1).trans rfl
  refine ⟨s1, ?_, ?_, ?_, ?_⟩
  · show (mapInit B 1 >>= _) = _
    rw [bind_some e0]
    show (pushBack B s0 v >>= _) = _
    rw [bind_some e2]
    rfl
  · show (B : ℤ) * ((3 : ℤ) - 3) + 2 - 0 = 2
    rw [Int.sub_self, Int.mul_zero]; rfl
  · have : add B s1 s1.b (0 : ℕ) = some ⟨3, 0, 0⟩ := by
      unfold add
      exact if_pos ⟨by show (0 : ℤ) ≤ 0 + 0; omega, by show (0 : ℤ) + 0 < B; omega⟩
    refine (bind_some this).trans ?_
    unfold read
    rw [if_pos ⟨List.mem_singleton.2 rfl, by show 0 < B; omega⟩]
    rfl
  · have : add B s1 s1.b (1 : ℕ) = some ⟨3, 0, 1⟩ := by
      unfold add
      exact if_pos ⟨by show (0 : ℤ) ≤ 1 + 0; omega, by show (1 : ℤ) + 0 < B; omega⟩
    refine (bind_some this).trans ?_
    unfold read
    rw [if_pos ⟨List.mem_singleton.2 rfl, by show 1 < B; omega⟩]
    rfl

/-! ### C100: the adaptors -/

/-- Pushes and pops of a queue or a stack. -/
inductive Act (α : Type) where
  | push (v : α)
  | pop

/-- First in, first out. -/
def fifo : List (Act α) → List α → Option (List α)
  | [], l => some l
  | .push v :: as, l => fifo as (l ++ [v])
  | .pop :: _, [] => none
  | .pop :: as, _ :: l => fifo as l

/-- Last in, first out (the head of the list is the top). -/
def lifo : List (Act α) → List α → Option (List α)
  | [], l => some l
  | .push v :: as, l => lifo as (v :: l)
  | .pop :: _, [] => none
  | .pop :: as, _ :: l => lifo as l

def queueRun (B : ℕ) : List (Act α) → St α → Option (St α)
  | [], s => some s
  | .push v :: as, s => queuePush B s v >>= queueRun B as
  | .pop :: as, s => queuePop B s >>= queueRun B as

def stackRun (B : ℕ) : List (Act α) → St α → Option (St α)
  | [], s => some s
  | .push v :: as, s => stackPush B s v >>= stackRun B as
  | .pop :: as, s => stackPop B s >>= stackRun B as

theorem queueRun_ok {B : ℕ} (hB : 2 ≤ B) (as : List (Act α)) : ∀ {s : St α} {l l' : List α},
    Inv B s l → fifo as l = some l' → ∃ s', queueRun B as s = some s' ∧ Inv B s' l' := by
  induction as with
  | nil => intro s l l' h ho; cases ho; exact ⟨s, rfl, h⟩
  | cons a as ih =>
    intro s l l' h ho
    cases a with
    | push v =>
      obtain ⟨s1, a1, a2, _, _⟩ := pushBack_ok hB h v
      obtain ⟨s2, b1, b2⟩ := ih a2 ho
      exact ⟨s2, (bind_some a1).trans b1, b2⟩
    | pop =>
      cases l with
      | nil => cases ho
      | cons c l =>
        obtain ⟨s1, a1, a2, _, _⟩ := popFront_ok h
        obtain ⟨s2, b1, b2⟩ := ih a2 ho
        exact ⟨s2, (bind_some a1).trans b1, b2⟩

theorem stackRun_ok {B : ℕ} (hB : 2 ≤ B) (as : List (Act α)) : ∀ {s : St α} {l l' : List α},
    Inv B s l.reverse → lifo as l = some l' → ∃ s', stackRun B as s = some s' ∧ Inv B s' l'.reverse := by
  induction as with
  | nil => intro s l l' h ho; cases ho; exact ⟨s, rfl, h⟩
  | cons a as ih =>
    intro s l l' h ho
    cases a with
    | push v =>
      obtain ⟨s1, a1, a2, _, _⟩ := pushBack_ok hB h v
      obtain ⟨s2, b1, b2⟩ := ih (l := v :: l) (by rw [List.reverse_cons]; exact a2) ho
      exact ⟨s2, (bind_some a1).trans b1, b2⟩
    | pop =>
      cases l with
      | nil => cases ho
      | cons c l =>
        rw [List.reverse_cons] at h
        obtain ⟨s1, a1, a2, _, _⟩ := popBack_ok h
        obtain ⟨s2, b1, b2⟩ := ih a2 ho
        exact ⟨s2, (bind_some a1).trans b1, b2⟩

theorem queueClear_ok {B : ℕ} : ∀ (l : List α) {s : St α}, Inv B s l →
    ∃ s', queueClear B s l.length = some s' ∧ Inv B s' [] := by
  intro l
  induction l with
  | nil =>
    intro s h
    refine ⟨s, ?_, h⟩
    show (if empty s then some s else none) = some s
    rw [empty_ok h]; rfl
  | cons a l ih =>
    intro s h
    obtain ⟨s1, a1, a2, _, _⟩ := popFront_ok h
    obtain ⟨s2, b1, b2⟩ := ih a2
    refine ⟨s2, ?_, b2⟩
    show (if empty s then some s else _) = _
    rw [empty_ok h, if_neg (by intro hc; cases hc)]
    exact (bind_some a1).trans b1

theorem stackClear_ok {B : ℕ} : ∀ (l : List α) {s : St α}, Inv B s l.reverse →
    ∃ s', stackClear B s l.length = some s' ∧ Inv B s' [] := by
  intro l
  induction l with
  | nil =>
    intro s h
    refine ⟨s, ?_, h⟩
    show (if empty s then some s else none) = some s
    rw [empty_ok h]; rfl
  | cons a l ih =>
    intro s h
    have he := empty_ok h
    rw [List.reverse_cons] at h
    obtain ⟨s1, a1, a2, _, _⟩ := popBack_ok h
    obtain ⟨s2, b1, b2⟩ := ih a2
    refine ⟨s2, ?_, b2⟩
    show (if empty s then some s else _) = _
    rw [he, if_neg (by rw [List.reverse_cons]; simp)]
    exact (bind_some a1).trans b1

/-- **C100.** A queue over a deque is first-in first-out for every history of
pushes and legal pops, and `clear` empties it in `size()` turns. -/
theorem c100_queue {sz : ℕ} (hsz : 1 ≤ sz) (as : List (Act α)) (l : List α)
    (h : fifo as [] = some l) :
    ∃ s, (ofList (bufSize sz) [] >>= queueRun (bufSize sz) as) = some s ∧
      size (bufSize sz) s = l.length ∧ empty s = l.isEmpty ∧
      (l ≠ [] → queueFront (bufSize sz) s = l.head? ∧ queueBack (bufSize sz) s = l.getLast?) ∧
      ∃ s', queueClear (bufSize sz) s l.length = some s' ∧ size (bufSize sz) s' = 0 := by
  have hB := bufSize_ge hsz
  obtain ⟨s0, a1, a2, a3, a4⟩ := ofList_ok (B := bufSize sz) (by omega) ([] : List α)
  obtain ⟨s, b1, b2⟩ := queueRun_ok (by omega) as a2 h
  obtain ⟨s', c1, c2⟩ := queueClear_ok l b2
  exact ⟨s, (bind_some a1).trans b1, size_ok b2, empty_ok b2,
    fun hl => ⟨front_ok b2, back_ok b2 hl⟩, s', c1, size_ok c2⟩

/-- **C100.** A stack over a deque is last-in first-out for every history of
pushes and legal pops, and `clear` empties it in `size()` turns. -/
theorem c100_stack {sz : ℕ} (hsz : 1 ≤ sz) (as : List (Act α)) (l : List α)
    (h : lifo as [] = some l) :
    ∃ s, (ofList (bufSize sz) [] >>= stackRun (bufSize sz) as) = some s ∧
      size (bufSize sz) s = l.length ∧ empty s = l.isEmpty ∧
      (l ≠ [] → stackTop (bufSize sz) s = l.head?) ∧
      ∃ s', stackClear (bufSize sz) s l.length = some s' ∧ size (bufSize sz) s' = 0 := by
  have hB := bufSize_ge hsz
  obtain ⟨s0, a1, a2, a3, a4⟩ := ofList_ok (B := bufSize sz) (by omega) ([] : List α)
  obtain ⟨s, b1, b2⟩ := stackRun_ok (by omega) as (l := []) a2 h
  obtain ⟨s', c1, c2⟩ := stackClear_ok l b2
  refine ⟨s, (bind_some a1).trans b1, ?_, ?_, fun hl => ?_, s', c1, size_ok c2⟩
  · rw [size_ok b2, List.length_reverse]
  · rw [empty_ok b2]; cases l <;> simp
  · show back _ s = _
    rw [back_ok b2 (by simpa using hl), List.getLast?_reverse]

/-- Both hypotheses are met by a history with pops. -/
example : fifo [.push 1, .push 2, .pop, .push 3] [] = some [2, 3] ∧
    lifo [.push 1, .push 2, .pop, .push 3] [] = some [3, 1] := ⟨rfl, rfl⟩

end Verif.Deque
