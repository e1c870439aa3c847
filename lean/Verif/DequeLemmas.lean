import Verif.Deque
import Mathlib.Data.List.Nodup
import Mathlib.Tactic.Ring
import Mathlib.Tactic.SplitIfs
/-!
# The deque as a list: invariant and the operations at both ends
-/
namespace Verif.Deque

variable {α : Type}

/-- The absolute cell number of an iterator. -/
def pos (B : ℕ) (it : It) : ℕ := it.node * B + it.off

/-- What the cell number `p` holds when the elements `l` start at cell `P`. -/
def cell (l : List α) (P p : ℕ) : Option α := if p < P then none else l[p - P]?

/-- The deque's state represents the list `l`. -/
structure Inv (B : ℕ) (s : St α) (l : List α) : Prop where
  boff : s.b.off < B
  eoff : s.e.off < B
  len : pos B s.b + l.length = pos B s.e
  outside : ∀ n, s.mapSize ≤ n → s.map n = none
  slot : ∀ n, s.b.node ≤ n → n ≤ s.e.node → ∃ id, s.map n = some id
  bbuf : s.map s.b.node = some s.b.buf
  ebuf : s.map s.e.node = some s.e.buf
  livemap : ∀ n id, s.map n = some id → id ∈ s.live
  inj : ∀ n m id, s.map n = some id → s.map m = some id → n = m
  nodup : s.live.Nodup
  fresh : ∀ id ∈ s.live, id < s.next
  cells : ∀ n id o, s.map n = some id → o < B →
    s.mem id o = cell l (pos B s.b) (n * B + o)

theorem bind_some {β γ : Type} {x : Option β} {a : β} {f : β → Option γ} (h : x = some a) :
    (x >>= f) = f a := by subst h; rfl

theorem upd_same {β : Type} (f : ℕ → β) (k : ℕ) (v : β) : upd f k v k = v := if_pos rfl
theorem upd_ne {β : Type} (f : ℕ → β) {k x : ℕ} (v : β) (h : x ≠ k) : upd f k v x = f x :=
  if_neg h

theorem upd2_same (m : ℕ → ℕ → Option α) (id o : ℕ) (v : Option α) :
    upd m id (upd (m id) o v) id o = v := by rw [upd_same, upd_same]

theorem upd2_ne (m : ℕ → ℕ → Option α) {id o id' o' : ℕ} (v : Option α)
    (h : ¬(id' = id ∧ o' = o)) : upd m id (upd (m id) o v) id' o' = m id' o' := by
  by_cases h1 : id' = id
  · subst h1
    rw [upd_same, upd_ne _ _ (fun h2 => h ⟨rfl, h2⟩)]
  · rw [upd_ne _ _ h1]

theorem pos_lt {B n m o : ℕ} (ho : o < B) (h : n < m) : n * B + o < m * B := by
  have := Nat.mul_le_mul_right B (show n + 1 ≤ m from h)
  rw [Nat.add_mul, Nat.one_mul] at this
  omega

theorem pos_inj {B n m o o' : ℕ} (ho : o < B) (ho' : o' < B) (h : n * B + o = m * B + o') :
    n = m ∧ o = o' := by
  rcases Nat.lt_trichotomy n m with h1 | h1 | h1
  · have := pos_lt ho h1; omega
  · subst h1; exact ⟨rfl, by omega⟩
  · have := pos_lt ho' h1; omega

theorem node_le {B n m o o' : ℕ} (ho : o < B) (h : m * B + o' ≤ n * B + o) : m ≤ n := by
  by_contra h1
  have := pos_lt (B := B) (m := m) ho (by omega : n < m)
  omega

theorem Inv.nodes {B : ℕ} {s : St α} {l : List α} (h : Inv B s l) : s.b.node ≤ s.e.node :=
  node_le (o' := s.b.off) h.eoff (by have := h.len; unfold pos at this; omega)

theorem Inv.lt_size {B : ℕ} {s : St α} {l : List α} (h : Inv B s l) {n id : ℕ}
    (hn : s.map n = some id) : n < s.mapSize := by
  by_contra h1
  rw [h.outside n (by omega)] at hn
  cases hn

theorem Inv.cell_out {B : ℕ} {s : St α} {l : List α} (h : Inv B s l) {n o : ℕ}
    (ho : o < B) (hn : n < s.b.node ∨ s.e.node < n) :
    cell l (pos B s.b) (n * B + o) = none := by
  unfold cell
  rcases hn with hn | hn
  · have := pos_lt ho hn
    rw [if_pos (by unfold pos; omega)]
  · have h1 := pos_lt h.eoff hn
    have h2 := h.len
    have h3 : pos B s.e = s.e.node * B + s.e.off := rfl
    split_ifs
    · rfl
    · rw [List.getElem?_eq_none_iff]; omega

/-! ### iterators at cell numbers -/

/-- `it` is the iterator of cell `p`. -/
def At (B : ℕ) (s : St α) (p : ℕ) (it : It) : Prop :=
  it.off < B ∧ pos B it = p ∧ s.map it.node = some it.buf

theorem Inv.at_b {B : ℕ} {s : St α} {l : List α} (h : Inv B s l) : At B s (pos B s.b) s.b :=
  ⟨h.boff, rfl, h.bbuf⟩
theorem Inv.at_e {B : ℕ} {s : St α} {l : List α} (h : Inv B s l) : At B s (pos B s.e) s.e :=
  ⟨h.eoff, rfl, h.ebuf⟩

theorem At.unique {B : ℕ} {s : St α} {p : ℕ} {x y : It} (hx : At B s p x) (hy : At B s p y) :
    x = y := by
  obtain ⟨x1, x2, x3⟩ := hx
  obtain ⟨y1, y2, y3⟩ := hy
  obtain ⟨h1, h2⟩ := pos_inj x1 y1 (x2.trans y2.symm)
  cases x; cases y
  simp only at h1 h2 x3 y3
  subst h1 h2
  rw [x3] at y3
  cases y3
  rfl

/-- The iterator of any cell number of an allocated slot. -/
theorem Inv.exists_at {B : ℕ} {s : St α} {l : List α} (h : Inv B s l) {p : ℕ}
    (h1 : pos B s.b ≤ p) (h2 : p ≤ pos B s.e) : ∃ it, At B s p it := by
  have hB : 0 < B := by have := h.boff; omega
  have hp : p / B * B + p % B = p := Nat.div_add_mod' p B
  have hm : p % B < B := Nat.mod_lt _ hB
  have a1 : s.b.node ≤ p / B := node_le (o' := s.b.off) hm (by unfold pos at h1; omega)
  have a2 : p / B ≤ s.e.node := node_le (o' := p % B) h.eoff (by unfold pos at h2; omega)
  obtain ⟨id, hid⟩ := h.slot _ a1 a2
  exact ⟨⟨p / B, id, p % B⟩, hm, hp, hid⟩

theorem setNode_ok {B : ℕ} {s : St α} {l : List α} (h : Inv B s l) {n id : ℕ}
    (hn : s.map n = some id) (o : ℕ) : setNode s n o = some ⟨n, id, o⟩ := by
  unfold setNode
  rw [if_pos (h.lt_size hn), hn]

theorem inc_ok {B : ℕ} {s : St α} {l : List α} (h : Inv B s l) {p : ℕ} {x y : It}
    (hx : At B s p x) (hy : At B s (p + 1) y) : inc B s x = some y := by
  obtain ⟨x1, x2, x3⟩ := hx
  unfold inc
  split_ifs with h1
  · have e1 : (x.node + 1) * B + 0 = pos B y := by
      rw [hy.2.1, ← x2, Nat.add_mul, Nat.one_mul]; unfold pos; omega
    obtain ⟨e2, e3⟩ := pos_inj (by omega) hy.1 e1
    have := hy.2.2
    rw [← e2] at this
    rw [setNode_ok h this]
    cases y; simp only at e2 e3; subst e2 e3; rfl
  · exact congrArg some (At.unique (p := p + 1) ⟨by simp only; omega, by unfold pos at *; simp only; omega, x3⟩ hy)

theorem dec_ok {B : ℕ} {s : St α} {l : List α} (h : Inv B s l) {p : ℕ} {x y : It}
    (hx : At B s (p + 1) x) (hy : At B s p y) : dec B s x = some y := by
  obtain ⟨x1, x2, x3⟩ := hx
  unfold dec
  split_ifs with h1 h2
  · exfalso
    unfold pos at x2
    rw [h1, h2] at x2
    omega
  · obtain ⟨m, hm⟩ : ∃ m, x.node = m + 1 := ⟨x.node - 1, by omega⟩
    have e1 : m * B + (B - 1) = pos B y := by
      have : pos B x = (m + 1) * B + 0 := by unfold pos; rw [hm, h1]
      rw [hy.2.1]
      rw [Nat.add_mul, Nat.one_mul] at this
      omega
    obtain ⟨e2, e3⟩ := pos_inj (by omega) hy.1 e1
    have := hy.2.2
    rw [← e2] at this
    rw [hm, Nat.add_sub_cancel, setNode_ok h this]
    cases y; simp only at e2 e3; subst e2 e3; rfl
  · exact congrArg some (At.unique (p := p) ⟨by simp only; omega, by unfold pos at *; simp only; omega, x3⟩ hy)

theorem add_ok {B : ℕ} {s : St α} {l : List α} (h : Inv B s l) {p q : ℕ} {x y : It} {n : ℤ}
    (hx : At B s p x) (hy : At B s q y) (hq : (p : ℤ) + n = q) : add B s x n = some y := by
  obtain ⟨x1, x2, x3⟩ := hx
  obtain ⟨y1, y2, y3⟩ := hy
  have hB : (0 : ℤ) < B := by omega
  have key : (n + x.off : ℤ) = ((y.node : ℤ) - x.node) * B + y.off := by
    unfold pos at x2 y2
    have a := congrArg (Nat.cast (R := ℤ)) x2
    have b := congrArg (Nat.cast (R := ℤ)) y2
    push_cast at a b
    rw [Int.sub_mul]
    omega
  have e : (if 0 < n + (x.off : ℤ) then (n + x.off) / (B : ℤ)
      else -((-(n + (x.off : ℤ)) - 1) / B) - 1) = (y.node : ℤ) - x.node := by
    by_cases h4 : 0 < n + (x.off : ℤ)
    · rw [if_pos h4, key, Int.add_comm, Int.add_mul_ediv_right _ _ (by omega),
        Int.ediv_eq_zero_of_lt (by omega) (by omega), Int.zero_add]
    · have : -(n + (x.off : ℤ)) - 1 = (B - 1 - y.off) + (x.node - y.node - 1) * B := by
        rw [key]; ring
      rw [if_neg h4, this, Int.add_mul_ediv_right _ _ (by omega),
        Int.ediv_eq_zero_of_lt (by omega) (by omega)]
      omega
  have e1 : ((x.node : ℤ) + ((y.node : ℤ) - x.node)).toNat = y.node := by omega
  have e2 : (n + (x.off : ℤ) - ((y.node : ℤ) - x.node) * B).toNat = y.off := by
    rw [key]; omega
  unfold add
  simp only [e]
  by_cases h1 : 0 ≤ n + (x.off : ℤ) ∧ n + (x.off : ℤ) < B
  · rw [if_pos h1]
    refine congrArg some (At.unique (p := q) ⟨by simp only; omega, ?_, x3⟩ ⟨y1, y2, y3⟩)
    unfold pos at *
    simp only
    omega
  · rw [if_neg h1, if_neg (by omega), e1, e2, setNode_ok h y3]

theorem diff_ok {B : ℕ} {s : St α} {p q : ℕ} {x y : It}
    (hx : At B s p x) (hy : At B s q y) : diff B x y = (p : ℤ) - q := by
  obtain ⟨x1, x2, x3⟩ := hx
  obtain ⟨y1, y2, y3⟩ := hy
  have a := congrArg (Nat.cast (R := ℤ)) x2
  have b := congrArg (Nat.cast (R := ℤ)) y2
  unfold pos at a b
  push_cast at a b
  unfold diff
  rw [Int.mul_sub, ← a, ← b, Int.mul_comm _ (x.node : ℤ), Int.mul_comm _ (y.node : ℤ)]
  omega

theorem itEq_ok {B : ℕ} {s : St α} {l : List α} (h : Inv B s l) {p q : ℕ} {x y : It}
    (hx : At B s p x) (hy : At B s q y) : itEq x y = decide (p = q) := by
  unfold itEq
  refine decide_eq_decide.2 ⟨fun ⟨h1, h2⟩ => ?_, fun h1 => ?_⟩
  · rw [← hx.2.1, ← hy.2.1]
    have : x.node = y.node := h.inj _ _ _ hx.2.2 (h1 ▸ hy.2.2)
    unfold pos; rw [this, h2]
  · subst h1
    rw [hx.unique hy]
    exact ⟨rfl, rfl⟩

/-! ### cells -/

theorem cell_at {l : List α} {P i : ℕ} : cell l P (P + i) = l[i]? := by
  unfold cell
  rw [if_neg (by omega), Nat.add_sub_cancel_left]

theorem read_ok {B : ℕ} {s : St α} {l : List α} (h : Inv B s l) {i : ℕ} {x : It}
    (hx : At B s (pos B s.b + i) x) : read B s x = l[i]? := by
  unfold read
  rw [if_pos ⟨h.livemap _ _ hx.2.2, hx.1⟩, h.cells _ _ _ hx.2.2 hx.1]
  have : x.node * B + x.off = pos B s.b + i := hx.2.1
  rw [this, cell_at]

/-- Storing in one cell of an allocated slot changes exactly the cell number. -/
theorem cells_upd {B : ℕ} {s : St α} {l l' : List α} {P : ℕ} (h : Inv B s l) {x : It} {p : ℕ}
    (hx : At B s p x) (v : Option α) (hv : cell l' P p = v)
    (ho : ∀ q, q ≠ p → cell l' P q = cell l (pos B s.b) q) :
    ∀ n id o, s.map n = some id → o < B →
      upd s.mem x.buf (upd (s.mem x.buf) x.off v) id o = cell l' P (n * B + o) := by
  intro n id o hn hoB
  by_cases hc : id = x.buf ∧ o = x.off
  · obtain ⟨rfl, rfl⟩ := hc
    rw [upd2_same, h.inj _ _ _ hn hx.2.2]
    have : x.node * B + x.off = p := hx.2.1
    rw [this, hv]
  · rw [upd2_ne _ _ hc, h.cells _ _ _ hn hoB, ho]
    intro hq
    obtain ⟨e1, e2⟩ := pos_inj hoB hx.1 (hq.trans hx.2.1.symm)
    subst e1
    rw [hx.2.2] at hn
    exact hc ⟨(Option.some.inj hn).symm, e2⟩

theorem write_ok {B : ℕ} {s : St α} {l : List α} (h : Inv B s l) {i : ℕ} {x : It}
    (hx : At B s (pos B s.b + i) x) (hi : i < l.length) (v : α) :
    ∃ s', write B s x v = some s' ∧ Inv B s' (l.set i v) ∧ s'.b = s.b ∧ s'.e = s.e ∧
      s'.map = s.map ∧ s'.live = s.live ∧ s'.mapSize = s.mapSize := by
  have hr : s.mem x.buf x.off = l[i]? := by
    have := read_ok h hx
    unfold read at this
    rwa [if_pos ⟨h.livemap _ _ hx.2.2, hx.1⟩] at this
  have hsome : (s.mem x.buf x.off).isSome = true := by
    rw [hr, List.getElem?_eq_getElem hi]; rfl
  refine ⟨_, if_pos ⟨h.livemap _ _ hx.2.2, hx.1, hsome⟩, ?_, rfl, rfl, rfl, rfl, rfl⟩
  · refine ⟨h.boff, h.eoff, ?_, h.outside, h.slot, h.bbuf, h.ebuf, h.livemap, h.inj, h.nodup,
      h.fresh, ?_⟩
    · rw [List.length_set]; exact h.len
    · refine cells_upd h hx _ ?_ ?_
      · rw [cell_at, List.getElem?_set, if_pos rfl, if_pos hi]
      · intro q hq
        show cell _ (pos B s.b) q = _
        unfold cell
        split_ifs with h1
        · rfl
        · rw [List.getElem?_set, if_neg]
          omega

/-- Constructing a new first element. -/
theorem grow_front {B : ℕ} {s : St α} {l : List α} (h : Inv B s l) {p : ℕ} {x : It}
    (hp : pos B s.b = p + 1) (hx : At B s p x) (hs : ∀ n, x.node ≤ n → n ≤ s.e.node →
      ∃ id, s.map n = some id) (v : α) :
    ∃ s', construct B s x.buf x.off v = some s' ∧ Inv B { s' with b := x } (v :: l) ∧
      s'.map = s.map ∧ s'.live = s.live ∧ s'.mapSize = s.mapSize ∧ s'.e = s.e := by
  have hr : s.mem x.buf x.off = none := by
    rw [h.cells _ _ _ hx.2.2 hx.1]
    unfold cell
    rw [if_pos]
    have := hx.2.1
    unfold pos at this hp ⊢
    omega
  refine ⟨_, if_pos ⟨h.livemap _ _ hx.2.2, hx.1, by rw [hr]; rfl⟩, ?_, rfl, rfl, rfl, rfl⟩
  refine ⟨hx.1, h.eoff, ?_, h.outside, hs, hx.2.2, h.ebuf, h.livemap, h.inj, h.nodup,
      h.fresh, ?_⟩
  · rw [List.length_cons]
    have := h.len
    show pos B x + _ = pos B s.e
    rw [hx.2.1]; omega
  · refine cells_upd h hx _ ?_ ?_
    · show cell _ (pos B x) p = _
      rw [hx.2.1]
      exact cell_at (i := 0)
    · intro q hq
      show cell _ (pos B x) q = _
      rw [hx.2.1, hp]
      unfold cell
      by_cases h1 : q < p
      · rw [if_pos h1, if_pos (by omega)]
      · rw [if_neg h1, if_neg (by omega)]
        have : q - p = (q - (p + 1)) + 1 := by omega
        rw [this, List.getElem?_cons_succ]

/-- Constructing a new last element. -/
theorem grow_back {B : ℕ} {s : St α} {l : List α} (h : Inv B s l) {x : It}
    (hx : At B s (pos B s.e + 1) x) (v : α) :
    ∃ s', construct B s s.e.buf s.e.off v = some s' ∧ Inv B { s' with e := x } (l ++ [v]) ∧
      s'.map = s.map ∧ s'.live = s.live ∧ s'.mapSize = s.mapSize ∧ s'.b = s.b ∧ s'.e = s.e := by
  have hr : s.mem s.e.buf s.e.off = none := by
    rw [h.cells _ _ _ h.ebuf h.eoff]
    have h2 := h.len
    have : s.e.node * B + s.e.off = pos B s.b + l.length := h2.symm
    rw [this, cell_at, List.getElem?_eq_none_iff]
  refine ⟨_, if_pos ⟨h.livemap _ _ h.ebuf, h.eoff, by rw [hr]; rfl⟩, ?_, rfl, rfl, rfl, rfl, rfl⟩
  refine ⟨h.boff, hx.1, ?_, h.outside, ?_, h.bbuf, hx.2.2, h.livemap, h.inj, h.nodup,
      h.fresh, ?_⟩
  · rw [List.length_append]
    have := h.len
    show pos B s.b + _ = pos B x
    rw [hx.2.1, List.length_singleton]; omega
  · intro n h1 h2
    by_cases h3 : n ≤ s.e.node
    · exact h.slot n h1 h3
    · have h2 : n ≤ x.node := h2
      have : x.node ≤ n := by
        have a := hx.2.1
        have b : x.node ≤ s.e.node + 1 := by
          refine node_le (B := B) (o := 0) (o' := x.off) (by have := h.boff; omega) ?_
          rw [Nat.add_mul, Nat.one_mul]
          have := h.eoff
          unfold pos at a
          omega
        omega
      have h4 : n = x.node := by omega
      exact ⟨_, h4 ▸ hx.2.2⟩
  · refine cells_upd h h.at_e _ ?_ ?_
    · show cell _ (pos B s.b) _ = _
      rw [← h.len, cell_at, List.getElem?_append_right (Nat.le_refl _), Nat.sub_self]
      rfl
    · intro q hq
      show cell _ (pos B s.b) q = _
      unfold cell
      split_ifs with h1
      · rfl
      · have := h.len
        by_cases h2 : q - pos B s.b < l.length
        · rw [List.getElem?_append_left h2]
        · rw [List.getElem?_eq_none_iff.2, List.getElem?_eq_none_iff.2 (by omega)]
          rw [List.length_append, List.length_singleton]; omega

/-- Destroying the first element. -/
theorem cut_front {B : ℕ} {s : St α} {a : α} {l : List α} (h : Inv B s (a :: l)) {x : It}
    (hx : At B s (pos B s.b + 1) x) :
    ∃ s', destroy B s s.b.buf s.b.off = some s' ∧ Inv B { s' with b := x } l ∧
      s'.map = s.map ∧ s'.live = s.live ∧ s'.mapSize = s.mapSize ∧ s'.e = s.e ∧ s'.b = s.b := by
  have hr : s.mem s.b.buf s.b.off = some a := by
    rw [h.cells _ _ _ h.bbuf h.boff]
    exact cell_at (i := 0)
  refine ⟨_, if_pos ⟨h.livemap _ _ h.bbuf, h.boff, by rw [hr]; rfl⟩, ?_, rfl, rfl, rfl, rfl, rfl⟩
  refine ⟨hx.1, h.eoff, ?_, h.outside, ?_, hx.2.2, h.ebuf, h.livemap, h.inj, h.nodup,
      h.fresh, ?_⟩
  · have := h.len
    rw [List.length_cons] at this
    show pos B x + _ = pos B s.e
    rw [hx.2.1]; omega
  · intro n h1 h2
    refine h.slot n (Nat.le_trans ?_ h1) h2
    exact node_le (o' := s.b.off) hx.1 (by have := hx.2.1; unfold pos at this; show _ ≤ x.node * B + x.off; omega)
  · refine cells_upd h h.at_b _ ?_ ?_
    · show cell _ (pos B x) _ = _
      rw [hx.2.1]
      unfold cell
      rw [if_pos (by omega)]
    · intro q hq
      show cell _ (pos B x) q = _
      rw [hx.2.1]
      unfold cell
      by_cases h1 : q < pos B s.b
      · rw [if_pos h1, if_pos (by omega)]
      · rw [if_neg h1, if_neg (by omega)]
        have : q - pos B s.b = (q - (pos B s.b + 1)) + 1 := by omega
        rw [this, List.getElem?_cons_succ]

/-- Destroying the last element. -/
theorem cut_back {B : ℕ} {s : St α} {a : α} {l : List α} (h : Inv B s (l ++ [a])) {x : It} {p : ℕ}
    (hp : pos B s.e = p + 1) (hx : At B s p x) :
    ∃ s', destroy B { s with e := x } x.buf x.off = some s' ∧ Inv B s' l ∧
      s'.map = s.map ∧ s'.live = s.live ∧ s'.mapSize = s.mapSize ∧ s'.e = x ∧ s'.b = s.b := by
  have hlen := h.len
  rw [List.length_append, List.length_singleton] at hlen
  have hp' : p = pos B s.b + l.length := by omega
  have hr : s.mem x.buf x.off = some a := by
    rw [h.cells _ _ _ hx.2.2 hx.1]
    have : x.node * B + x.off = p := hx.2.1
    rw [this, hp', cell_at, List.getElem?_append_right (Nat.le_refl _), Nat.sub_self]
    rfl
  have hsome : (s.mem x.buf x.off).isSome = true := by rw [hr]; rfl
  refine ⟨_, if_pos ⟨h.livemap _ _ hx.2.2, hx.1, hsome⟩, ?_, rfl, rfl, rfl, rfl, rfl⟩
  refine ⟨h.boff, hx.1, ?_, h.outside, ?_, h.bbuf, hx.2.2, h.livemap, h.inj, h.nodup,
      h.fresh, ?_⟩
  · show pos B s.b + _ = pos B x
    rw [hx.2.1]; omega
  · intro n h1 h2
    refine h.slot n h1 (Nat.le_trans h2 ?_)
    exact node_le (o' := x.off) h.eoff (by have := hx.2.1; unfold pos at this hp; show x.node * B + x.off ≤ _; omega)
  · refine cells_upd h hx _ ?_ ?_
    · show cell _ (pos B s.b) _ = _
      rw [hp', cell_at, List.getElem?_eq_none_iff]
    · intro q hq
      show cell _ (pos B s.b) q = _
      unfold cell
      split_ifs with h1
      · rfl
      · by_cases h2 : q - pos B s.b < l.length
        · rw [List.getElem?_append_left h2]
        · rw [List.getElem?_eq_none_iff.2 (by omega), List.getElem?_eq_none_iff.2]
          rw [List.length_append, List.length_singleton]; omega

/-- Releasing a buffer outside the elements. -/
theorem freeSlot_ok {B : ℕ} {s : St α} {l : List α} (h : Inv B s l) {n : ℕ} (hn : n < s.mapSize)
    (ho : n < s.b.node ∨ s.e.node < n) :
    ∃ s', freeSlot B s n = some s' ∧ Inv B s' l ∧ s'.map = upd s.map n none ∧
      s'.b = s.b ∧ s'.e = s.e ∧ s'.mapSize = s.mapSize ∧
      s'.live = (match s.map n with | none => s.live | some id => s.live.erase id) := by
  unfold freeSlot
  rw [if_pos hn]
  cases hm : s.map n with
  | none =>
    refine ⟨s, rfl, h, ?_, rfl, rfl, rfl, rfl⟩
    funext x
    by_cases hx : x = n
    · subst hx; rw [upd_same, hm]
    · rw [upd_ne _ _ hx]
  | some id =>
    have hmap : ∀ m id', upd s.map n none m = some id' → m ≠ n ∧ s.map m = some id' := by
      intro m id' hm'
      by_cases hx : m = n
      · subst hx; rw [upd_same] at hm'; cases hm'
      · rw [upd_ne _ _ hx] at hm'; exact ⟨hx, hm'⟩
    have hall : (List.range B).all (fun o => (s.mem id o).isNone) = true := by
      rw [List.all_eq_true]
      intro o hoB
      rw [List.mem_range] at hoB
      rw [h.cells _ _ _ hm hoB, h.cell_out hoB ho]
      rfl
    refine ⟨_, if_pos ⟨h.livemap _ _ hm, hall⟩, ?_, rfl, rfl, rfl, rfl, rfl⟩
    · have hne : ∀ m, s.b.node ≤ m → m ≤ s.e.node → upd s.map n none m = s.map m :=
        fun m h1 h2 => upd_ne _ _ (by omega)
      have hnn := h.nodes
      refine ⟨h.boff, h.eoff, h.len, ?_, ?_, ?_, ?_, ?_, ?_, h.nodup.erase _, ?_, ?_⟩
      · intro m h1
        show upd s.map n none m = none
        have h1 : s.mapSize ≤ m := h1
        rw [upd_ne _ _ (by omega)]
        exact h.outside m h1
      · intro m h1 h2
        obtain ⟨j, hj⟩ := h.slot m h1 h2
        exact ⟨j, (hne m h1 h2).trans hj⟩
      · exact (hne _ (Nat.le_refl _) hnn).trans h.bbuf
      · exact (hne _ hnn (Nat.le_refl _)).trans h.ebuf
      · intro m j hj
        obtain ⟨h1, h2⟩ := hmap m j hj
        refine (List.mem_erase_of_ne ?_).2 (h.livemap _ _ h2)
        intro hjid
        subst hjid
        exact h1 (h.inj _ _ _ h2 hm)
      · intro m m' j hj hj'
        exact h.inj _ _ _ (hmap m j hj).2 (hmap m' j hj').2
      · intro j hj
        exact h.fresh j (List.mem_of_mem_erase hj)
      · intro m j o hj hoB
        exact h.cells _ _ _ (hmap m j hj).2 hoB

theorem freeSlots_ok {B : ℕ} {l : List α} (k : ℕ) : ∀ {s : St α} (n : ℕ), Inv B s l →
    n + k ≤ s.mapSize → (n + k ≤ s.b.node ∨ s.e.node < n) →
    ∃ s', freeSlots B s n k = some s' ∧ Inv B s' l ∧
      (∀ m, s'.map m = if n ≤ m ∧ m < n + k then none else s.map m) ∧
      s'.b = s.b ∧ s'.e = s.e ∧ s'.mapSize = s.mapSize ∧
      ((∀ m, n ≤ m → m < n + k → s.map m = none) → s'.live = s.live) := by
  induction k with
  | zero =>
    intro s n h _ _
    refine ⟨s, rfl, h, fun m => ?_, rfl, rfl, rfl, fun _ => rfl⟩
    rw [if_neg (by omega)]
  | succ k ih =>
    intro s n h h1 h2
    obtain ⟨s1, e1, i1, m1, b1, c1, z1, v1⟩ := freeSlot_ok h (n := n) (by omega) (by omega)
    obtain ⟨s2, e2, i2, m2, b2, c2, z2, v2⟩ := ih (n + 1) i1 (by rw [z1]; omega) (by rw [b1, c1]; omega)
    refine ⟨s2, ?_, i2, ?_, by rw [b2, b1], by rw [c2, c1], by rw [z2, z1], ?_⟩
    · show (freeSlot B s n >>= _) = _
      rw [bind_some e1]
      exact e2
    · intro m
      rw [m2 m, m1]
      by_cases hm : m = n
      · subst hm
        rw [if_neg (by omega), upd_same, if_pos (by omega)]
      · rw [upd_ne _ _ hm]
        by_cases hc : n + 1 ≤ m ∧ m < n + 1 + k
        · rw [if_pos hc, if_pos (by omega)]
        · rw [if_neg hc, if_neg (by omega)]
    · intro hn
      rw [v2, v1, hn n (by omega) (by omega)]
      intro m h3 h4
      rw [m1, upd_ne _ _ (by omega)]
      exact hn m (by omega) (by omega)

/-! ### new buffers -/

theorem createBuffer_ok (k : ℕ) : ∀ (s : St α) (n : ℕ), n + k ≤ s.mapSize →
    s.live.Nodup → (∀ id ∈ s.live, id < s.next) →
    ∃ s', createBuffer s n k = some s' ∧ s'.b = s.b ∧ s'.e = s.e ∧ s'.mapSize = s.mapSize ∧
      s'.next = s.next + k ∧ s'.live.length = s.live.length + k ∧ s'.live.Nodup ∧
      (∀ id, id ∈ s'.live ↔ id ∈ s.live ∨ (s.next ≤ id ∧ id < s.next + k)) ∧
      (∀ m, s'.map m = if n ≤ m ∧ m < n + k then some (s.next + (m - n)) else s.map m) ∧
      (∀ id o, s'.mem id o = if s.next ≤ id ∧ id < s.next + k then none else s.mem id o) := by
  induction k with
  | zero =>
    intro s n _ hnd _
    refine ⟨s, rfl, rfl, rfl, rfl, rfl, rfl, hnd, fun id => ?_, fun m => ?_, fun id o => ?_⟩
    · constructor
      · exact Or.inl
      · rintro (h | h)
        · exact h
        · omega
    · rw [if_neg (by omega)]
    · rw [if_neg (by omega)]
  | succ k ih =>
    intro s n h1 hnd hf
    have hnew : s.next ∉ s.live := fun hc => Nat.lt_irrefl _ (hf _ hc)
    obtain ⟨s', e1, e2, e3, e4, e5, e6, e7, e8, e9, e10⟩ := ih
      { s with
        map := upd s.map n (some s.next)
        mem := upd s.mem s.next (fun _ => none)
        live := s.next :: s.live
        next := s.next + 1 } (n + 1) (by show n + 1 + k ≤ s.mapSize; omega)
      (List.nodup_cons.2 ⟨hnew, hnd⟩) (by
        intro id hid
        show id < s.next + 1
        rcases List.mem_cons.1 hid with h | h
        · omega
        · have := hf id h; omega)
    refine ⟨s', ?_, e2, e3, e4, ?_, ?_, e7, ?_, ?_, ?_⟩
    · show (if n < s.mapSize then _ else none) = _
      rw [if_pos (by omega)]
      exact e1
    · rw [e5]; show s.next + 1 + k = _; omega
    · rw [e6]; show (s.next :: s.live).length + k = _; rw [List.length_cons]; omega
    · intro id
      rw [e8]
      show id ∈ s.next :: s.live ∨ (s.next + 1 ≤ id ∧ id < s.next + 1 + k) ↔ _
      rw [List.mem_cons]
      constructor
      · rintro ((h | h) | h)
        · right; omega
        · exact Or.inl h
        · right; omega
      · rintro (h | h)
        · exact Or.inl (Or.inr h)
        · by_cases hid : id = s.next
          · exact Or.inl (Or.inl hid)
          · right; omega
    · intro m
      rw [e9]
      show (if _ then some (s.next + 1 + _) else upd s.map n (some s.next) m) = _
      by_cases hm : m = n
      · subst hm
        rw [if_neg (by omega), upd_same, if_pos (by omega), Nat.sub_self]
        rfl
      · rw [upd_ne _ _ hm]
        by_cases hc : n + 1 ≤ m ∧ m < n + 1 + k
        · rw [if_pos hc, if_pos (by omega)]
          congr 1; omega
        · rw [if_neg hc, if_neg (by omega)]
    · intro id o
      rw [e10]
      show (if s.next + 1 ≤ id ∧ id < s.next + 1 + k then none else
        upd s.mem s.next (fun _ => none) id o) = _
      by_cases hid : id = s.next
      · subst hid
        rw [if_neg (by omega), upd_same, if_pos (by omega)]
      · rw [upd_ne _ _ hid]
        by_cases hc : s.next + 1 ≤ id ∧ id < s.next + 1 + k
        · rw [if_pos hc, if_pos (by omega)]
        · rw [if_neg hc, if_neg (by omega)]

/-- New buffers in slots outside the elements do not change the contents. -/
theorem extend_ok {B : ℕ} {s : St α} {l : List α} (h : Inv B s l) {n k : ℕ}
    (hk : n + k ≤ s.mapSize) (ho : n + k ≤ s.b.node ∨ s.e.node < n) :
    ∃ s', createBuffer s n k = some s' ∧ Inv B s' l ∧ s'.b = s.b ∧ s'.e = s.e ∧
      s'.mapSize = s.mapSize ∧ s'.live.length = s.live.length + k ∧
      (∀ m, s'.map m = if n ≤ m ∧ m < n + k then some (s.next + (m - n)) else s.map m) := by
  obtain ⟨s', e1, e2, e3, e4, e5, e6, e7, e8, e9, e10⟩ := createBuffer_ok k s n hk h.nodup h.fresh
  refine ⟨s', e1, ?_, e2, e3, e4, e6, e9⟩
  have hnn := h.nodes
  have hin : ∀ m, s.b.node ≤ m → m ≤ s.e.node → s'.map m = s.map m := by
    intro m h1 h2
    rw [e9, if_neg (by omega)]
  refine ⟨by rw [e2]; exact h.boff, by rw [e3]; exact h.eoff, by rw [e2, e3]; exact h.len,
    ?_, ?_, ?_, ?_, ?_, ?_, e7, ?_, ?_⟩
  · intro m hm
    rw [e4] at hm
    rw [e9, if_neg (by omega)]
    exact h.outside m hm
  · intro m h1 h2
    rw [e2] at h1; rw [e3] at h2
    obtain ⟨j, hj⟩ := h.slot m h1 h2
    exact ⟨j, (hin m h1 h2).trans hj⟩
  · rw [e2, hin _ (Nat.le_refl _) hnn]; exact h.bbuf
  · rw [e3, hin _ hnn (Nat.le_refl _)]; exact h.ebuf
  · intro m j hj
    rw [e9] at hj
    rw [e8]
    split_ifs at hj with hc
    · have := Option.some.inj hj
      right; omega
    · exact Or.inl (h.livemap _ _ hj)
  · intro m m' j hj hj'
    rw [e9] at hj hj'
    split_ifs at hj hj' with hc hc'
    · have a := Option.some.inj hj
      have b := Option.some.inj hj'
      omega
    · have a := Option.some.inj hj
      have b := h.fresh _ (h.livemap _ _ hj')
      omega
    · have a := Option.some.inj hj'
      have b := h.fresh _ (h.livemap _ _ hj)
      omega
    · exact h.inj _ _ _ hj hj'
  · intro j hj
    rw [e8] at hj
    rw [e5]
    rcases hj with hj | hj
    · have := h.fresh _ hj; omega
    · omega
  · intro m j o hj hoB
    rw [e10, e2]
    rw [e9] at hj
    split_ifs at hj with hc
    · have a := Option.some.inj hj
      rw [if_pos (by omega), h.cell_out hoB (by omega)]
    · have b := h.fresh _ (h.livemap _ _ hj)
      rw [if_neg (by omega)]
      exact h.cells _ _ _ hj hoB

end Verif.Deque
