import Verif.DequeLemmas
/-!
# The deque as a list: growing the map, pushing and popping
-/
namespace Verif.Deque

variable {α : Type}

/-- Every pointer of the map belongs to a slot between the two iterators, and
there are as many allocated buffers as such slots. -/
def Tight (s : St α) : Prop :=
  (∀ m id, s.map m = some id → s.b.node ≤ m ∧ m ≤ s.e.node) ∧
    s.live.length + s.b.node = s.e.node + 1

/-- A new map with the old pointers at `mid` and `k` new buffers at `k0`. -/
theorem shift_inv {B : ℕ} {s s' : St α} {l : List α} (h : Inv B s l) {mid old k0 k : ℕ}
    (hold : old = s.e.node - s.b.node + 1)
    (hmap : ∀ m, s'.map m = if mid ≤ m ∧ m < mid + old then s.map (s.b.node + (m - mid))
      else if k0 ≤ m ∧ m < k0 + k then some (s.next + (m - k0)) else none)
    (hmem : ∀ id o, s'.mem id o = if s.next ≤ id ∧ id < s.next + k then none else s.mem id o)
    (hb : s'.b = ⟨mid, s.b.buf, s.b.off⟩) (he : s'.e = ⟨mid + old - 1, s.e.buf, s.e.off⟩)
    (hs1 : mid + old ≤ s'.mapSize) (hs2 : k0 + k ≤ s'.mapSize)
    (hdis : k0 + k ≤ mid ∨ mid + old ≤ k0)
    (hnext : s'.next = s.next + k) (hnd : s'.live.Nodup)
    (hlive : ∀ id, id ∈ s'.live ↔ id ∈ s.live ∨ (s.next ≤ id ∧ id < s.next + k)) :
    Inv B s' l := by
  have hnn := h.nodes
  have hpb : pos B s'.b = mid * B + s.b.off := by rw [hb]; rfl
  have hpe : pos B s'.e = mid * B + (s.e.node - s.b.node) * B + s.e.off := by
    rw [he]; show (mid + old - 1) * B + _ = _
    rw [show mid + old - 1 = mid + (s.e.node - s.b.node) from by omega, Nat.add_mul]
  have hen : s.e.node * B = s.b.node * B + (s.e.node - s.b.node) * B := by
    rw [← Nat.add_mul]; congr 1; omega
  have hlen := h.len
  have hpos : ∀ it : It, pos B it = it.node * B + it.off := fun _ => rfl
  rw [hpos, hpos] at hlen
  have hin : ∀ j, j < old → s'.map (mid + j) = s.map (s.b.node + j) := by
    intro j hj
    rw [hmap, if_pos (by omega), Nat.add_sub_cancel_left]
  refine ⟨by rw [hb]; exact h.boff, by rw [he]; exact h.eoff, ?_, ?_, ?_, ?_, ?_, ?_, ?_, hnd, ?_, ?_⟩
  · rw [hpb, hpe]; omega
  · intro n hn
    rw [hmap, if_neg (by omega), if_neg (by omega)]
  · intro n h1 h2
    rw [hb] at h1; rw [he] at h2
    have h1 : mid ≤ n := h1
    have h2 : n ≤ mid + old - 1 := h2
    obtain ⟨id, hid⟩ := h.slot (s.b.node + (n - mid)) (by omega) (by omega)
    refine ⟨id, ?_⟩
    rw [hmap, if_pos (by omega), hid]
  · rw [hb]
    show s'.map (mid + 0) = some s.b.buf
    rw [hin 0 (by omega)]
    exact h.bbuf
  · rw [he]
    show s'.map (mid + old - 1) = some s.e.buf
    rw [show mid + old - 1 = mid + (old - 1) from by omega, hin _ (by omega),
      show s.b.node + (old - 1) = s.e.node from by omega]
    exact h.ebuf
  · intro n id hn
    rw [hmap] at hn
    rw [hlive]
    split_ifs at hn with h1 h2
    · exact Or.inl (h.livemap _ _ hn)
    · have := Option.some.inj hn
      right; omega
  · intro n m id hn hm
    rw [hmap] at hn hm
    split_ifs at hn hm with h1 h2 h3 h4
    · have := h.inj _ _ _ hn hm; omega
    · have := Option.some.inj hm
      have := h.fresh _ (h.livemap _ _ hn)
      omega
    · have := Option.some.inj hn
      have := h.fresh _ (h.livemap _ _ hm)
      omega
    · have := Option.some.inj hn
      have := Option.some.inj hm
      omega
  · intro id hid
    rw [hnext]
    rcases (hlive id).1 hid with h1 | h1
    · have := h.fresh _ h1; omega
    · omega
  · intro n id o hn ho
    rw [hmem, hpb]
    rw [hmap] at hn
    split_ifs at hn with h1 h2
    · have h3 := h.fresh _ (h.livemap _ _ hn)
      rw [if_neg (by omega), h.cells _ _ _ hn ho]
      obtain ⟨j, rfl⟩ : ∃ j, n = mid + j := ⟨n - mid, by omega⟩
      rw [Nat.add_sub_cancel_left, hpos]
      unfold cell
      rw [Nat.add_mul, Nat.add_mul]
      by_cases h4 : j * B + o < s.b.off
      · rw [if_pos (by omega), if_pos (by omega)]
      · rw [if_neg (by omega), if_neg (by omega)]
        congr 1; omega
    · have h3 := Option.some.inj hn
      rw [if_pos (by omega)]
      unfold cell
      by_cases h4 : n < mid
      · have := pos_lt ho h4
        rw [if_pos (by omega)]
      · have h5 : mid + (s.e.node - s.b.node) < n := by omega
        have := pos_lt h.eoff h5
        rw [Nat.add_mul] at this
        rw [if_neg (by omega), eq_comm, List.getElem?_eq_none_iff]
        omega

theorem reallocFront_ok {B : ℕ} {s : St α} {l : List α} (h : Inv B s l) (need : ℕ) :
    ∃ s', reallocFront s need = some s' ∧ Inv B s' l ∧ need ≤ s'.b.node ∧
      s'.b.off = s.b.off ∧ s'.e.off = s.e.off ∧
      s'.e.node + s.b.node = s.e.node + s'.b.node ∧
      (∀ m, s'.b.node ≤ m + need → m < s'.b.node → ∃ id, s'.map m = some id) ∧
      (∀ m id, s'.map m = some id → s'.b.node ≤ m + need ∧ m ≤ s'.e.node) ∧
      s'.live.length = s.live.length + need := by
  have hnn := h.nodes
  have hsz := h.lt_size h.ebuf
  generalize hN : max (2 * s.mapSize) (s.mapSize + need + 8) = N
  have hN' : s.mapSize + need + 8 ≤ N := by rw [← hN]; exact Nat.le_max_right _ _
  generalize hO : s.e.node - s.b.node + 1 = old
  generalize hG : (N - (old + need)) / 2 = beg
  obtain ⟨s1, e1, e2, e3, e4, e5, e6, e7, e8, e9, e10⟩ := createBuffer_ok need
    { s with map := fun _ => none, mapSize := N } beg (by show beg + need ≤ N; omega)
    h.nodup h.fresh
  have hm1 : s1.mapSize = N := e4
  let m := fun x => if beg + need ≤ x ∧ x < beg + need + old then
    s.map (s.b.node + (x - (beg + need))) else s1.map x
  have mb : m (beg + need) = some s.b.buf := by
    show (if _ then _ else _) = _
    rw [if_pos (by omega), Nat.sub_self]
    exact h.bbuf
  have me : m (beg + need + old - 1) = some s.e.buf := by
    show (if _ then _ else _) = _
    rw [if_pos (by omega), show s.b.node + (beg + need + old - 1 - (beg + need)) = s.e.node from by omega]
    exact h.ebuf
  let s' : St α := { s1 with map := m, b := ⟨beg + need, s.b.buf, s.b.off⟩, e := ⟨beg + need + old - 1, s.e.buf, s.e.off⟩ }
  have hmap : ∀ x, m x = if beg + need ≤ x ∧ x < beg + need + old then
      s.map (s.b.node + (x - (beg + need)))
      else if beg ≤ x ∧ x < beg + need then some (s.next + (x - beg)) else none := by
    intro x
    show (if _ then _ else s1.map x) = _
    rw [e9]
  refine ⟨s', ?_, ?_, ?_, rfl, rfl, ?_, ?_, ?_, e6⟩
  · unfold reallocFront
    simp only [hN, hO, hG]
    rw [bind_some e1, if_pos (by omega)]
    have f1 : setNode { s1 with map := m } (beg + need) s.b.off = some ⟨beg + need, s.b.buf, s.b.off⟩ := by
      unfold setNode
      rw [if_pos (show beg + need < s1.mapSize by omega)]
      show (match m (beg + need) with | some id => _ | none => _) = _
      rw [mb]
    have f2 : setNode { s1 with map := m } (beg + need + old - 1) s.e.off = some ⟨beg + need + old - 1, s.e.buf, s.e.off⟩ := by
      unfold setNode
      rw [if_pos (show beg + need + old - 1 < s1.mapSize by omega)]
      show (match m (beg + need + old - 1) with | some id => _ | none => _) = _
      rw [me]
    exact (bind_some f1).trans ((bind_some f2).trans rfl)
  · exact shift_inv h (s' := s') hO.symm hmap e10 rfl rfl
      (show beg + need + old ≤ s1.mapSize by omega) (show beg + need ≤ s1.mapSize by omega)
      (Or.inl (Nat.le_refl _)) e5 e7 e8
  · show need ≤ beg + need; omega
  · show beg + need + old - 1 + s.b.node = s.e.node + (beg + need); omega
  · intro x h1 h2
    have h1 : beg + need ≤ x + need := h1
    have h2 : x < beg + need := h2
    refine ⟨s.next + (x - beg), ?_⟩
    show m x = _
    rw [hmap, if_neg (by omega), if_pos (by omega)]
  · intro x id hx
    have hx : m x = some id := hx
    rw [hmap] at hx
    show beg + need ≤ x + need ∧ x ≤ beg + need + old - 1
    split_ifs at hx with h1 h2
    · omega
    · omega

theorem reallocBack_ok {B : ℕ} {s : St α} {l : List α} (h : Inv B s l) (need : ℕ) :
    ∃ s', reallocBack s need = some s' ∧ Inv B s' l ∧
      s'.b.off = s.b.off ∧ s'.e.off = s.e.off ∧
      s'.e.node + s.b.node = s.e.node + s'.b.node ∧
      (∀ m, s'.e.node < m → m ≤ s'.e.node + need → ∃ id, s'.map m = some id) ∧
      (∀ m id, s'.map m = some id → s'.b.node ≤ m ∧ m ≤ s'.e.node + need) ∧
      s'.live.length = s.live.length + need := by
  have hnn := h.nodes
  have hsz := h.lt_size h.ebuf
  generalize hN : max (2 * s.mapSize) (s.mapSize + need + 8) = N
  have hN' : s.mapSize + need + 8 ≤ N := by rw [← hN]; exact Nat.le_max_right _ _
  generalize hO : s.e.node - s.b.node + 1 = old
  generalize hG : (N - (old + need)) / 2 = beg
  let m := fun x => if beg ≤ x ∧ x < beg + old then s.map (s.b.node + (x - beg)) else none
  obtain ⟨s1, e1, e2, e3, e4, e5, e6, e7, e8, e9, e10⟩ := createBuffer_ok need
    { s with map := m, mapSize := N } (beg + old) (by show beg + old + need ≤ N; omega)
    h.nodup h.fresh
  have hm1 : s1.mapSize = N := e4
  have hmap : ∀ x, s1.map x = if beg ≤ x ∧ x < beg + old then s.map (s.b.node + (x - beg))
      else if beg + old ≤ x ∧ x < beg + old + need then some (s.next + (x - (beg + old))) else none := by
    intro x
    rw [e9]
    show (if _ then some (s.next + _) else (if _ then _ else _)) = _
    by_cases h1 : beg ≤ x ∧ x < beg + old
    · rw [if_neg (by omega), if_pos h1, if_pos h1]
    · rw [if_neg h1, if_neg h1]
  have mb : s1.map beg = some s.b.buf := by
    rw [hmap, if_pos (by omega), Nat.sub_self]
    exact h.bbuf
  have me : s1.map (beg + old - 1) = some s.e.buf := by
    rw [hmap, if_pos (by omega), show s.b.node + (beg + old - 1 - beg) = s.e.node from by omega]
    exact h.ebuf
  let s' : St α := { s1 with b := ⟨beg, s.b.buf, s.b.off⟩, e := ⟨beg + old - 1, s.e.buf, s.e.off⟩ }
  refine ⟨s', ?_, ?_, rfl, rfl, ?_, ?_, ?_, e6⟩
  · unfold reallocBack
    simp only [hN, hO, hG]
    rw [if_pos (by omega), bind_some e1]
    have f1 : setNode s1 beg s.b.off = some ⟨beg, s.b.buf, s.b.off⟩ := by
      unfold setNode
      rw [if_pos (show beg < s1.mapSize by omega), mb]
    have f2 : setNode s1 (beg + old - 1) s.e.off = some ⟨beg + old - 1, s.e.buf, s.e.off⟩ := by
      unfold setNode
      rw [if_pos (show beg + old - 1 < s1.mapSize by omega), me]
    exact (bind_some f1).trans ((bind_some f2).trans rfl)
  · exact shift_inv h (s' := s') hO.symm hmap e10 rfl rfl
      (show beg + old ≤ s1.mapSize by omega) (show beg + old + need ≤ s1.mapSize by omega)
      (Or.inr (Nat.le_refl _)) e5 e7 e8
  · show beg + old - 1 + s.b.node = s.e.node + beg; omega
  · intro x h1 h2
    have h1 : beg + old - 1 < x := h1
    have h2 : x ≤ beg + old - 1 + need := h2
    refine ⟨s.next + (x - (beg + old)), ?_⟩
    show s1.map x = _
    rw [hmap, if_neg (by omega), if_pos (by omega)]
  · intro x id hx
    have hx : s1.map x = some id := hx
    rw [hmap] at hx
    show beg ≤ x ∧ x ≤ beg + old - 1 + need
    split_ifs at hx with h1 h2
    · omega
    · omega

/-- `require_capacity(n, true)`: afterwards `n` cells before the first element are allocated. -/
theorem requireFront_ok {B : ℕ} {s : St α} {l : List α} (h : Inv B s l) (n : ℕ) :
    ∃ s', requireFront B s n = some s' ∧ Inv B s' l ∧
      s'.b.off = s.b.off ∧ s'.e.off = s.e.off ∧
      s'.e.node + s.b.node = s.e.node + s'.b.node ∧
      (s.b.off < n → (n - s.b.off) / B + 1 ≤ s'.b.node ∧
        (∀ m, s'.b.node ≤ m + ((n - s.b.off) / B + 1) → m < s'.b.node → ∃ id, s'.map m = some id) ∧
        s'.live.length = s.live.length + ((n - s.b.off) / B + 1) ∧
        (Tight s → ∀ m id, s'.map m = some id →
          s'.b.node ≤ m + ((n - s.b.off) / B + 1) ∧ m ≤ s'.e.node)) ∧
      (n ≤ s.b.off → s' = s) := by
  unfold requireFront
  by_cases h1 : s.b.off < n
  · rw [if_pos h1]
    simp only []
    generalize (n - s.b.off) / B + 1 = need
    by_cases h2 : s.b.node < need
    · rw [if_pos h2]
      obtain ⟨s', a1, a2, a3, a4, a5, a6, a7, a8, a9⟩ := reallocFront_ok h need
      exact ⟨s', a1, a2, a4, a5, a6, fun _ => ⟨a3, a7, a9, fun _ => a8⟩, by omega⟩
    · rw [if_neg h2]
      have hnn := h.nodes
      have hsz := h.lt_size h.ebuf
      obtain ⟨s', a1, a2, a3, a4, a5, a6, a7⟩ := extend_ok h (n := s.b.node - need) (k := need)
        (by omega) (by omega)
      refine ⟨s', a1, a2, by rw [a3], by rw [a4], by rw [a3, a4], fun _ => ⟨by rw [a3]; omega, ?_, a6, ?_⟩, by omega⟩
      · intro m h3 h4
        rw [a3] at h3 h4
        exact ⟨_, by rw [a7, if_pos (by omega)]⟩
      · intro ht m id hm
        rw [a3, a4]
        rw [a7] at hm
        split_ifs at hm with h3
        · omega
        · have := ht.1 _ _ hm; omega
  · rw [if_neg h1]
    exact ⟨s, rfl, h, rfl, rfl, rfl, by omega, fun _ => rfl⟩

/-- `require_capacity(n, false)`. -/
theorem requireBack_ok {B : ℕ} {s : St α} {l : List α} (h : Inv B s l) (n : ℕ) :
    ∃ s', requireBack B s n = some s' ∧ Inv B s' l ∧
      s'.b.off = s.b.off ∧ s'.e.off = s.e.off ∧
      s'.e.node + s.b.node = s.e.node + s'.b.node ∧
      (B - s.e.off - 1 < n →
        (∀ m, s'.e.node < m → m ≤ s'.e.node + ((n - (B - s.e.off - 1)) / B + 1) → ∃ id, s'.map m = some id) ∧
        s'.live.length = s.live.length + ((n - (B - s.e.off - 1)) / B + 1) ∧
        (Tight s → ∀ m id, s'.map m = some id →
          s'.b.node ≤ m ∧ m ≤ s'.e.node + ((n - (B - s.e.off - 1)) / B + 1))) ∧
      (n ≤ B - s.e.off - 1 → s' = s) := by
  unfold requireBack
  by_cases h1 : B - s.e.off - 1 < n
  · rw [if_pos h1]
    simp only []
    generalize (n - (B - s.e.off - 1)) / B + 1 = need
    by_cases h2 : s.mapSize - s.e.node - 1 < need
    · rw [if_pos h2]
      obtain ⟨s', a1, a2, a4, a5, a6, a7, a8, a9⟩ := reallocBack_ok h need
      exact ⟨s', a1, a2, a4, a5, a6, fun _ => ⟨a7, a9, fun _ => a8⟩, by omega⟩
    · rw [if_neg h2]
      have hnn := h.nodes
      have hsz := h.lt_size h.ebuf
      obtain ⟨s', a1, a2, a3, a4, a5, a6, a7⟩ := extend_ok h (n := s.e.node + 1) (k := need)
        (by omega) (by omega)
      refine ⟨s', a1, a2, by rw [a3], by rw [a4], by rw [a3, a4], fun _ => ⟨?_, a6, ?_⟩, by omega⟩
      · intro m h3 h4
        rw [a4] at h3 h4
        exact ⟨_, by rw [a7, if_pos (by omega)]⟩
      · intro ht m id hm
        rw [a3, a4]
        rw [a7] at hm
        split_ifs at hm with h3
        · omega
        · have := ht.1 _ _ hm; omega
  · rw [if_neg h1]
    exact ⟨s, rfl, h, rfl, rfl, rfl, by omega, fun _ => rfl⟩

/-! ### pushing and popping -/

theorem pos_shift {B : ℕ} {x y : It} (h : x.off = y.off) :
    (pos B x : ℤ) = pos B y + ((x.node : ℤ) - y.node) * B := by
  unfold pos
  push_cast
  rw [h, Int.sub_mul]
  omega

theorem pushFront_ok {B : ℕ} {s : St α} {l : List α} (hB : 2 ≤ B) (h : Inv B s l) (v : α) :
    ∃ s', pushFront B s v = some s' ∧ Inv B s' (v :: l) ∧ (Tight s → Tight s') ∧
      ∃ d : ℤ, (pos B s'.b : ℤ) = pos B s.b - 1 + d * B := by
  unfold pushFront
  by_cases h1 : s.b.off ≠ 0
  · rw [if_pos h1]
    have hx : At B s (pos B s.b - 1) { s.b with off := s.b.off - 1 } :=
      ⟨by have := h.boff; simp only; omega, by unfold pos; simp only; omega, h.bbuf⟩
    have hp : pos B s.b = pos B s.b - 1 + 1 := by unfold pos; omega
    obtain ⟨s', a1, a2, a3, a4, a5, a6⟩ := grow_front h hp hx h.slot v
    refine ⟨_, bind_some a1, a2, ?_, 0, ?_⟩
    · rintro ⟨t1, t2⟩
      refine ⟨fun m id hm => ?_, ?_⟩
      · have := t1 m id (by rw [← a3]; exact hm)
        show s.b.node ≤ m ∧ m ≤ s'.e.node
        rw [a6]; exact this
      · show s'.live.length + s.b.node = s'.e.node + 1
        rw [a4, a6]; exact t2
    · have := hx.2.1
      simp only
      rw [this]
      unfold pos; omega
  · rw [if_neg h1]
    have h0 : s.b.off = 0 := by omega
    obtain ⟨s1, a1, a2, a3, a4, a5, a6, a7⟩ := requireFront_ok h 1
    obtain ⟨b1, b2, b3, b4⟩ := a6 (by omega)
    have hneed : (1 - s.b.off) / B + 1 = 1 := by
      rw [h0, Nat.div_eq_of_lt (by omega)]
    rw [hneed] at b1 b2 b3 b4
    obtain ⟨id, hid⟩ := b2 (s1.b.node - 1) (by omega) (by omega)
    have hpp : pos B s1.b = (s1.b.node - 1) * B + (B - 1) + 1 := by
      unfold pos
      rw [a3, h0]
      have : s1.b.node * B = (s1.b.node - 1) * B + B := by
        rw [← Nat.succ_mul]; congr 1; omega
      omega
    have hx : At B s1 ((s1.b.node - 1) * B + (B - 1)) ⟨s1.b.node - 1, id, B - 1⟩ :=
      ⟨by simp only; omega, rfl, hid⟩
    have hd : dec B s1 s1.b = some ⟨s1.b.node - 1, id, B - 1⟩ :=
      dec_ok a2 (p := (s1.b.node - 1) * B + (B - 1)) (by rw [← hpp]; exact a2.at_b) hx
    have hs : ∀ n, s1.b.node - 1 ≤ n → n ≤ s1.e.node → ∃ id, s1.map n = some id := by
      intro n h2 h3
      by_cases h4 : s1.b.node ≤ n
      · exact a2.slot n h4 h3
      · exact b2 n (by omega) (by omega)
    obtain ⟨s2, c1, c2, c3, c4, c5, c6⟩ := grow_front a2 hpp hx hs v
    refine ⟨_, (bind_some a1).trans ((bind_some hd).trans (bind_some c1)), c2, ?_,
      (s1.b.node : ℤ) - s.b.node, ?_⟩
    · intro ht
      refine ⟨fun m id' hm => ?_, ?_⟩
      · have := b4 ht m id' (by rw [← c3]; exact hm)
        show s1.b.node - 1 ≤ m ∧ m ≤ s2.e.node
        rw [c6]; omega
      · show s2.live.length + (s1.b.node - 1) = s2.e.node + 1
        rw [c4, c6, b3]
        have := ht.2
        omega
    · have := pos_shift (B := B) a3
      simp only
      rw [hx.2.1]
      omega

theorem pushBack_ok {B : ℕ} {s : St α} {l : List α} (hB : 2 ≤ B) (h : Inv B s l) (v : α) :
    ∃ s', pushBack B s v = some s' ∧ Inv B s' (l ++ [v]) ∧ (Tight s → Tight s') ∧
      ∃ d : ℤ, (pos B s'.b : ℤ) = pos B s.b + d * B := by
  unfold pushBack
  by_cases h1 : s.e.off ≠ B - 1
  · rw [if_pos h1]
    have hx : At B s (pos B s.e + 1) { s.e with off := s.e.off + 1 } :=
      ⟨by have := h.eoff; simp only; omega, by unfold pos; simp only; omega, h.ebuf⟩
    obtain ⟨s', a1, a2, a3, a4, a5, a6, a7⟩ := grow_back h hx v
    refine ⟨_, bind_some a1, a2, ?_, 0, ?_⟩
    · rintro ⟨t1, t2⟩
      refine ⟨fun m id hm => ?_, ?_⟩
      · have := t1 m id (by rw [← a3]; exact hm)
        show s'.b.node ≤ m ∧ m ≤ s.e.node
        rw [a6]; exact this
      · show s'.live.length + s'.b.node = s.e.node + 1
        rw [a4, a6]; exact t2
    · simp only
      rw [a6]
      omega
  · rw [if_neg h1]
    have h0 : s.e.off = B - 1 := by omega
    obtain ⟨s1, a1, a2, a3, a4, a5, a6, a7⟩ := requireBack_ok h 1
    obtain ⟨b2, b3, b4⟩ := a6 (by omega)
    have hneed : (1 - (B - s.e.off - 1)) / B + 1 = 1 := by
      rw [h0, show 1 - (B - (B - 1) - 1) = 1 from by omega, Nat.div_eq_of_lt (by omega)]
    rw [hneed] at b2 b3 b4
    obtain ⟨id, hid⟩ := b2 (s1.e.node + 1) (by omega) (by omega)
    have hx : At B s1 (pos B s1.e + 1) ⟨s1.e.node + 1, id, 0⟩ := by
      refine ⟨by simp only; omega, ?_, hid⟩
      unfold pos
      simp only
      rw [a4, h0, Nat.succ_mul]
      omega
    obtain ⟨s2, c1, c2, c3, c4, c5, c6, c7⟩ := grow_back a2 hx v
    have hi : inc B s2 s2.e = some ⟨s1.e.node + 1, id, 0⟩ := by
      unfold inc
      rw [c7, if_pos (by omega)]
      unfold setNode
      rw [c5, c3, if_pos (a2.lt_size hid), hid]
    refine ⟨_, (bind_some a1).trans ((bind_some c1).trans (bind_some hi)), c2, ?_,
      (s1.b.node : ℤ) - s.b.node, ?_⟩
    · intro ht
      refine ⟨fun m id' hm => ?_, ?_⟩
      · have := b4 ht m id' (by rw [← c3]; exact hm)
        show s2.b.node ≤ m ∧ m ≤ s1.e.node + 1
        rw [c6]; omega
      · show s2.live.length + s2.b.node = s1.e.node + 1 + 1
        rw [c4, c6, b3]
        have := ht.2
        omega
    · have := pos_shift (B := B) a3
      simp only
      rw [c6]
      omega

theorem popFront_ok {B : ℕ} {s : St α} {a : α} {l : List α} (h : Inv B s (a :: l)) :
    ∃ s', popFront B s = some s' ∧ Inv B s' l ∧ (Tight s → Tight s') ∧
      (pos B s'.b : ℤ) = pos B s.b + 1 := by
  have hlen := h.len
  rw [List.length_cons] at hlen
  obtain ⟨x, hx⟩ := h.exists_at (p := pos B s.b + 1) (by omega) (by omega)
  obtain ⟨s1, a1, a2, a3, a4, a5, a6, a7⟩ := cut_front h hx
  unfold popFront
  by_cases h1 : s.b.off ≠ B - 1
  · rw [if_pos h1]
    have hx' : At B s (pos B s.b + 1) { s.b with off := s.b.off + 1 } :=
      ⟨by have := h.boff; simp only; omega, by unfold pos; simp only; omega, h.bbuf⟩
    have hxe := hx.unique hx'
    subst hxe
    refine ⟨_, bind_some a1, a2, ?_, ?_⟩
    · rintro ⟨t1, t2⟩
      refine ⟨fun m id hm => ?_, ?_⟩
      · have := t1 m id (by rw [← a3]; exact hm)
        show s.b.node ≤ m ∧ m ≤ s1.e.node
        rw [a6]; exact this
      · show s1.live.length + s.b.node = s1.e.node + 1
        rw [a4, a6]; exact t2
    · have := hx.2.1
      simp only
      rw [this]; omega
  · rw [if_neg h1]
    have h0 : s.b.off = B - 1 := by omega
    have hB0 := h.boff
    have e1 : x.node = s.b.node + 1 ∧ x.off = 0 := by
      refine pos_inj hx.1 (by omega) ?_
      have := hx.2.1
      unfold pos at this
      rw [this, h0, Nat.succ_mul]
      omega
    have hi : inc B s1 s1.b = some x := by
      unfold inc setNode
      rw [a7, if_pos (by omega), a3, a5]
      have := hx.2.2
      rw [e1.1] at this
      rw [if_pos (h.lt_size this), this]
      cases x; simp only at e1; rw [e1.1, e1.2]
    have hsz := h.lt_size h.bbuf
    obtain ⟨s2, c1, c2, c3, c4, c5, c6, c7⟩ := freeSlot_ok a2 (n := x.node - 1)
      (by show _ < s1.mapSize; rw [a5]; omega) (Or.inl (by show _ < x.node; omega))
    refine ⟨s2, (bind_some a1).trans ((bind_some hi).trans c1), c2, ?_, ?_⟩
    · rintro ⟨t1, t2⟩
      have hxn : x.node - 1 = s.b.node := by omega
      refine ⟨fun m id hm => ?_, ?_⟩
      · rw [c3] at hm
        by_cases hmn : m = x.node - 1
        · rw [hmn, upd_same] at hm; cases hm
        · rw [upd_ne _ _ hmn] at hm
          have hm : s1.map m = some id := hm
          rw [a3] at hm
          have := t1 m id hm
          rw [c4, c5]
          show x.node ≤ m ∧ m ≤ s1.e.node
          rw [a6]; omega
      · rw [c7, c4, c5]
        show (match s1.map (x.node - 1) with | none => s1.live | some id => s1.live.erase id).length + x.node = s1.e.node + 1
        have : s1.map (x.node - 1) = some s.b.buf := by rw [a3, hxn, h.bbuf]
        rw [this]
        simp only
        have hin : s.b.buf ∈ s1.live := by rw [a4]; exact h.livemap _ _ h.bbuf
        rw [List.length_erase_of_mem hin, a6, a4]
        have : 0 < s.live.length := List.length_pos_of_mem (h.livemap _ _ h.bbuf)
        omega
    · rw [c4]
      show (pos B x : ℤ) = _
      rw [hx.2.1]; omega

theorem popBack_ok {B : ℕ} {s : St α} {a : α} {l : List α} (h : Inv B s (l ++ [a])) :
    ∃ s', popBack B s = some s' ∧ Inv B s' l ∧ (Tight s → Tight s') ∧
      (pos B s'.b : ℤ) = pos B s.b := by
  have hlen := h.len
  rw [List.length_append, List.length_singleton] at hlen
  obtain ⟨x, hx⟩ := h.exists_at (p := pos B s.e - 1) (by omega) (by omega)
  have hpe : pos B s.e = pos B s.e - 1 + 1 := by omega
  obtain ⟨s1, a1, a2, a3, a4, a5, a6, a7⟩ := cut_back h hpe hx
  unfold popBack
  by_cases h1 : s.e.off ≠ 0
  · rw [if_pos h1]
    have hx' : At B s (pos B s.e - 1) { s.e with off := s.e.off - 1 } :=
      ⟨by have := h.eoff; simp only; omega, by unfold pos; simp only; omega, h.ebuf⟩
    have hxe := hx.unique hx'
    subst hxe
    refine ⟨_, a1, a2, ?_, by rw [a7]⟩
    rintro ⟨t1, t2⟩
    refine ⟨fun m id hm => ?_, ?_⟩
    · have := t1 m id (by rw [← a3]; exact hm)
      rw [a6, a7]; exact this
    · rw [a4, a6, a7]; exact t2
  · rw [if_neg h1]
    have hd : dec B s s.e = some x := dec_ok h (p := pos B s.e - 1) (by rw [← hpe]; exact h.at_e) hx
    have h0 : s.e.off = 0 := by omega
    have hxn : x.node + 1 = s.e.node := by
      have e1 := hx.2.1
      have hne : s.e.node ≠ 0 := by
        intro hz
        have : pos B s.e = 0 := by unfold pos; rw [hz, h0, Nat.zero_mul]
        omega
      have hB0 := h.eoff
      have := pos_inj (n := x.node) (m := s.e.node - 1) (o' := B - 1) hx.1 (by omega) (by
        unfold pos at e1
        rw [e1, h0]
        have : s.e.node * B = (s.e.node - 1) * B + B := by
          rw [← Nat.succ_mul]; congr 1; omega
        omega)
      omega
    have hsz := h.lt_size h.ebuf
    obtain ⟨s2, c1, c2, c3, c4, c5, c6, c7⟩ := freeSlot_ok a2 (n := x.node + 1)
      (by rw [a5]; omega) (Or.inr (by rw [a6]; omega))
    refine ⟨s2, (bind_some hd).trans ((bind_some a1).trans c1), c2, ?_, by rw [c4, a7]⟩
    rintro ⟨t1, t2⟩
    refine ⟨fun m id hm => ?_, ?_⟩
    · rw [c3] at hm
      by_cases hmn : m = x.node + 1
      · rw [hmn, upd_same] at hm; cases hm
      · rw [upd_ne _ _ hmn, a3] at hm
        have := t1 m id hm
        rw [c4, c5, a6, a7]; omega
    · rw [c7, c4, c5, a6, a7, a3, hxn, h.ebuf]
      simp only
      rw [a4, List.length_erase_of_mem (h.livemap _ _ h.ebuf)]
      have : 0 < s.live.length := List.length_pos_of_mem (h.livemap _ _ h.ebuf)
      omega

end Verif.Deque
