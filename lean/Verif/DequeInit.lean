import Verif.DequeMid
/-!
# The deque as a list: construction
-/
namespace Verif.Deque

variable {α : Type}

theorem construct_e {B : ℕ} (x : It) (s : St α) (buf off : ℕ) (v : α) :
    construct B { s with e := x } buf off v =
      (construct B s buf off v).map (fun t => { t with e := x }) := by
  unfold construct
  simp only
  split_ifs <;> rfl

theorem construct_same {B : ℕ} {s s' : St α} {buf off : ℕ} {v : α}
    (h : construct B s buf off v = some s') : Same s s' := by
  unfold construct at h
  split_ifs at h
  cases h
  exact ⟨rfl, rfl, rfl, rfl, rfl⟩

theorem mapInit_ok {B : ℕ} (hB : 1 ≤ B) (n : ℕ) :
    ∃ s : St α, mapInit B n = some s ∧ Inv B { s with e := s.b } [] ∧ Tight s ∧ s.b.off = 0 ∧
      s.e.node = s.b.node + n / B ∧ s.e.off = n % B ∧ s.map s.e.node = some s.e.buf ∧
      (∀ m, s.b.node ≤ m → m ≤ s.e.node → ∃ id, s.map m = some id) := by
  generalize hK : n / B + 1 = K
  have hK1 : 1 ≤ K := by rw [← hK]; exact Nat.succ_pos _
  generalize hM : max 8 (K + 2) = M
  have hM' : K + 2 ≤ M := by rw [← hM]; exact Nat.le_max_right _ _
  generalize hS : (M - K) / 2 = st
  obtain ⟨s1, e1, e2, e3, e4, e5, e6, e7, e8, e9, e10⟩ := createBuffer_ok K
    (⟨fun _ => none, M, ⟨0, 0, 0⟩, ⟨0, 0, 0⟩, fun _ _ => none, [], 0⟩ : St α) st
    (by show st + K ≤ M; omega) List.nodup_nil (by intro id hid; cases hid)
  have e4 : s1.mapSize = M := e4
  have e5 : s1.next = K := by rw [e5]; exact Nat.zero_add K
  have e6 : s1.live.length = K := by rw [e6]; exact Nat.zero_add K
  have hmap : ∀ m, s1.map m = if st ≤ m ∧ m < st + K then some (m - st) else none := by
    intro m
    rw [e9]
    show (if _ then some (0 + (m - st)) else none) = _
    rw [Nat.zero_add]
  have hlive : ∀ id, id ∈ s1.live ↔ id < K := by
    intro id
    rw [e8]
    show id ∈ [] ∨ (0 ≤ id ∧ id < 0 + K) ↔ _
    rw [Nat.zero_add]
    constructor
    · rintro (h | h)
      · cases h
      · exact h.2
    · intro h; exact Or.inr ⟨Nat.zero_le _, h⟩
  have hmem : ∀ id o, s1.mem id o = none := by
    intro id o
    rw [e10]
    show (if _ then none else none) = none
    split_ifs <;> rfl
  have f1 : setNode s1 st 0 = some ⟨st, 0, 0⟩ := by
    unfold setNode
    rw [if_pos (by omega), hmap, if_pos (by omega), Nat.sub_self]
  have f2 : setNode s1 (st + K - 1) (n % B) = some ⟨st + K - 1, K - 1, n % B⟩ := by
    unfold setNode
    rw [if_pos (by omega), hmap, if_pos (by omega)]
    simp only
    congr 2; omega
  have hslot : ∀ m, st ≤ m → m ≤ st + K - 1 → ∃ id, s1.map m = some id := by
    intro m h1 h2
    exact ⟨m - st, by rw [hmap, if_pos (by omega)]⟩
  refine ⟨{ s1 with b := ⟨st, 0, 0⟩, e := ⟨st + K - 1, K - 1, n % B⟩ }, ?_, ?_, ?_, rfl, ?_, rfl, ?_, hslot⟩
  · unfold mapInit
    simp only [hK, hM, hS]
    rw [bind_some e1, bind_some f1, bind_some f2]
  · refine ⟨by show 0 < B; omega, by show 0 < B; omega, rfl, ?_, ?_, ?_, ?_, ?_, ?_, e7, ?_, ?_⟩
    · intro m hm
      have hm : s1.mapSize ≤ m := hm
      show s1.map m = none
      rw [hmap, if_neg (by omega)]
    · intro m h1 h2
      have h1 : st ≤ m := h1
      have h2 : m ≤ st := h2
      exact hslot m h1 (by omega)
    · show s1.map st = some 0
      rw [hmap, if_pos (by omega), Nat.sub_self]
    · show s1.map st = some 0
      rw [hmap, if_pos (by omega), Nat.sub_self]
    · intro m id hm
      have hm : s1.map m = some id := hm
      show id ∈ s1.live
      rw [hmap] at hm
      rw [hlive]
      split_ifs at hm
      have := Option.some.inj hm
      omega
    · intro m m' id hm hm'
      have hm : s1.map m = some id := hm
      have hm' : s1.map m' = some id := hm'
      rw [hmap] at hm hm'
      split_ifs at hm hm'
      have := Option.some.inj hm
      have := Option.some.inj hm'
      omega
    · intro id hid
      show id < s1.next
      rw [e5]
      exact (hlive id).1 hid
    · intro m id o _ _
      show s1.mem id o = _
      rw [hmem]
      unfold cell
      split_ifs <;> rfl
  · refine ⟨fun m id hm => ?_, ?_⟩
    · have hm : s1.map m = some id := hm
      rw [hmap] at hm
      show st ≤ m ∧ m ≤ st + K - 1
      split_ifs at hm
      omega
    · show s1.live.length + st = st + K - 1 + 1
      omega
  · show st + K - 1 = st + n / B
    omega
  · show s1.map (st + K - 1) = some (K - 1)
    rw [hmap, if_pos (by omega)]
    congr 1; omega

theorem constructList_ok {B : ℕ} (vs : List α) : ∀ {s : St α} {l : List α} {n id o id2 : ℕ},
    Inv B { s with e := ⟨n, id, o⟩ } l → o + vs.length ≤ B →
    (o + vs.length = B → s.map (n + 1) = some id2) →
    ∃ s', constructList B s id o vs = some s' ∧ Same s s' ∧
      Inv B { s' with e := if o + vs.length = B then ⟨n + 1, id2, 0⟩ else ⟨n, id, o + vs.length⟩ }
        (l ++ vs) := by
  induction vs with
  | nil =>
    intro s l n id o id2 h h1 h2
    have : o < B := h.eoff
    refine ⟨s, rfl, ⟨rfl, rfl, rfl, rfl, rfl⟩, ?_⟩
    rw [if_neg (by rw [List.length_nil]; omega), List.append_nil]
    exact h
  | cons v vs ih =>
    intro s l n id o id2 h h1 h2
    rw [List.length_cons] at h1 h2
    have ho : o < B := h.eoff
    have hx : At B { s with e := ⟨n, id, o⟩ } (pos B ⟨n, id, o⟩ + 1)
        (if o + 1 = B then ⟨n + 1, id2, 0⟩ else ⟨n, id, o + 1⟩) := by
      by_cases hc : o + 1 = B
      · rw [if_pos hc]
        refine ⟨by simp only; omega, ?_, h2 (by omega)⟩
        unfold pos
        simp only
        rw [Nat.succ_mul]; omega
      · rw [if_neg hc]
        exact ⟨by simp only; omega, by unfold pos; simp only; omega, h.ebuf⟩
    obtain ⟨s1, a1, a2, a3, a4, a5, a6, a7⟩ := grow_back h hx v
    have a1 : construct B { s with e := ⟨n, id, o⟩ } id o v = some s1 := a1
    rw [construct_e] at a1
    obtain ⟨t, t1, t2⟩ := Option.map_eq_some_iff.1 a1
    have hS := construct_same t1
    subst t2
    by_cases hc : o + 1 = B
    · rw [if_pos hc] at a2
      have hvs : vs = [] := List.eq_nil_of_length_eq_zero (by omega)
      subst hvs
      refine ⟨t, (bind_some t1).trans rfl, hS, ?_⟩
      rw [if_pos (by show o + (0 + 1) = B; omega)]
      exact a2
    · rw [if_neg hc] at a2
      obtain ⟨s2, b1, b2, b3⟩ := ih (s := t) (id2 := id2) a2 (by omega) (by
        intro hh
        rw [hS.2.2.1]
        exact h2 (by omega))
      refine ⟨s2, (bind_some t1).trans b1, hS.trans b2, ?_⟩
      rw [List.length_cons]
      rw [List.append_assoc, show o + 1 + vs.length = o + (vs.length + 1) from by omega] at b3
      exact b3

theorem copyNodes_ok {B : ℕ} (k : ℕ) : ∀ {s : St α} {don l : List α} {n id : ℕ},
    Inv B { s with e := ⟨n, id, 0⟩ } don → (∀ m, n ≤ m → m ≤ n + k → ∃ id, s.map m = some id) →
    k * B ≤ l.length →
    ∃ s' id', copyNodes B s n k l = some (s', l.drop (k * B)) ∧ Same s s' ∧
      Inv B { s' with e := ⟨n + k, id', 0⟩ } (don ++ l.take (k * B)) := by
  induction k with
  | zero =>
    intro s don l n id h _ _
    refine ⟨s, id, ?_, ⟨rfl, rfl, rfl, rfl, rfl⟩, ?_⟩
    · rw [Nat.zero_mul]; rfl
    · rw [Nat.zero_mul, List.take_zero, List.append_nil]; exact h
  | succ k ih =>
    intro s don l n id h h1 h2
    rw [Nat.succ_mul] at h2
    obtain ⟨id2, hid2⟩ := h1 (n + 1) (by omega) (by omega)
    have hlt : (l.take B).length = B := by rw [List.length_take]; omega
    obtain ⟨s1, a1, a2, a3⟩ := constructList_ok (l.take B) (id2 := id2) h (by rw [hlt]; omega) (fun _ => hid2)
    rw [if_pos (by rw [hlt]; omega)] at a3
    have e1 : setNode s n 0 = some ⟨n, id, 0⟩ := by
      have hb : s.map n = some id := h.ebuf
      unfold setNode
      rw [if_pos (h.lt_size hb), hb]
    obtain ⟨s2, id', b1, b2, b3⟩ := ih (s := s1) (l := l.drop B) a3 (by
      intro m h3 h4
      rw [a2.2.2.1]
      exact h1 m (by omega) (by omega)) (by rw [List.length_drop]; omega)
    refine ⟨s2, id', ?_, a2.trans b2, ?_⟩
    · have hd : l.drop ((k + 1) * B) = (l.drop B).drop (k * B) := by
        rw [List.drop_drop, Nat.succ_mul, Nat.add_comm]
      rw [hd]
      show (setNode s n 0 >>= _) = _
      rw [bind_some e1]
      show (constructList B s id 0 (l.take B) >>= _) = _
      rw [bind_some a1]
      exact b1
    · rw [show n + (k + 1) = n + 1 + k from by omega, Nat.succ_mul, Nat.add_comm (k * B),
        List.take_add, ← List.append_assoc]
      exact b3

theorem ofList_ok {B : ℕ} (hB : 1 ≤ B) (l : List α) :
    ∃ s, ofList B l = some s ∧ Inv B s l ∧ Tight s ∧ s.b.off = 0 := by
  obtain ⟨s, a1, a2, a3, a4, a5, a6, a7, a8⟩ := mapInit_ok (α := α) hB l.length
  have hdm : l.length / B * B + l.length % B = l.length := Nat.div_add_mod' _ _
  have hmod : l.length % B < B := Nat.mod_lt _ (by omega)
  have hk : s.e.node - s.b.node = l.length / B := by rw [a5]; exact Nat.add_sub_cancel_left _ _
  have hb0 : s.b = ⟨s.b.node, s.b.buf, 0⟩ := by rw [← a4]
  rw [hb0] at a2
  have a2' : Inv B { s with e := ⟨s.b.node, s.b.buf, 0⟩ } [] := by
    have hg : ({ s with e := ⟨s.b.node, s.b.buf, 0⟩ } : St α) =
      { s with b := ⟨s.b.node, s.b.buf, 0⟩, e := ⟨s.b.node, s.b.buf, 0⟩ } := by rw [← hb0]
    rw [hg]
    exact a2
  obtain ⟨s1, id', b1, b2, b3⟩ := copyNodes_ok (l.length / B) (l := l) a2' (by
    intro m h1 h2
    exact a8 m h1 (by omega)) (by omega)
  have hlen : (l.drop (l.length / B * B)).length = l.length % B := by rw [List.length_drop]; omega
  have hid : id' = s1.e.buf := by
    have e1 : s1.map (s.b.node + l.length / B) = some id' := b3.ebuf
    rw [b2.2.2.1, ← a5, a7] at e1
    rw [b2.2.1]
    exact (Option.some.inj e1).symm
  obtain ⟨s2, c1, c2, c3⟩ := constructList_ok (l.drop (l.length / B * B)) (id2 := 0) b3
    (by omega) (by omega)
  rw [if_neg (by omega), hlen, Nat.zero_add, List.nil_append, List.take_append_drop] at c3
  have hS := b2.trans c2
  have hse : s2.e = ⟨s.b.node + l.length / B, id', l.length % B⟩ := by
    rw [hS.2.1, hid, b2.2.1, ← a5, ← a6]
  refine ⟨s2, ?_, ?_, hS.tight a3, by rw [hS.1]; exact a4⟩
  · unfold ofList
    rw [bind_some a1, hk, bind_some b1]
    show constructList B s1 s1.e.buf 0 _ = _
    rw [← hid]
    exact c1
  · rw [← hse] at c3
    exact c3

theorem fillNodes_eq {B : ℕ} (v : α) (k r : ℕ) : ∀ (s : St α) (n : ℕ),
    fillNodes B s v n k = (copyNodes B s n k (List.replicate (k * B + r) v)).map Prod.fst := by
  induction k with
  | zero => intro s n; rfl
  | succ k ih =>
    intro s n
    show (setNode s n 0 >>= _) = ((setNode s n 0 >>= _).map _)
    cases setNode s n 0 with
    | none => rfl
    | some it =>
      show (constructList B s it.buf 0 _ >>= _) = ((constructList B s it.buf 0 _ >>= _).map _)
      rw [List.take_replicate, List.drop_replicate,
        show min B ((k + 1) * B + r) = B from by rw [Nat.succ_mul]; omega,
        show (k + 1) * B + r - B = k * B + r from by rw [Nat.succ_mul]; omega]
      cases constructList B s it.buf 0 (List.replicate B v) with
      | none => rfl
      | some t => exact ih t (n + 1)

theorem ofFill_eq {B : ℕ} (hB : 1 ≤ B) (n : ℕ) (v : α) :
    ofFill B n v = ofList B (List.replicate n v) := by
  obtain ⟨s, a1, a2, a3, a4, a5, a6, a7, a8⟩ := mapInit_ok (α := α) hB n
  have hdm : n / B * B + n % B = n := Nat.div_add_mod' _ _
  have hk : s.e.node - s.b.node = n / B := by rw [a5]; exact Nat.add_sub_cancel_left _ _
  unfold ofFill ofList
  rw [List.length_replicate, bind_some a1, bind_some a1, hk]
  by_cases hn : n = 0
  · subst hn
    rw [if_neg (by omega), Nat.zero_div]
    rfl
  · rw [if_pos hn, fillNodes_eq v (n / B) (n % B), hdm]
    cases hc : copyNodes B s s.b.node (n / B) (List.replicate n v) with
    | none => rfl
    | some r =>
      show constructList B r.1 r.1.e.buf 0 (List.replicate (r.1.e.off - 0) v) =
        constructList B r.1 r.1.e.buf 0 r.2
      have hb0 : s.b = ⟨s.b.node, s.b.buf, 0⟩ := by rw [← a4]
      have a2' : Inv B { s with e := ⟨s.b.node, s.b.buf, 0⟩ } [] := by
        have hg : ({ s with e := ⟨s.b.node, s.b.buf, 0⟩ } : St α) =
          { s with e := s.b } := by rw [← hb0]
        rw [hg]
        exact a2
      obtain ⟨s1, id', b1, b2, b3⟩ := copyNodes_ok (n / B) (l := List.replicate n v) a2' (by
        intro m h1 h2
        exact a8 m h1 (by omega)) (by rw [List.length_replicate]; omega)
      rw [hc] at b1
      cases b1
      simp only
      rw [b2.2.1, a6, List.drop_replicate, Nat.sub_zero, show n - n / B * B = n % B from by omega]

end Verif.Deque
