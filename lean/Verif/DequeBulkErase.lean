import Verif.DequeBulkFill
import Verif.DequeMid
/-!
# Erasing a range
-/
namespace Verif.Deque

variable {α : Type}

theorem At.buf_iff {B : ℕ} {s : St α} {f : ℕ → Option α} (g : G B s f) {p q : ℕ} {x y : It} (hx : At B s p x) (hy : At B s q y) : x.buf = y.buf ↔ x.node = y.node := by
  constructor
  · intro h
    exact g.inj _ _ _ hx.2.2 (h ▸ hy.2.2)
  · intro h
    have := hx.2.2
    rw [h, hy.2.2] at this
    exact (Option.some.inj this).symm

theorem destroySpan_ok {B : ℕ} {s : St α} {f : ℕ → Option α} (g : G B s f) {p q : ℕ} {x y : It} (hx : At B s p x) (hy : At B s q y) (hpq : p ≤ q)
    (hs : ∀ r, p ≤ r → r < q → (f r).isSome) (triv : Bool) (ht : triv = true ∨ x.node = y.node) :
    ∃ s', destroySpan triv B s x y = some s' ∧ G B s' (fun r => if p ≤ r ∧ r < q then none else f r) ∧ Fix s s' ∧ s'.b = s.b ∧ s'.e = s.e := by
  have hx2 : x.node * B + x.off = p := hx.2.1
  have hy2 : y.node * B + y.off = q := hy.2.1
  unfold destroySpan
  by_cases h : triv = true
  · rw [if_pos h]
    refine ⟨_, rfl, ⟨g.outside, g.livemap, g.inj, g.nodup, g.fresh, fun n id o hn ho => ?_⟩, Fix.refl _, rfl, rfl⟩
    have hc := g.cells n id o hn ho
    have hlt : n < s.mapSize := by
      by_contra hc'
      rw [show s.map n = none from g.outside n (by omega)] at hn
      cases hn
    show (if _ then _ else _) = (if _ then _ else _)
    by_cases h2 : p ≤ n * B + o ∧ n * B + o < q
    · rw [if_pos h2, if_pos ⟨n, hlt, hn, by omega, by omega⟩]
    · rw [if_neg h2, if_neg]
      · exact hc
      · rintro ⟨m, hm1, hm2, hm3, hm4⟩
        have e : m = n := g.inj _ _ _ hm2 hn
        subst e
        exact h2 ⟨by omega, by omega⟩
  · rw [if_neg h]
    have hnode : x.node = y.node := ht.resolve_left h
    have hbuf := (At.buf_iff g hx hy).2 hnode
    rw [hnode] at hx2
    have hoff : x.off ≤ y.off := by omega
    rw [if_pos ⟨hbuf, hoff⟩]
    have hyo := hy.1
    obtain ⟨s', a1, a2, a3⟩ := destroyRange_ok (B := B) (y.off - x.off) s x.buf x.off (g.livemap _ _ hx.2.2) (by omega) (by
      intro r h1 h2
      rw [g.cells _ _ r hx.2.2 (by omega), hnode]
      exact hs _ (by omega) (by omega))
    have hf : Fix s s' := by rw [a2]; exact Fix.refl s
    refine ⟨s', a1, ⟨?_, ?_, ?_, ?_, ?_, ?_⟩, hf, by rw [a2], by rw [a2]⟩
    · rw [hf.1, hf.2.2.1]; exact g.outside
    · rw [hf.1, hf.2.1]; exact g.livemap
    · rw [hf.1]; exact g.inj
    · rw [hf.2.1]; exact g.nodup
    · rw [hf.2.1, hf.2.2.2]; exact g.fresh
    · rw [hf.1]
      intro n id o hn ho
      rw [a3]
      have hc := g.cells n id o hn ho
      by_cases h2 : id = x.buf ∧ x.off ≤ o ∧ o < x.off + (y.off - x.off)
      · obtain ⟨h3, h4, h5⟩ := h2
        have e : n = x.node := g.inj _ _ _ hn (h3 ▸ hx.2.2)
        rw [hnode] at e
        subst e
        rw [if_pos ⟨h3, h4, h5⟩, if_pos ⟨by omega, by omega⟩]
      · rw [if_neg h2, if_neg, hc]
        rintro ⟨h3, h4⟩
        apply h2
        have e1 : y.node ≤ n := node_le (B := B) (o := o) (o' := x.off) ho (by omega)
        have e2 : n ≤ y.node := node_le (B := B) (o := y.off) (o' := o) hyo (by omega)
        have e : n = y.node := by omega
        subst e
        refine ⟨?_, by omega, by omega⟩
        have := hy.2.2
        rw [hn] at this
        rw [hbuf]; exact Option.some.inj this

theorem destroySpan_none {B : ℕ} {s : St α} {f : ℕ → Option α} (g : G B s f) {p q : ℕ} {x y : It} (hx : At B s p x) (hy : At B s q y) (h : x.node ≠ y.node) :
    destroySpan false B s x y = none := by
  unfold destroySpan
  rw [if_neg (by decide), if_neg]
  rintro ⟨h1, _⟩
  exact h ((At.buf_iff g hx hy).1 h1)

theorem cell_del {l : List α} {i j P p : ℕ} (hij : i ≤ j) (hj : j ≤ l.length) :
    cell (l.take i ++ l.drop j) P p = if p < P then none else if p < P + i then l[p - P]? else l[p - P + (j - i)]? := by
  unfold cell
  split_ifs with h1 h2
  · rfl
  · rw [List.getElem?_append_left (by rw [List.length_take]; omega), List.getElem?_take_of_lt (by omega)]
  · rw [List.getElem?_append_right (by rw [List.length_take]; omega), List.length_take, List.getElem?_drop]
    congr 1; omega

theorem length_del {l : List α} {i j : ℕ} (hij : i ≤ j) (hj : j ≤ l.length) : (l.take i ++ l.drop j).length = l.length - (j - i) := by
  rw [List.length_append, List.length_take, List.length_drop]; omega

theorem eraseFront_ok {B : ℕ} {s : St α} {l : List α} (h : Inv B s l) {i j : ℕ} (hij : i ≤ j) (hj : j ≤ l.length) {x y : It}
    (hx : At B s (pos B s.b + i) x) (hy : At B s (pos B s.b + j) y) (triv : Bool) :
    ((triv = true ∨ s.b.off + (j - i) < B) → ∃ s', eraseFront triv B s x y (j - i) = some s' ∧ Inv B s' (l.take i ++ l.drop j)) ∧
      (triv = false → B ≤ s.b.off + (j - i) → eraseFront triv B s x y (j - i) = none) := by
  have hg := h.g
  have hb := h.at_b
  have he := h.at_e
  rw [← h.len] at he
  have hH := h.has
  have hbo := h.boff
  have hbp : s.b.node * B + s.b.off = pos B s.b := rfl
  generalize hP : pos B s.b = P at *
  have d1 : (diff B x s.b).toNat = i := by rw [diff_ok hx hb]; omega
  obtain ⟨z, hz⟩ := hH (P + (j - i)) (by omega) (by omega)
  obtain ⟨s1, a1, a3, a4, a5, a6⟩ := copyDown_G i (P := P) (Q := P + (j - i)) (x := x) (y := y) hg hx (by rw [show P + (j - i) + i = P + j by omega]; exact hy) (by omega) (hH.mono (by omega) (by omega))
    (fun r h1 h2 => cell_some (by omega) (by omega))
  have c1 : add B s1 s1.b ((j - i : ℕ) : ℤ) = some z := by rw [a5]; exact a3.add (a4.at hb) (a4.at hz) (by omega)
  have hzp : z.node * B + z.off = P + (j - i) := hz.2.1
  have hzo := hz.1
  have hn : s.b.node ≤ z.node := node_le (B := B) (o := z.off) (o' := s.b.off) hzo (by omega)
  constructor
  · intro ht
    obtain ⟨s2, b1, b2, b3, b4, b5⟩ := destroySpan_ok (p := P) (q := P + (j - i)) (x := s1.b) (y := z) a3 (by rw [a5]; exact a4.at hb) (a4.at hz) (by omega)
      (fun r h1 h2 => by
        unfold ovr
        rw [if_neg (by omega)]
        exact cell_some (by omega) (by omega)) triv (ht.imp_right (fun h1 => by
          rw [a5]
          have : z.node ≤ s.b.node := node_le (B := B) (n := s.b.node) (m := z.node) (o := s.b.off + (j - i)) (o' := z.off) h1 (by omega)
          omega))
    refine ⟨{ s2 with b := z }, ?_, ?_⟩
    · unfold eraseFront
      rw [d1, bind_some a1, bind_some c1, bind_some b1]
    · have t4 := a4.trans b3
      have e0 : P + (j - i) + (l.take i ++ l.drop j).length = P + l.length := by rw [length_del hij hj]; omega
      refine Inv.ofG (P := P + (j - i)) ((b2.setB z).congr fun p => ?_) (t4.at hz) ?_ ?_
      · rw [cell_del hij hj]
        unfold ovr cell
        simp only
        split_ifs <;> first | (exfalso; omega) | rfl | (congr 1; omega)
      · rw [e0]
        show At B s2 _ s2.e
        rw [b5, a6]; exact t4.at he
      · rw [e0]
        exact t4.has (hH.mono (by omega) (by omega))
  · intro ht h1
    subst ht
    unfold eraseFront
    rw [d1, bind_some a1, bind_some c1, destroySpan_none a3 (by rw [a5]; exact a4.at hb) (a4.at hz)]
    · rfl
    · rw [a5]
      intro e
      rw [e] at hbp
      omega

theorem eraseBack_ok {B : ℕ} {s : St α} {l : List α} (h : Inv B s l) {i j : ℕ} (hij : i ≤ j) (hj : j ≤ l.length) {x y : It}
    (hx : At B s (pos B s.b + i) x) (hy : At B s (pos B s.b + j) y) (triv : Bool) :
    ((triv = true ∨ j - i ≤ s.e.off) → ∃ s', eraseBack triv B s x y (j - i) = some s' ∧ Inv B s' (l.take i ++ l.drop j)) ∧
      (triv = false → s.e.off < j - i → eraseBack triv B s x y (j - i) = none) := by
  have hg := h.g
  have hb := h.at_b
  have he := h.at_e
  have hlen := h.len
  rw [← h.len] at he
  have hH := h.has
  have heo := h.eoff
  have hep : s.e.node * B + s.e.off = pos B s.e := rfl
  generalize hP : pos B s.b = P at *
  have d1 : (diff B s.e y).toNat = l.length - j := by rw [diff_ok he hy]; omega
  obtain ⟨z, hz⟩ := hH (P + l.length - (j - i)) (by omega) (by omega)
  obtain ⟨s1, a1, a3, a4, a5, a6⟩ := copyUp_G (l.length - j) hg hy hx (by omega) (hH.mono (by omega) (by omega))
    (fun r h1 h2 => cell_some (by omega) (by omega))
  have c1 : add B s1 s1.e (-((j - i : ℕ) : ℤ)) = some z := by rw [a6]; exact a3.add (a4.at he) (a4.at hz) (by omega)
  have hzp : z.node * B + z.off = P + l.length - (j - i) := hz.2.1
  have hzo := hz.1
  have hn : z.node ≤ s.e.node := node_le (B := B) (o := s.e.off) (o' := z.off) heo (by omega)
  constructor
  · intro ht
    obtain ⟨s2, b1, b2, b3, b4, b5⟩ := destroySpan_ok (p := P + l.length - (j - i)) (q := P + l.length) (x := z) (y := s1.e) a3 (a4.at hz) (by rw [a6]; exact a4.at he) (by omega)
      (fun r h1 h2 => by
        unfold ovr
        rw [if_neg (by omega)]
        exact cell_some (by omega) (by omega)) triv (ht.imp_right (fun h1 => by
          rw [a6]
          have : s.e.node ≤ z.node := node_le (B := B) (n := z.node) (m := s.e.node) (o := z.off) (o' := s.e.off - (j - i)) hzo (by omega)
          omega))
    refine ⟨{ s2 with e := z }, ?_, ?_⟩
    · unfold eraseBack
      rw [d1, bind_some a1, bind_some c1, bind_some b1]
    · have t4 := a4.trans b3
      have e0 : P + (l.take i ++ l.drop j).length = P + l.length - (j - i) := by rw [length_del hij hj]; omega
      refine Inv.ofG (P := P) ((b2.setE z).congr fun p => ?_) ?_ ?_ ?_
      · rw [cell_del hij hj]
        unfold ovr cell
        simp only
        split_ifs <;> first | (exfalso; omega) | rfl | exact List.getElem?_eq_none (by omega) | exact (List.getElem?_eq_none (by omega)).symm | (rw [List.getElem?_eq_none (by omega), List.getElem?_eq_none (by omega)]) | (congr 1; omega)
      · show At B s2 _ s2.b
        rw [b4, a5]; exact t4.at hb
      · rw [e0]
        exact t4.at hz
      · rw [e0]
        exact t4.has (hH.mono (by omega) (by omega))
  · intro ht h1
    subst ht
    unfold eraseBack
    rw [d1, bind_some a1, bind_some c1, destroySpan_none a3 (a4.at hz) (by rw [a6]; exact a4.at he)]
    · rfl
    · rw [a6]
      intro e
      rw [e] at hzp
      omega

/-- Whether `erase(begin() + i, begin() + j)` destroys inside one buffer. -/
def OneBuffer (B : ℕ) (s : St α) (len i j : ℕ) : Prop :=
  if i < (len - (j - i)) / 2 then s.b.off + (j - i) < B else j - i ≤ s.e.off

theorem eraseRange_ok {B : ℕ} {s : St α} {l : List α} (h : Inv B s l) {i j : ℕ} (hij : i ≤ j) (hj : j ≤ l.length) (triv : Bool) :
    ((triv = true ∨ (i = 0 ∧ j = l.length) ∨ OneBuffer B s l.length i j) → ∃ s', eraseRange triv B s i j = some s' ∧ Inv B s' (l.take i ++ l.drop j)) ∧
      (triv = false → ¬(i = 0 ∧ j = l.length) → ¬OneBuffer B s l.length i j → eraseRange triv B s i j = none) := by
  have hl := h.len
  obtain ⟨x, hx⟩ := h.has (pos B s.b + i) (by omega) (by omega)
  obtain ⟨y, hy⟩ := h.has (pos B s.b + j) (by omega) (by omega)
  have c1 : add B s s.b i = some x := h.g.add h.at_b hx (by omega)
  have c2 : add B s s.b j = some y := h.g.add h.at_b hy (by omega)
  have d1 : (diff B x s.b).toNat = i := by rw [diff_ok hx h.at_b]; omega
  have d3 : (diff B y x).toNat = j - i := by rw [diff_ok hy hx]; omega
  have d2 : (size B s).toNat = l.length := by rw [size_ok h]; rfl
  have e : eraseRange triv B s i j = if i = 0 ∧ j = l.length then clear B s else
      if i < (l.length - (j - i)) / 2 then eraseFront triv B s x y (j - i) else eraseBack triv B s x y (j - i) := by
    unfold eraseRange
    rw [bind_some c1, bind_some c2, itEq_ok h hx h.at_b, itEq_ok h hy h.at_e, d1, d2, d3]
    refine if_congr ?_ rfl rfl
    simp only [decide_eq_true_eq]
    omega
  rw [e]
  by_cases hw : i = 0 ∧ j = l.length
  · rw [if_pos hw]
    constructor
    · intro _
      obtain ⟨s', a1, a2, _⟩ := clear_ok h
      refine ⟨s', a1, ?_⟩
      rw [hw.1, hw.2, List.take_zero, List.drop_length]
      exact a2
    · intro _ h1; exact absurd hw h1
  · rw [if_neg hw]
    unfold OneBuffer
    split_ifs with h1
    · obtain ⟨k1, k2⟩ := eraseFront_ok h hij hj hx hy triv
      exact ⟨fun t => k1 (by tauto), fun t _ h2 => k2 t (by omega)⟩
    · obtain ⟨k1, k2⟩ := eraseBack_ok h hij hj hx hy triv
      exact ⟨fun t => k1 (by tauto), fun t _ h2 => k2 t (by omega)⟩

theorem OneBuffer.of_empty {B : ℕ} {s : St α} {l : List α} (h : Inv B s l) {i j : ℕ} (hij : i = j) : OneBuffer B s l.length i j := by
  have := h.boff
  unfold OneBuffer
  split_ifs <;> omega

theorem resize_ok {B : ℕ} {s : St α} {l : List α} (h : Inv B s l) (n : ℕ) (v : α) (triv : Bool) (ht : triv = true ∨ l.length ≤ n ∨ n = 0) :
    ∃ s', resize triv B s n v = some s' ∧ Inv B s' (l.take n ++ List.replicate (n - l.length) v) := by
  have d2 : (size B s).toNat = l.length := by rw [size_ok h]; rfl
  unfold resize
  rw [d2]
  split_ifs with h1
  · obtain ⟨s', a1, a2⟩ := (eraseRange_ok h (i := n) (j := l.length) (by omega) (Nat.le_refl _) triv).1 (by
      rcases ht with h1 | h1 | h1
      · exact Or.inl h1
      · exact Or.inr (Or.inr (OneBuffer.of_empty h (by omega)))
      · exact Or.inr (Or.inl ⟨h1, rfl⟩))
    refine ⟨s', a1, ?_⟩
    rw [show n - l.length = 0 by omega]
    rw [List.drop_length] at a2
    exact a2
  · obtain ⟨s', a1, a2⟩ := insertFill_ok h (Nat.le_refl _) (n - l.length) v
    refine ⟨s', a1, ?_⟩
    rw [List.take_of_length_le (by omega)]
    rw [List.take_length, List.drop_length, List.append_nil] at a2
    exact a2

/-- Overwriting the first elements. -/
theorem writeList_inv {B : ℕ} {s : St α} {l : List α} (h : Inv B s l) (vs : List α) (hv : vs.length ≤ l.length) :
    ∃ s' y, writeList B s s.b vs = some (s', y) ∧ Inv B s' (vs ++ l.drop vs.length) ∧ At B s' (pos B s'.b + vs.length) y := by
  have hl := h.len
  obtain ⟨s', y, a1, a2, a3, a4, a5, a6⟩ := writeList_ok vs h.g h.at_b (h.has.mono (by omega) (by omega)) (fun j hj => cell_some (by omega) (by omega))
  have e0 : (vs ++ l.drop vs.length).length = l.length := by rw [List.length_append, List.length_drop]; omega
  refine ⟨s', y, a1, ?_, by rw [a5]; exact a2⟩
  refine Inv.ofG (P := pos B s.b) (a3.congr fun p => ?_) (by rw [a5]; exact a4.at h.at_b) (by rw [a6, e0, hl]; exact a4.at h.at_e) (by rw [e0]; exact a4.has h.has)
  unfold cell ovr
  simp only
  by_cases h1 : p < pos B s.b
  · rw [if_pos h1, if_neg (by omega), if_pos h1]
  rw [if_neg h1]
  by_cases h2 : p < pos B s.b + vs.length
  · rw [if_pos (by omega), List.getElem?_append_left (by omega)]
  · rw [if_neg (by omega), List.getElem?_append_right (by omega), List.getElem?_drop, if_neg h1]
    congr 1; omega

theorem assignList_ok {B : ℕ} {s : St α} {l : List α} (h : Inv B s l) (vs : List α) (triv : Bool) (ht : triv = true ∨ l.length ≤ vs.length ∨ vs.length = 0) :
    ∃ s', assignList triv B s vs = some s' ∧ Inv B s' vs := by
  have d2 : (size B s).toNat = l.length := by rw [size_ok h]; rfl
  unfold assignList
  rw [d2]
  split_ifs with h1
  · have e0 : (vs.take l.length).length = l.length := by rw [List.length_take]; omega
    obtain ⟨s1, y, a1, a2, a3⟩ := writeList_inv h (vs.take l.length) (by omega)
    rw [e0, List.drop_length, List.append_nil] at a2
    have d3 : (size B s1).toNat = l.length := by rw [size_ok a2, e0]; rfl
    obtain ⟨s', b1, b2⟩ := insertRange_ok a2 (i := l.length) (by omega) (vs.drop l.length)
    refine ⟨s', ?_, ?_⟩
    · rw [bind_some a1]
      show insertRange B s1 (size B s1).toNat _ = _
      rw [d3]; exact b1
    · have t1 : (vs.take l.length).take l.length = vs.take l.length := List.take_of_length_le (by omega)
      have t2 : (vs.take l.length).drop l.length = [] := List.drop_of_length_le (by omega)
      rw [t1, t2, List.append_nil, List.take_append_drop] at b2
      exact b2
  · obtain ⟨s1, y, a1, a2, a3⟩ := writeList_inv h vs (by omega)
    have e0 : (vs ++ l.drop vs.length).length = l.length := by rw [List.length_append, List.length_drop]; omega
    have d3 : (size B s1).toNat = l.length := by rw [size_ok a2, e0]; rfl
    have d4 : (diff B y s1.b).toNat = vs.length := by rw [diff_ok a3 a2.at_b]; omega
    obtain ⟨s', b1, b2⟩ := (eraseRange_ok a2 (i := vs.length) (j := l.length) (by omega) (by omega) triv).1 (by
      rcases ht with h1 | h1 | h1
      · exact Or.inl h1
      · exact Or.inr (Or.inr (OneBuffer.of_empty a2 (by omega)))
      · exact Or.inr (Or.inl ⟨h1, e0.symm⟩))
    refine ⟨s', ?_, ?_⟩
    · rw [bind_some a1]
      show eraseRange triv B s1 (diff B y s1.b).toNat (size B s1).toNat = _
      rw [d3, d4]; exact b1
    · rw [List.take_left, List.drop_of_length_le (by omega), List.append_nil] at b2
      exact b2

theorem assignFill_ok {B : ℕ} {s : St α} {l : List α} (h : Inv B s l) (n : ℕ) (v : α) (triv : Bool) (ht : triv = true ∨ l.length ≤ n ∨ n = 0) :
    ∃ s', assignFill triv B s n v = some s' ∧ Inv B s' (List.replicate n v) := by
  have d2 : (size B s).toNat = l.length := by rw [size_ok h]; rfl
  have d4 : ∀ {s : St α} {l : List α}, Inv B s l → (diff B s.e s.b).toNat = l.length := fun {s l} h => by
    have := size_ok h
    unfold size at this
    rw [this]; rfl
  unfold assignFill
  rw [d2]
  split_ifs with h1
  · obtain ⟨s1, y, a1, a2, a3⟩ := writeList_inv h (List.replicate l.length v) (by rw [List.length_replicate])
    rw [List.length_replicate, List.drop_length, List.append_nil] at a2
    have d3 : (size B s1).toNat = l.length := by rw [size_ok a2, List.length_replicate]; rfl
    obtain ⟨s', b1, b2⟩ := insertFill_ok a2 (i := l.length) (by rw [List.length_replicate]) (n - l.length) v
    refine ⟨s', ?_, ?_⟩
    · rw [d4 h, fillUp_eq, a1]
      show insertFill B s1 (size B s1).toNat (n - (size B s1).toNat) v = _
      rw [d3]; exact b1
    · rw [List.take_of_length_le (by rw [List.length_replicate]), List.drop_of_length_le (by rw [List.length_replicate]), List.append_nil, List.replicate_append_replicate, show l.length + (n - l.length) = n by omega] at b2
      exact b2
  · obtain ⟨s1, b1, b2⟩ := (eraseRange_ok h (i := n) (j := l.length) (by omega) (Nat.le_refl _) triv).1 (by
      rcases ht with h1 | h1 | h1
      · exact Or.inl h1
      · exact Or.inr (Or.inr (OneBuffer.of_empty h (by omega)))
      · exact Or.inr (Or.inl ⟨h1, rfl⟩))
    rw [List.drop_length, List.append_nil] at b2
    have e0 : (l.take n).length = n := by rw [List.length_take]; omega
    obtain ⟨s', y, a1, a2, a3⟩ := writeList_inv b2 (List.replicate n v) (by rw [List.length_replicate]; omega)
    refine ⟨s', ?_, ?_⟩
    · rw [bind_some b1, fillUp_eq, d4 b2, e0, a1]; rfl
    · rw [List.length_replicate, List.drop_of_length_le (by omega), List.append_nil] at a2
      exact a2

end Verif.Deque
