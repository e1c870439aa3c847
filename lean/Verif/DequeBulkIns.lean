import Verif.DequeBulkLemmas
/-!
# Insertion of several elements
-/
namespace Verif.Deque

variable {α : Type}

theorem cell_ins {l vs : List α} {i P p : ℕ} (hi : i ≤ l.length) :
    cell (l.take i ++ vs ++ l.drop i) P p = if p < P then none else if p < P + i then l[p - P]? else if p < P + i + vs.length then vs[p - P - i]? else l[p - P - vs.length]? := by
  unfold cell
  split_ifs with h1 h2 h3
  · rfl
  · rw [List.append_assoc, List.getElem?_append_left (by rw [List.length_take]; omega), List.getElem?_take_of_lt (by omega)]
  · rw [List.append_assoc, List.getElem?_append_right (by rw [List.length_take]; omega), List.length_take, List.getElem?_append_left (by omega), Nat.min_eq_left hi]
  · rw [List.getElem?_append_right (by rw [List.length_append, List.length_take]; omega), List.length_append, List.length_take, Nat.min_eq_left hi, List.getElem?_drop]
    congr 1; omega

theorem length_ins {l vs : List α} {i : ℕ} (hi : i ≤ l.length) : (l.take i ++ vs ++ l.drop i).length = l.length + vs.length := by
  rw [List.length_append, List.length_append, List.length_take, List.length_drop]; omega

theorem cell_some {l : List α} {P p : ℕ} (h1 : P ≤ p) (h2 : p < P + l.length) : (cell l P p).isSome := by
  unfold cell
  rw [if_neg (by omega), List.getElem?_eq_getElem (by omega)]; rfl
theorem cell_none {l : List α} {P p : ℕ} (h : p < P ∨ P + l.length ≤ p) : cell l P p = none := by
  unfold cell
  split_ifs with h1
  · rfl
  · exact List.getElem?_eq_none (by omega)

theorem G.setB {B : ℕ} {s : St α} {f : ℕ → Option α} (g : G B s f) (x : It) : G B { s with b := x } f := ⟨g.outside, g.livemap, g.inj, g.nodup, g.fresh, g.cells⟩
theorem G.setE {B : ℕ} {s : St α} {f : ℕ → Option α} (g : G B s f) (x : It) : G B { s with e := x } f := ⟨g.outside, g.livemap, g.inj, g.nodup, g.fresh, g.cells⟩

theorem copyFront_ok {B : ℕ} {s : St α} {l : List α} (h : Inv B s l) (vs : List α) :
    ∃ s', copyFront B s vs = some s' ∧ Inv B s' (vs ++ l) := by
  obtain ⟨s1, a1, a2, a3, a4⟩ := requireFront_has h vs.length
  obtain ⟨x, hx⟩ := a4 (pos B s1.b - vs.length) (by omega) (by omega)
  obtain ⟨s2, y, b1, b2, b3, b4, b5, b6⟩ := uninitList_ok vs a2.g hx (a4.mono (by omega) (by omega)) (fun i hi => cell_none (Or.inl (by omega)))
  refine ⟨{ s2 with b := x }, ?_, ?_⟩
  · show (requireFront B s vs.length >>= _) = _
    rw [bind_some a1, bind_some (a2.g.add a2.at_b hx (n := -(vs.length : ℤ)) (by omega)), bind_some b1]
  · have e : pos B s1.b - vs.length + (vs ++ l).length = pos B s1.b + l.length := by rw [List.length_append]; omega
    refine Inv.ofG (P := pos B s1.b - vs.length) ((b3.setB x).congr fun p => ?_) (b4.at hx) ?_ ?_
    · have := cell_ins (l := l) (vs := vs) (i := 0) (P := pos B s1.b - vs.length) (p := p) (Nat.zero_le _)
      rw [List.take_zero, List.nil_append, List.drop_zero] at this
      rw [this]
      unfold ovr cell
      split_ifs <;> first | (exfalso; omega) | rfl | (congr 1; omega)
    · rw [e]
      show At B s2 _ s2.e
      rw [b6, a2.len]
      exact b4.at a2.at_e
    · rw [e]; exact b4.has a4

theorem copyBack_ok {B : ℕ} {s : St α} {l : List α} (h : Inv B s l) (vs : List α) :
    ∃ s', copyBack B s vs = some s' ∧ Inv B s' (l ++ vs) := by
  obtain ⟨s1, a1, a2, a4⟩ := requireBack_has h vs.length
  obtain ⟨x, hx⟩ := a4 (pos B s1.b + l.length + vs.length) (by omega) (by omega)
  have hl := a2.len
  obtain ⟨s2, y, b1, b2, b3, b4, b5, b6⟩ := uninitList_ok vs a2.g a2.at_e (a4.mono (by omega) (by omega)) (fun i hi => cell_none (Or.inr (by omega)))
  refine ⟨{ s2 with e := x }, ?_, ?_⟩
  · show (requireBack B s vs.length >>= _) = _
    rw [bind_some a1, bind_some (a2.g.add a2.at_e hx (n := (vs.length : ℤ)) (by omega)), bind_some b1]
  · have e : pos B s1.b + (l ++ vs).length = pos B s1.b + l.length + vs.length := by rw [List.length_append]; omega
    refine Inv.ofG (P := pos B s1.b) ((b3.setE x).congr fun p => ?_) ?_ ?_ ?_
    · have := cell_ins (l := l) (vs := vs) (i := l.length) (P := pos B s1.b) (p := p) (Nat.le_refl _)
      rw [List.take_length, List.drop_length, List.append_nil] at this
      rw [this]
      unfold ovr cell
      split_ifs <;> first | (exfalso; omega) | rfl | (congr 1; omega) | (rw [List.getElem?_eq_none (by omega), List.getElem?_eq_none (by omega)])
    · show At B s2 _ s2.b
      rw [b5]
      exact b4.at a2.at_b
    · rw [e]
      exact b4.at hx
    · rw [e]; exact b4.has a4

theorem copyMidFront_ok {B : ℕ} {s : St α} {l : List α} (h : Inv B s l) {i : ℕ} (hi : i ≤ l.length) (vs : List α) :
    ∃ s', copyMidFront B s i vs = some s' ∧ Inv B s' (l.take i ++ vs ++ l.drop i) := by
  obtain ⟨s1, a1, a2, a3, a4⟩ := requireFront_has h vs.length
  have hl := a2.len
  have hg := a2.g
  generalize hP : pos B s1.b = P at *
  obtain ⟨x, hx⟩ := a4 (P - vs.length) (by omega) (by omega)
  obtain ⟨y, hy⟩ := a4 (P + i) (by omega) (by omega)
  have hb : At B s1 P s1.b := hP ▸ a2.at_b
  have he : At B s1 (P + l.length) s1.e := by rw [hl]; exact a2.at_e
  have c1 : add B s1 s1.b (-(vs.length : ℤ)) = some x := hg.add hb hx (by omega)
  have c2 : add B s1 s1.b i = some y := hg.add hb hy (by omega)
  have e0 : P - vs.length + (l.take i ++ vs ++ l.drop i).length = P + l.length := by rw [length_ins hi]; omega
  by_cases hn : vs.length ≤ i
  · obtain ⟨z, hz⟩ := a4 (P + vs.length) (by omega) (by omega)
    obtain ⟨w, hw⟩ := a4 (P + i - vs.length) (by omega) (by omega)
    have d1 : (diff B z s1.b).toNat = vs.length := by rw [diff_ok hz hb]; omega
    have d2 : (diff B y z).toNat = i - vs.length := by rw [diff_ok hy hz]; omega
    obtain ⟨s2, z2, f1, f2, f3, f4, f5, f6⟩ := uninitCopy_ok vs.length hg hb hx (a4.mono (by omega) (by omega)) (a4.mono (by omega) (by omega))
      (fun j hj => cell_some (by omega) (by omega)) (fun j hj => cell_none (Or.inl (by omega)))
    have f4' : Fix s1 { s2 with b := x } := f4
    obtain ⟨s3, g1, g3, g4, g5, g6⟩ := copyUp_G (i - vs.length) (P := P + vs.length) (Q := P) (f3.setB x) (f4'.at hz) (f4'.at hb) (by omega) (f4'.has (a4.mono (by omega) (by omega)))
      (fun j h1 h2 => by
        unfold ovr
        rw [if_neg (by omega)]
        exact cell_some (by omega) (by omega))
    have t4 := f4'.trans g4
    obtain ⟨s4, z4, k1, k2, k3, k4, k5, k6⟩ := writeList_ok vs g3 (t4.at hw) (t4.has (a4.mono (by omega) (by omega)))
      (fun j hj => by
        unfold ovr
        simp only
        split_ifs <;> first | (exfalso; omega) | exact cell_some (by omega) (by omega))
    have t5 := t4.trans k4
    refine ⟨s4, ?_, ?_⟩
    · show (requireFront B s vs.length >>= _) = _
      rw [bind_some a1, bind_some c1, bind_some c2, if_pos hn, bind_some (hg.add hb hz (n := (vs.length : ℤ)) (by omega)), d1, bind_some f1, d2, bind_some g1,
        bind_some (g3.add (t4.at hy) (t4.at hw) (n := -(vs.length : ℤ)) (by omega)), k1]
      rfl
    · refine Inv.ofG (P := P - vs.length) (k3.congr fun p => ?_) ?_ ?_ ?_
      · rw [cell_ins hi]
        unfold ovr cell
        simp only
        split_ifs <;> first | (exfalso; omega) | rfl | (congr 1; omega)
      · rw [k5, g5]; exact t5.at hx
      · rw [e0, k6, g6]
        show At B s4 _ s2.e
        rw [f6]; exact t5.at he
      · rw [e0]; exact t5.has a4
  · have d1 : (diff B y s1.b).toNat = i := by rw [diff_ok hy hb]; omega
    obtain ⟨s2, z2, f1, f2, f3, f4, f5, f6⟩ := uninitCopy_ok i hg hb hx (a4.mono (by omega) (by omega)) (a4.mono (by omega) (by omega))
      (fun j hj => cell_some (by omega) (by omega)) (fun j hj => cell_none (Or.inl (by omega)))
    have e1 : (vs.take (vs.length - i)).length = vs.length - i := by rw [List.length_take]; omega
    have e2 : (vs.drop (vs.length - i)).length = i := by rw [List.length_drop]; omega
    obtain ⟨s3, z3, g1, g2, g3, g4, g5, g6⟩ := uninitList_ok (vs.take (vs.length - i)) f3 f2 (f4.has (a4.mono (by omega) (by omega)))
      (fun j hj => by
        unfold ovr
        rw [if_neg (by omega)]
        exact cell_none (Or.inl (by omega)))
    have t4 : Fix s1 { s3 with b := x } := f4.trans g4
    obtain ⟨s4, z4, k1, k2, k3, k4, k5, k6⟩ := writeList_ok (vs.drop (vs.length - i)) (g3.setB x) (t4.at hb) (t4.has (a4.mono (by omega) (by omega)))
      (fun j hj => by
        unfold ovr
        rw [if_neg (by omega), if_neg (by omega)]
        exact cell_some (by omega) (by omega))
    have t5 := t4.trans k4
    refine ⟨s4, ?_, ?_⟩
    · show (requireFront B s vs.length >>= _) = _
      rw [bind_some a1, bind_some c1, bind_some c2, if_neg hn, d1, bind_some f1, bind_some g1]
      show (writeList B { s3 with b := x } s1.b _).map _ = _
      rw [k1]
      rfl
    · refine Inv.ofG (P := P - vs.length) (k3.congr fun p => ?_) ?_ ?_ ?_
      · rw [cell_ins hi, e1, e2]
        unfold ovr cell
        simp only [List.getElem?_take, List.getElem?_drop]
        split_ifs <;> first | (exfalso; omega) | rfl | (congr 1; omega)
      · rw [k5]; exact t5.at hx
      · rw [e0, k6]
        show At B s4 _ s3.e
        rw [g6, f6]; exact t5.at he
      · rw [e0]; exact t5.has a4

theorem copyMidBack_ok {B : ℕ} {s : St α} {l : List α} (h : Inv B s l) {i : ℕ} (hi : i ≤ l.length) (vs : List α) :
    ∃ s', copyMidBack B s (l.length - i) vs = some s' ∧ Inv B s' (l.take i ++ vs ++ l.drop i) := by
  obtain ⟨s1, a1, a2, a4⟩ := requireBack_has h vs.length
  have hl := a2.len
  have hg := a2.g
  generalize hP : pos B s1.b = P at *
  obtain ⟨x, hx⟩ := a4 (P + l.length + vs.length) (by omega) (by omega)
  obtain ⟨y, hy⟩ := a4 (P + i) (by omega) (by omega)
  have hb : At B s1 P s1.b := hP ▸ a2.at_b
  have he : At B s1 (P + l.length) s1.e := by rw [hl]; exact a2.at_e
  have c1 : add B s1 s1.e (vs.length : ℤ) = some x := hg.add he hx (by omega)
  have c2 : add B s1 s1.e (-((l.length - i : ℕ) : ℤ)) = some y := hg.add he hy (by omega)
  have e0 : P + (l.take i ++ vs ++ l.drop i).length = P + l.length + vs.length := by rw [length_ins hi]; omega
  by_cases hn : vs.length < l.length - i
  · obtain ⟨z, hz⟩ := a4 (P + l.length - vs.length) (by omega) (by omega)
    have d1 : (diff B s1.e z).toNat = vs.length := by rw [diff_ok he hz]; omega
    have d2 : (diff B z y).toNat = l.length - i - vs.length := by rw [diff_ok hz hy]; omega
    obtain ⟨s2, z2, f1, f2, f3, f4, f5, f6⟩ := uninitCopy_ok vs.length hg hz he (a4.mono (by omega) (by omega)) (a4.mono (by omega) (by omega))
      (fun j hj => cell_some (by omega) (by omega)) (fun j hj => cell_none (Or.inr (by omega)))
    have f4' : Fix s1 { s2 with e := x } := f4
    obtain ⟨s3, g1, g3, g4, g5, g6⟩ := copyDown_G (l.length - i - vs.length) (P := P + i) (Q := P + i + vs.length) (x := z) (y := s1.e) (f3.setE x)
      (by rw [show P + i + (l.length - i - vs.length) = P + l.length - vs.length by omega]; exact f4'.at hz)
      (by rw [show P + i + vs.length + (l.length - i - vs.length) = P + l.length by omega]; exact f4'.at he) (by omega) (f4'.has (a4.mono (by omega) (by omega)))
      (fun j h1 h2 => by
        unfold ovr
        rw [if_neg (by omega)]
        exact cell_some (by omega) (by omega))
    have t4 := f4'.trans g4
    obtain ⟨s4, z4, k1, k2, k3, k4, k5, k6⟩ := writeList_ok vs g3 (t4.at hy) (t4.has (a4.mono (by omega) (by omega)))
      (fun j hj => by
        unfold ovr
        simp only
        split_ifs <;> first | (exfalso; omega) | exact cell_some (by omega) (by omega))
    have t5 := t4.trans k4
    refine ⟨s4, ?_, ?_⟩
    · show (requireBack B s vs.length >>= _) = _
      rw [bind_some a1, bind_some c1, bind_some c2, if_pos hn, bind_some (hg.add he hz (n := -(vs.length : ℤ)) (by omega)), d1, bind_some f1, d2, bind_some g1, k1]
      rfl
    · refine Inv.ofG (P := P) (k3.congr fun p => ?_) ?_ ?_ ?_
      · rw [cell_ins hi]
        unfold ovr cell
        simp only
        split_ifs <;> first | (exfalso; omega) | rfl | (congr 1; omega) | (rw [List.getElem?_eq_none (by omega), List.getElem?_eq_none (by omega)])
      · rw [k5, g5]
        show At B s4 _ s2.b
        rw [f5]; exact t5.at hb
      · rw [e0, k6, g6]; exact t5.at hx
      · rw [e0]; exact t5.has a4
  · have d1 : (diff B s1.e y).toNat = l.length - i := by rw [diff_ok he hy]; omega
    have e1 : (vs.take (l.length - i)).length = l.length - i := by rw [List.length_take]; omega
    have e2 : (vs.drop (l.length - i)).length = vs.length - (l.length - i) := by rw [List.length_drop]
    obtain ⟨s2, z2, f1, f2, f3, f4, f5, f6⟩ := uninitList_ok (vs.drop (l.length - i)) hg he (a4.mono (by omega) (by omega)) (fun j hj => cell_none (Or.inr (by omega)))
    obtain ⟨s3, z3, g1, g2, g3, g4, g5, g6⟩ := uninitCopy_ok (l.length - i) f3 (f4.at hy) f2 (f4.has (a4.mono (by omega) (by omega))) (f4.has (a4.mono (by omega) (by omega)))
      (fun j hj => by
        unfold ovr
        rw [if_neg (by omega)]
        exact cell_some (by omega) (by omega))
      (fun j hj => by
        unfold ovr
        rw [if_neg (by omega)]
        exact cell_none (Or.inr (by omega)))
    have t4 : Fix s1 { s3 with e := x } := f4.trans g4
    obtain ⟨s4, z4, k1, k2, k3, k4, k5, k6⟩ := writeList_ok (vs.take (l.length - i)) (g3.setE x) (t4.at hy) (t4.has (a4.mono (by omega) (by omega)))
      (fun j hj => by
        unfold ovr
        rw [if_neg (by omega), if_neg (by omega)]
        exact cell_some (by omega) (by omega))
    have t5 := t4.trans k4
    refine ⟨s4, ?_, ?_⟩
    · show (requireBack B s vs.length >>= _) = _
      rw [bind_some a1, bind_some c1, bind_some c2, if_neg hn, bind_some f1, d1, bind_some g1]
      show (writeList B { s3 with e := x } y _).map _ = _
      rw [k1]
      rfl
    · refine Inv.ofG (P := P) (k3.congr fun p => ?_) ?_ ?_ ?_
      · rw [cell_ins hi, e1, e2]
        unfold ovr cell
        simp only [List.getElem?_take, List.getElem?_drop]
        split_ifs <;> first | (exfalso; omega) | rfl | (congr 1; omega) | (rw [List.getElem?_eq_none (by omega), List.getElem?_eq_none (by omega)])
      · rw [k5]
        show At B s4 _ s3.b
        rw [g5, f5]; exact t5.at hb
      · rw [e0, k6]; exact t5.at hx
      · rw [e0]; exact t5.has a4

end Verif.Deque
