import Verif.DequeBulkIns
/-!
# Insertion of several equal elements is the insertion of a range
-/
namespace Verif.Deque

variable {α : Type}

theorem fillFront_eq {B : ℕ} (s : St α) (n : ℕ) (v : α) : fillFront B s n v = copyFront B s (List.replicate n v) := by
  unfold fillFront copyFront
  rw [List.length_replicate]
  simp only [uninitFill_eq]

theorem fillBack_eq {B : ℕ} (s : St α) (n : ℕ) (v : α) : fillBack B s n v = copyBack B s (List.replicate n v) := by
  unfold fillBack copyBack
  rw [List.length_replicate]
  simp only [uninitFill_eq]

theorem fillMidFront_eq {B : ℕ} {s : St α} {l : List α} (h : Inv B s l) {i : ℕ} (hi : i ≤ l.length) (n : ℕ) (v : α) :
    fillMidFront B s i n v = copyMidFront B s i (List.replicate n v) := by
  obtain ⟨s1, a1, a2, a3, a4⟩ := requireFront_has h n
  have hl := a2.len
  have hg := a2.g
  generalize hP : pos B s1.b = P at *
  obtain ⟨x, hx⟩ := a4 (P - n) (by omega) (by omega)
  obtain ⟨y, hy⟩ := a4 (P + i) (by omega) (by omega)
  have hb : At B s1 P s1.b := hP ▸ a2.at_b
  have c1 : add B s1 s1.b (-(n : ℤ)) = some x := hg.add hb hx (by omega)
  have c2 : add B s1 s1.b i = some y := hg.add hb hy (by omega)
  unfold fillMidFront copyMidFront
  rw [List.length_replicate, bind_some a1, bind_some a1, bind_some c1, bind_some c1, bind_some c2, bind_some c2]
  by_cases hn : n ≤ i
  · rw [if_pos hn, if_pos hn]
    obtain ⟨z, hz⟩ := a4 (P + n) (by omega) (by omega)
    obtain ⟨w, hw⟩ := a4 (P + i - n) (by omega) (by omega)
    have c3 : add B s1 s1.b n = some z := hg.add hb hz (by omega)
    have d1 : (diff B z s1.b).toNat = n := by rw [diff_ok hz hb]; omega
    have d2 : (diff B y z).toNat = i - n := by rw [diff_ok hy hz]; omega
    have d3 : (diff B y w).toNat = n := by rw [diff_ok hy hw]; omega
    obtain ⟨s2, z2, f1, f2, f3, f4, f5, f6⟩ := uninitCopy_ok n hg hb hx (a4.mono (by omega) (by omega)) (a4.mono (by omega) (by omega))
      (fun j hj => cell_some (by omega) (by omega)) (fun j hj => cell_none (Or.inl (by omega)))
    have f4' : Fix s1 { s2 with b := x } := f4
    obtain ⟨s3, g1, g3, g4, g5, g6⟩ := copyUp_G (i - n) (P := P + n) (Q := P) (f3.setB x) (f4'.at hz) (f4'.at hb) (by omega) (f4'.has (a4.mono (by omega) (by omega)))
      (fun j h1 h2 => by
        unfold ovr
        rw [if_neg (by omega)]
        exact cell_some (by omega) (by omega))
    have t4 := f4'.trans g4
    have c4 : add B s3 y (-(n : ℤ)) = some w := g3.add (t4.at hy) (t4.at hw) (by omega)
    rw [bind_some c3, bind_some c3, d1, bind_some f1, bind_some f1, d2, bind_some g1, bind_some g1, bind_some c4, bind_some c4, d3, fillUp_eq]
  · rw [if_neg hn, if_neg hn]
    have d1 : (diff B y s1.b).toNat = i := by rw [diff_ok hy hb]; omega
    obtain ⟨s2, z2, f1, f2, f3, f4, f5, f6⟩ := uninitCopy_ok i hg hb hx (a4.mono (by omega) (by omega)) (a4.mono (by omega) (by omega))
      (fun j hj => cell_some (by omega) (by omega)) (fun j hj => cell_none (Or.inl (by omega)))
    have d2 : (diff B s1.b z2).toNat = n - i := by rw [diff_ok (f4.at hb) f2]; omega
    rw [d1, bind_some f1, bind_some f1]
    show (uninitFill B s2 z2 v (diff B s1.b z2).toNat >>= _) = _
    rw [d2, uninitFill_eq, List.take_replicate, List.drop_replicate, Nat.min_eq_left (by omega), show n - (n - i) = i by omega]
    simp only [fillUp_eq]

theorem fillMidBack_eq {B : ℕ} {s : St α} {l : List α} (h : Inv B s l) {i : ℕ} (hi : i ≤ l.length) (n : ℕ) (v : α) :
    fillMidBack B s (l.length - i) n v = copyMidBack B s (l.length - i) (List.replicate n v) := by
  obtain ⟨s1, a1, a2, a4⟩ := requireBack_has h n
  have hl := a2.len
  have hg := a2.g
  generalize hP : pos B s1.b = P at *
  obtain ⟨x, hx⟩ := a4 (P + l.length + n) (by omega) (by omega)
  obtain ⟨y, hy⟩ := a4 (P + i) (by omega) (by omega)
  obtain ⟨w, hw⟩ := a4 (P + i + n) (by omega) (by omega)
  have he : At B s1 (P + l.length) s1.e := by rw [hl]; exact a2.at_e
  have c1 : add B s1 s1.e (n : ℤ) = some x := hg.add he hx (by omega)
  have c2 : add B s1 s1.e (-((l.length - i : ℕ) : ℤ)) = some y := hg.add he hy (by omega)
  have c3 : add B s1 y n = some w := hg.add hy hw (by omega)
  unfold fillMidBack copyMidBack
  rw [List.length_replicate, bind_some a1, bind_some a1, bind_some c1, bind_some c1, bind_some c2, bind_some c2]
  by_cases hn : n < l.length - i
  · rw [if_pos hn, if_pos hn]
    obtain ⟨z, hz⟩ := a4 (P + l.length - n) (by omega) (by omega)
    have d1 : (diff B s1.e z).toNat = n := by rw [diff_ok he hz]; omega
    have d2 : (diff B z y).toNat = l.length - i - n := by rw [diff_ok hz hy]; omega
    have d3 : (diff B w y).toNat = n := by rw [diff_ok hw hy]; omega
    have c4 : add B s1 s1.e (-(n : ℤ)) = some z := hg.add he hz (by omega)
    obtain ⟨s2, z2, f1, f2, f3, f4, f5, f6⟩ := uninitCopy_ok n hg hz he (a4.mono (by omega) (by omega)) (a4.mono (by omega) (by omega))
      (fun j hj => cell_some (by omega) (by omega)) (fun j hj => cell_none (Or.inr (by omega)))
    have f4' : Fix s1 { s2 with e := x } := f4
    obtain ⟨s3, g1, g3, g4, g5, g6⟩ := copyDown_G (l.length - i - n) (P := P + i) (Q := P + i + n) (x := z) (y := s1.e) (f3.setE x)
      (by rw [show P + i + (l.length - i - n) = P + l.length - n by omega]; exact f4'.at hz)
      (by rw [show P + i + n + (l.length - i - n) = P + l.length by omega]; exact f4'.at he) (by omega) (f4'.has (a4.mono (by omega) (by omega)))
      (fun j h1 h2 => by
        unfold ovr
        rw [if_neg (by omega)]
        exact cell_some (by omega) (by omega))
    have t4 := f4'.trans g4
    have c5 : add B s3 y (n : ℤ) = some w := g3.add (t4.at hy) (t4.at hw) (by omega)
    rw [bind_some c4, bind_some c4, d1, bind_some f1, bind_some f1, d2, bind_some g1, bind_some g1, bind_some c5, d3, fillUp_eq]
  · rw [if_neg hn, if_neg hn]
    have d1 : (diff B s1.e y).toNat = l.length - i := by rw [diff_ok he hy]; omega
    have d2 : (diff B w s1.e).toNat = n - (l.length - i) := by rw [diff_ok hw he]; omega
    have e2 : (List.replicate (n - (l.length - i)) v).length = n - (l.length - i) := List.length_replicate
    obtain ⟨s2, z2, f1, f2, f3, f4, f5, f6⟩ := uninitList_ok (List.replicate (n - (l.length - i)) v) hg he (a4.mono (by omega) (by omega)) (fun j hj => cell_none (Or.inr (by omega)))
    rw [e2, show P + l.length + (n - (l.length - i)) = P + i + n by omega] at f2
    have c5 : add B s2 y n = some w := f3.add (f4.at hy) (f4.at hw) (by omega)
    have : z2 = w := At.unique f2 (f4.at hw)
    subst this
    rw [bind_some c3, d2, uninitFill_eq, List.drop_replicate, List.take_replicate, Nat.min_eq_left (by omega), bind_some f1, bind_some f1]
    show (add B s2 y n >>= _) = _
    rw [bind_some c5, d1]
    simp only [fillUp_eq]

theorem insertRange_ok {B : ℕ} {s : St α} {l : List α} (h : Inv B s l) {i : ℕ} (hi : i ≤ l.length) (vs : List α) :
    ∃ s', insertRange B s i vs = some s' ∧ Inv B s' (l.take i ++ vs ++ l.drop i) := by
  have hl := h.len
  obtain ⟨y, hy⟩ := h.has (pos B s.b + i) (by omega) (by omega)
  have c : add B s s.b i = some y := h.g.add h.at_b hy (by omega)
  have d1 : (diff B y s.b).toNat = i := by rw [diff_ok hy h.at_b]; omega
  have d2 : (size B s).toNat = l.length := by rw [size_ok h]; rfl
  unfold insertRange
  rw [bind_some c]
  by_cases h0 : vs.length = 0
  · rw [if_pos h0]
    refine ⟨s, rfl, ?_⟩
    rw [List.length_eq_zero_iff.1 h0, List.append_nil, List.take_append_drop]
    exact h
  rw [if_neg h0, itEq_ok h hy h.at_b, itEq_ok h hy h.at_e]
  by_cases h1 : i = 0
  · subst h1
    rw [if_pos (by simp)]
    exact copyFront_ok h vs
  rw [if_neg (by simp; exact h1)]
  by_cases h2 : i = l.length
  · subst h2
    rw [if_pos (by simp; omega), List.take_length, List.drop_length, List.append_nil]
    exact copyBack_ok h vs
  rw [if_neg (by simp; omega), d1, d2]
  split_ifs
  · exact copyMidFront_ok h hi vs
  · exact copyMidBack_ok h hi vs

theorem insertFill_ok {B : ℕ} {s : St α} {l : List α} (h : Inv B s l) {i : ℕ} (hi : i ≤ l.length) (n : ℕ) (v : α) :
    ∃ s', insertFill B s i n v = some s' ∧ Inv B s' (l.take i ++ List.replicate n v ++ l.drop i) := by
  have hl := h.len
  obtain ⟨y, hy⟩ := h.has (pos B s.b + i) (by omega) (by omega)
  have c : add B s s.b i = some y := h.g.add h.at_b hy (by omega)
  have d1 : (diff B y s.b).toNat = i := by rw [diff_ok hy h.at_b]; omega
  have d2 : (size B s).toNat = l.length := by rw [size_ok h]; rfl
  unfold insertFill
  rw [bind_some c, itEq_ok h hy h.at_b, itEq_ok h hy h.at_e]
  by_cases h1 : i = 0
  · subst h1
    rw [if_pos (by simp), fillFront_eq]
    exact copyFront_ok h _
  rw [if_neg (by simp; exact h1)]
  by_cases h2 : i = l.length
  · subst h2
    rw [if_pos (by simp; omega), List.take_length, List.drop_length, List.append_nil, fillBack_eq]
    exact copyBack_ok h _
  rw [if_neg (by simp; omega), d1, d2, fillMidFront_eq h hi, fillMidBack_eq h hi]
  split_ifs
  · exact copyMidFront_ok h hi _
  · exact copyMidBack_ok h hi _

end Verif.Deque
