import Verif.DequeOps
/-!
# The deque as a list: inserting, erasing, clearing, constructing
-/
namespace Verif.Deque

variable {α : Type}

/-! ### copying inside a list -/

/-- the effect of `copyUp` on the list of elements -/
def upList (l : List α) (i j : ℕ) : ℕ → List α
  | 0 => l
  | k + 1 => match l[i]? with
    | some v => upList (l.set j v) (i + 1) (j + 1) k
    | none => l

/-- the effect of `copyDown` on the list of elements -/
def downList (l : List α) (i j : ℕ) : ℕ → List α
  | 0 => l
  | k + 1 => match l[i - 1]? with
    | some v => downList (l.set (j - 1) v) (i - 1) (j - 1) k
    | none => l

theorem upList_length (k : ℕ) : ∀ (l : List α) (i j : ℕ), (upList l i j k).length = l.length := by
  induction k with
  | zero => intro l i j; rfl
  | succ k ih =>
    intro l i j
    unfold upList
    cases l[i]? with
    | none => rfl
    | some v => simp only; rw [ih, List.length_set]

theorem downList_length (k : ℕ) : ∀ (l : List α) (i j : ℕ), (downList l i j k).length = l.length := by
  induction k with
  | zero => intro l i j; rfl
  | succ k ih =>
    intro l i j
    unfold downList
    cases l[i - 1]? with
    | none => rfl
    | some v => simp only; rw [ih, List.length_set]

theorem upList_get (k : ℕ) : ∀ (l : List α) (i j m : ℕ), j ≤ i → i + k ≤ l.length →
    (upList l i j k)[m]? = if j ≤ m ∧ m < j + k then l[m - j + i]? else l[m]? := by
  induction k with
  | zero =>
    intro l i j m _ _
    rw [if_neg (by omega)]
    rfl
  | succ k ih =>
    intro l i j m h1 h2
    unfold upList
    rw [List.getElem?_eq_getElem (show i < l.length by omega)]
    simp only
    rw [ih _ _ _ _ (by omega) (by rw [List.length_set]; omega)]
    by_cases h3 : j + 1 ≤ m ∧ m < j + 1 + k
    · rw [if_pos h3, if_pos (by omega), List.getElem?_set_ne (by omega)]
      congr 1; omega
    · rw [if_neg h3]
      by_cases h4 : m = j
      · subst h4
        rw [if_pos (by omega), List.getElem?_set, if_pos rfl, if_pos (by omega), Nat.sub_self,
          Nat.zero_add, List.getElem?_eq_getElem]
      · rw [if_neg (by omega), List.getElem?_set_ne (by omega)]

theorem downList_get (k : ℕ) : ∀ (l : List α) (i j m : ℕ), i ≤ j → k ≤ i → j ≤ l.length →
    (downList l i j k)[m]? = if j ≤ m + k ∧ m < j then l[m + i - j]? else l[m]? := by
  induction k with
  | zero =>
    intro l i j m _ _ _
    rw [if_neg (by omega)]
    rfl
  | succ k ih =>
    intro l i j m h1 h2 h3
    unfold downList
    rw [List.getElem?_eq_getElem (show i - 1 < l.length by omega)]
    simp only
    rw [ih _ _ _ _ (by omega) (by omega) (by rw [List.length_set]; omega)]
    by_cases h4 : j - 1 ≤ m + k ∧ m < j - 1
    · rw [if_pos h4, if_pos (by omega), List.getElem?_set_ne (by omega)]
      congr 1; omega
    · rw [if_neg h4]
      by_cases h5 : m = j - 1
      · subst h5
        rw [if_pos (by omega), List.getElem?_set, if_pos rfl, if_pos (by omega),
          show j - 1 + i - j = i - 1 from by omega, List.getElem?_eq_getElem]
      · rw [if_neg (by omega), List.getElem?_set_ne (by omega)]

/-- What stays the same when only cells are assigned. -/
def Same (s s' : St α) : Prop :=
  s'.b = s.b ∧ s'.e = s.e ∧ s'.map = s.map ∧ s'.live = s.live ∧ s'.mapSize = s.mapSize

theorem Same.tight {s s' : St α} (h : Same s s') (t : Tight s) : Tight s' := by
  obtain ⟨h1, h2, h3, h4, h5⟩ := h
  unfold Tight
  rw [h1, h2, h3, h4]
  exact t

theorem Same.at {B : ℕ} {s s' : St α} (h : Same s s') {p : ℕ} {x : It} (t : At B s p x) :
    At B s' p x := by
  obtain ⟨h1, h2, h3, h4, h5⟩ := h
  unfold At
  rw [h3]
  exact t

theorem Same.trans {s t u : St α} (h : Same s t) (g : Same t u) : Same s u := by
  obtain ⟨h1, h2, h3, h4, h5⟩ := h
  obtain ⟨g1, g2, g3, g4, g5⟩ := g
  exact ⟨g1.trans h1, g2.trans h2, g3.trans h3, g4.trans h4, g5.trans h5⟩

theorem copyUp_ok {B : ℕ} (k : ℕ) : ∀ {s : St α} {l : List α} {i j : ℕ} {x y : It}, Inv B s l →
    At B s (pos B s.b + i) x → At B s (pos B s.b + j) y → i + k ≤ l.length → j + k ≤ l.length →
    ∃ s', copyUp B s x y k = some s' ∧ Inv B s' (upList l i j k) ∧ Same s s' := by
  induction k with
  | zero =>
    intro s l i j x y h _ _ _ _
    exact ⟨s, rfl, h, rfl, rfl, rfl, rfl, rfl⟩
  | succ k ih =>
    intro s l i j x y h hx hy h1 h2
    have hr := read_ok h hx
    rw [List.getElem?_eq_getElem (show i < l.length by omega)] at hr
    obtain ⟨s1, a1, a2, a3⟩ := write_ok h hy (show j < l.length by omega) l[i]
    have hS : Same s s1 := a3
    have hlen := h.len
    have hb : s1.b = s.b := hS.1
    have he : s1.e = s.e := hS.2.1
    obtain ⟨x', hx'⟩ := h.exists_at (p := pos B s.b + i + 1) (by omega) (by omega)
    obtain ⟨y', hy'⟩ := h.exists_at (p := pos B s.b + j + 1) (by omega) (by omega)
    obtain ⟨s2, b1, b2, b3⟩ := ih (i := i + 1) (j := j + 1) (x := x') (y := y') a2
      (by rw [hb]; exact hS.at hx') (by rw [hb]; exact hS.at hy')
      (by rw [List.length_set]; omega) (by rw [List.length_set]; omega)
    refine ⟨s2, ?_, ?_, hS.trans b3⟩
    · show (read B s x >>= _) = _
      rw [bind_some hr, bind_some a1, bind_some (inc_ok a2 (hS.at hx) (hS.at hx')),
        bind_some (inc_ok a2 (hS.at hy) (hS.at hy'))]
      exact b1
    · unfold upList
      rw [List.getElem?_eq_getElem (show i < l.length by omega)]
      exact b2

theorem copyDown_ok {B : ℕ} (k : ℕ) : ∀ {s : St α} {l : List α} {i j : ℕ} {x y : It}, Inv B s l →
    At B s (pos B s.b + i) x → At B s (pos B s.b + j) y → k ≤ i → k ≤ j → i ≤ l.length →
    j ≤ l.length →
    ∃ s', copyDown B s x y k = some s' ∧ Inv B s' (downList l i j k) ∧ Same s s' := by
  induction k with
  | zero =>
    intro s l i j x y h _ _ _ _ _ _
    exact ⟨s, rfl, h, rfl, rfl, rfl, rfl, rfl⟩
  | succ k ih =>
    intro s l i j x y h hx hy h1 h2 h3 h4
    have hlen := h.len
    obtain ⟨x', hx'⟩ := h.exists_at (p := pos B s.b + (i - 1)) (by omega) (by omega)
    obtain ⟨y', hy'⟩ := h.exists_at (p := pos B s.b + (j - 1)) (by omega) (by omega)
    have hr := read_ok h hx'
    rw [List.getElem?_eq_getElem (show i - 1 < l.length by omega)] at hr
    obtain ⟨s1, a1, a2, a3⟩ := write_ok h hy' (show j - 1 < l.length by omega) l[i - 1]
    have hS : Same s s1 := a3
    have hb : s1.b = s.b := hS.1
    have ex : pos B s.b + i = pos B s.b + (i - 1) + 1 := by omega
    have ey : pos B s.b + j = pos B s.b + (j - 1) + 1 := by omega
    rw [ex] at hx
    rw [ey] at hy
    obtain ⟨s2, b1, b2, b3⟩ := ih (i := i - 1) (j := j - 1) (x := x') (y := y') a2
      (by rw [hb]; exact hS.at hx') (by rw [hb]; exact hS.at hy')
      (by omega) (by omega) (by rw [List.length_set]; omega) (by rw [List.length_set]; omega)
    refine ⟨s2, ?_, ?_, hS.trans b3⟩
    · show (dec B s x >>= _) = _
      rw [bind_some (dec_ok h hx hx'), bind_some (dec_ok h hy hy'), bind_some hr, bind_some a1]
      exact b1
    · unfold downList
      rw [List.getElem?_eq_getElem (show i - 1 < l.length by omega)]
      exact b2

/-! ### access -/

theorem size_ok {B : ℕ} {s : St α} {l : List α} (h : Inv B s l) : size B s = l.length := by
  have := h.len
  unfold size
  rw [diff_ok h.at_e h.at_b]
  omega

theorem get_ok {B : ℕ} {s : St α} {l : List α} (h : Inv B s l) {i : ℕ} (hi : i ≤ l.length) :
    get B s i = l[i]? := by
  have := h.len
  obtain ⟨x, hx⟩ := h.exists_at (p := pos B s.b + i) (by omega) (by omega)
  exact (bind_some (add_ok h h.at_b hx (by omega))).trans (read_ok h hx)

theorem front_ok {B : ℕ} {s : St α} {l : List α} (h : Inv B s l) : front B s = l.head? := by
  rw [List.head?_eq_getElem?]
  exact read_ok h (i := 0) h.at_b

theorem back_ok {B : ℕ} {s : St α} {l : List α} (h : Inv B s l) (hl : l ≠ []) :
    back B s = l.getLast? := by
  have := h.len
  have hp : 0 < l.length := List.length_pos_of_ne_nil hl
  obtain ⟨x, hx⟩ := h.exists_at (p := pos B s.b + (l.length - 1)) (by omega) (by omega)
  rw [List.getLast?_eq_getElem?]
  exact (bind_some (add_ok h h.at_e hx (by omega))).trans (read_ok h hx)

theorem empty_ok {B : ℕ} {s : St α} {l : List α} (h : Inv B s l) : empty s = l.isEmpty := by
  have := h.len
  unfold empty
  rw [itEq_ok h h.at_b h.at_e]
  cases l with
  | nil => simp only [List.length_nil] at this; rw [decide_eq_true (by omega)]; rfl
  | cons a l => simp only [List.length_cons] at this; rw [decide_eq_false (by omega)]; rfl

theorem setAt_ok {B : ℕ} {s : St α} {l : List α} (h : Inv B s l) {i : ℕ} (hi : i < l.length) (v : α) :
    ∃ s', setAt B s i v = some s' ∧ Inv B s' (l.set i v) ∧ Same s s' := by
  have := h.len
  obtain ⟨x, hx⟩ := h.exists_at (p := pos B s.b + i) (by omega) (by omega)
  obtain ⟨s', a1, a2, a3⟩ := write_ok h hx hi v
  exact ⟨s', (bind_some (add_ok h h.at_b hx (by omega))).trans a1, a2, a3⟩

/-! ### inserting and erasing one element -/

theorem Inv.congr {B : ℕ} {s : St α} {l l' : List α} (h : Inv B s l) (e : l = l') : Inv B s l' :=
  e ▸ h

theorem insert_get (l : List α) (i : ℕ) (v : α) (hi : i ≤ l.length) (m : ℕ) :
    (l.take i ++ v :: l.drop i)[m]? =
      if m < i then l[m]? else if m = i then some v else l[m - 1]? := by
  by_cases h1 : m < i
  · rw [if_pos h1, List.getElem?_append_left (by rw [List.length_take]; omega),
      List.getElem?_take, if_pos h1]
  · rw [if_neg h1, List.getElem?_append_right (by rw [List.length_take]; omega), List.length_take,
      Nat.min_eq_left hi]
    by_cases h2 : m = i
    · subst h2
      rw [if_pos rfl, Nat.sub_self]; rfl
    · rw [if_neg h2, show m - i = (m - i - 1) + 1 from by omega, List.getElem?_cons_succ,
        List.getElem?_drop]
      congr 1; omega

theorem erase_get (l : List α) (i : ℕ) (hi : i < l.length) (m : ℕ) :
    (l.take i ++ l.drop (i + 1))[m]? = if m < i then l[m]? else l[m + 1]? := by
  by_cases h1 : m < i
  · rw [if_pos h1, List.getElem?_append_left (by rw [List.length_take]; omega),
      List.getElem?_take, if_pos h1]
  · rw [if_neg h1, List.getElem?_append_right (by rw [List.length_take]; omega), List.length_take,
      Nat.min_eq_left (by omega), List.getElem?_drop]
    congr 1; omega

theorem insertAux_ok {B : ℕ} {s : St α} {l : List α} (hB : 2 ≤ B) (h : Inv B s l) {i : ℕ} {x : It}
    (h1 : 1 ≤ i) (h2 : i < l.length) (hx : At B s (pos B s.b + i) x) (v : α) :
    ∃ s', insertAux B s x v = some s' ∧ Inv B s' (l.take i ++ v :: l.drop i) ∧
      (Tight s → Tight s') := by
  have hbef : (diff B x s.b).toNat = i := by rw [diff_ok hx h.at_b]; omega
  have hsz : (size B s).toNat = l.length := by rw [size_ok h]; rfl
  unfold insertAux
  simp only [hbef, hsz]
  by_cases hc : i < l.length / 2
  · rw [if_pos hc]
    have hf : front B s = some l[0] := by
      rw [front_ok h, List.head?_eq_getElem?, List.getElem?_eq_getElem]
    obtain ⟨s1, a1, a2, a3, a4⟩ := pushFront_ok hB h l[0]
    have hlen := a2.len
    rw [List.length_cons] at hlen
    obtain ⟨f1, hf1⟩ := a2.exists_at (p := pos B s1.b + 1) (by omega) (by omega)
    obtain ⟨f2, hf2⟩ := a2.exists_at (p := pos B s1.b + 2) (by omega) (by omega)
    obtain ⟨y, hy⟩ := a2.exists_at (p := pos B s1.b + i) (by omega) (by omega)
    obtain ⟨y1, hy1⟩ := a2.exists_at (p := pos B s1.b + i + 1) (by omega) (by omega)
    have hk : (diff B y1 f2).toNat = i - 1 := by rw [diff_ok hy1 hf2]; omega
    obtain ⟨s2, b1, b2, b3⟩ := copyUp_ok (i - 1) a2 (i := 2) (j := 1) hf2 hf1
      (by rw [List.length_cons]; omega) (by rw [List.length_cons]; omega)
    obtain ⟨s3, c1, c2, c3⟩ := write_ok b2 (i := i) (x := y) (by rw [b3.1]; exact b3.at hy)
      (by rw [upList_length, List.length_cons]; omega) v
    refine ⟨s3, ?_, c2.congr ?_, fun t => Same.tight c3 (b3.tight (a3 t))⟩
    · rw [bind_some hf, bind_some a1, bind_some (inc_ok a2 a2.at_b hf1), bind_some (inc_ok a2 hf1 hf2),
        bind_some (add_ok a2 a2.at_b hy (by omega)), bind_some (inc_ok a2 hy hy1), hk, bind_some b1]
      exact c1
    · refine List.ext_getElem? (fun m => ?_)
      rw [insert_get _ _ _ (by omega), List.getElem?_set]
      by_cases hm : i = m
      · rw [if_pos hm, if_pos (by rw [upList_length, List.length_cons]; omega), if_neg (by omega),
          if_pos hm.symm]
      · rw [if_neg hm, upList_get _ _ _ _ _ (by omega) (by rw [List.length_cons]; omega)]
        by_cases hm2 : m < i
        · rw [if_pos hm2]
          by_cases hm3 : 1 ≤ m
          · rw [if_pos (by omega), show m - 1 + 2 = m + 1 from by omega, List.getElem?_cons_succ]
          · have : m = 0 := by omega
            subst this
            rw [if_neg (by omega), List.getElem?_eq_getElem (show 0 < l.length by omega)]
            rfl
        · rw [if_neg hm2, if_neg (by omega), if_neg (by omega),
            show m = (m - 1) + 1 from by omega, List.getElem?_cons_succ]
          rfl
  · rw [if_neg hc]
    have hne : l ≠ [] := by intro h0; rw [h0] at h2; exact Nat.not_lt_zero _ h2
    have hf : back B s = some l[l.length - 1] := by
      rw [back_ok h hne, List.getLast?_eq_getElem?, List.getElem?_eq_getElem]
    obtain ⟨s1, a1, a2, a3, a4⟩ := pushBack_ok hB h l[l.length - 1]
    have hlen := a2.len
    rw [List.length_append, List.length_singleton] at hlen
    obtain ⟨f1, hf1⟩ := a2.exists_at (p := pos B s1.b + l.length) (by omega) (by omega)
    obtain ⟨f2, hf2⟩ := a2.exists_at (p := pos B s1.b + (l.length - 1)) (by omega) (by omega)
    obtain ⟨y, hy⟩ := a2.exists_at (p := pos B s1.b + i) (by omega) (by omega)
    have hk : (diff B f2 y).toNat = l.length - 1 - i := by rw [diff_ok hf2 hy]; omega
    obtain ⟨s2, b1, b2, b3⟩ := copyDown_ok (l.length - 1 - i) a2 (i := l.length - 1) (j := l.length) hf2 hf1
      (by omega) (by omega) (by rw [List.length_append, List.length_singleton]; omega)
      (by rw [List.length_append, List.length_singleton]; omega)
    obtain ⟨s3, c1, c2, c3⟩ := write_ok b2 (i := i) (x := y) (by rw [b3.1]; exact b3.at hy)
      (by rw [downList_length, List.length_append, List.length_singleton]; omega) v
    have he1 : At B s1 (pos B s1.b + l.length + 1) s1.e := by
      rw [show pos B s1.b + l.length + 1 = pos B s1.e from by omega]; exact a2.at_e
    have he2 : At B s1 (pos B s1.b + (l.length - 1) + 1) f1 := by
      rw [show pos B s1.b + (l.length - 1) + 1 = pos B s1.b + l.length from by omega]; exact hf1
    refine ⟨s3, ?_, c2.congr ?_, fun t => Same.tight c3 (b3.tight (a3 t))⟩
    · rw [bind_some hf, bind_some a1, bind_some (dec_ok a2 he1 hf1), bind_some (dec_ok a2 he2 hf2),
        bind_some (add_ok a2 a2.at_b hy (by omega)), hk, bind_some b1]
      exact c1
    · refine List.ext_getElem? (fun m => ?_)
      rw [insert_get _ _ _ (by omega), List.getElem?_set]
      by_cases hm : i = m
      · rw [if_pos hm, if_pos (by rw [downList_length, List.length_append, List.length_singleton]; omega),
          if_neg (by omega), if_pos hm.symm]
      · rw [if_neg hm, downList_get _ _ _ _ _ (by omega) (by omega)
          (by rw [List.length_append, List.length_singleton]; omega)]
        by_cases hm2 : m < i
        · rw [if_pos hm2, if_neg (by omega), List.getElem?_append_left (by omega)]
        · rw [if_neg hm2, if_neg (show ¬ m = i by omega)]
          by_cases hm3 : m < l.length
          · rw [if_pos (by omega), List.getElem?_append_left (by omega)]
            congr 1; omega
          · rw [if_neg (by omega), List.getElem?_append_right (by omega)]
            by_cases hm4 : m = l.length
            · subst hm4
              rw [Nat.sub_self, List.getElem?_eq_getElem (show l.length - 1 < l.length by omega)]
              rfl
            · rw [List.getElem?_eq_none_iff.2 (by rw [List.length_singleton]; omega),
                List.getElem?_eq_none_iff.2 (by omega)]

theorem insertAt_ok {B : ℕ} {s : St α} {l : List α} (hB : 2 ≤ B) (h : Inv B s l) {i : ℕ}
    (hi : i ≤ l.length) (v : α) :
    ∃ s', insertAt B s i v = some s' ∧ Inv B s' (l.take i ++ v :: l.drop i) ∧
      (Tight s → Tight s') := by
  have hlen := h.len
  obtain ⟨x, hx⟩ := h.exists_at (p := pos B s.b + i) (by omega) (by omega)
  have hadd := add_ok h h.at_b hx (n := (i : ℤ)) (by omega)
  unfold insertAt
  rw [bind_some hadd, itEq_ok h hx h.at_b, itEq_ok h hx h.at_e]
  by_cases h0 : i = 0
  · subst h0
    rw [if_pos (by rw [decide_eq_true]; rfl)]
    obtain ⟨s', a1, a2, a3, _⟩ := pushFront_ok hB h v
    exact ⟨s', a1, a2, a3⟩
  · rw [if_neg (by rw [decide_eq_true_eq]; omega)]
    by_cases h1 : i = l.length
    · rw [if_pos (by rw [decide_eq_true_eq]; omega)]
      obtain ⟨s', a1, a2, a3, _⟩ := pushBack_ok hB h v
      refine ⟨s', a1, a2.congr ?_, a3⟩
      rw [h1, List.take_length, List.drop_length]
    · rw [if_neg (by rw [decide_eq_true_eq]; omega)]
      exact insertAux_ok hB h (by omega) (by omega) hx v

theorem eraseAt_ok {B : ℕ} {s : St α} {l : List α} (h : Inv B s l) {i : ℕ} (hi : i < l.length) :
    ∃ s', eraseAt B s i = some s' ∧ Inv B s' (l.take i ++ l.drop (i + 1)) ∧
      (Tight s → Tight s') := by
  have hlen := h.len
  obtain ⟨x, hx⟩ := h.exists_at (p := pos B s.b + i) (by omega) (by omega)
  obtain ⟨y, hy⟩ := h.exists_at (p := pos B s.b + i + 1) (by omega) (by omega)
  have hadd := add_ok h h.at_b hx (n := (i : ℤ)) (by omega)
  have hbef : (diff B x s.b).toNat = i := by rw [diff_ok hx h.at_b]; omega
  have hsz : (size B s).toNat = l.length := by rw [size_ok h]; rfl
  unfold eraseAt
  rw [bind_some hadd, bind_some (inc_ok h hx hy)]
  simp only [hbef, hsz]
  by_cases hc : i < l.length / 2
  · rw [if_pos hc]
    obtain ⟨s1, a1, a2, a3⟩ := copyDown_ok i h (i := i) (j := i + 1) hx hy (by omega) (by omega)
      (by omega) (by omega)
    cases hl : downList l i (i + 1) i with
    | nil =>
      have := congrArg List.length hl
      rw [downList_length, List.length_nil] at this
      omega
    | cons c l' =>
      rw [hl] at a2
      obtain ⟨s2, b1, b2, b3, b4⟩ := popFront_ok a2
      refine ⟨s2, (bind_some a1).trans b1, b2.congr ?_, fun t => b3 (a3.tight t)⟩
      refine List.ext_getElem? (fun m => ?_)
      rw [erase_get _ _ hi]
      have := downList_get i l i (i + 1) (m + 1) (by omega) (by omega) (by omega)
      rw [hl, List.getElem?_cons_succ] at this
      rw [this]
      by_cases hm : m < i
      · rw [if_pos (by omega), if_pos hm]
        congr 1; omega
      · rw [if_neg (by omega), if_neg hm]
  · rw [if_neg hc]
    have hk : (diff B s.e y).toNat = l.length - i - 1 := by rw [diff_ok h.at_e hy]; omega
    obtain ⟨s1, a1, a2, a3⟩ := copyUp_ok (l.length - i - 1) h (i := i + 1) (j := i) hy hx
      (by omega) (by omega)
    rw [hk]
    have hne : upList l (i + 1) i (l.length - i - 1) ≠ [] := by
      intro h0
      have := congrArg List.length h0
      rw [upList_length, List.length_nil] at this
      omega
    have hdl := List.dropLast_append_getLast hne
    rw [← hdl] at a2
    obtain ⟨s2, b1, b2, b3, b4⟩ := popBack_ok a2
    refine ⟨s2, (bind_some a1).trans b1, b2.congr ?_, fun t => b3 (a3.tight t)⟩
    refine List.ext_getElem? (fun m => ?_)
    rw [erase_get _ _ hi, List.getElem?_dropLast, upList_length]
    by_cases hm : m < l.length - 1
    · rw [if_pos hm, upList_get _ _ _ _ _ (by omega) (by omega)]
      by_cases hm2 : m < i
      · rw [if_pos hm2, if_neg (by omega)]
      · rw [if_neg hm2, if_pos (by omega)]
        congr 1; omega
    · rw [if_neg hm, if_neg (by omega), eq_comm, List.getElem?_eq_none_iff]
      omega

/-! ### clearing -/

theorem destroyRange_ok {B : ℕ} (k : ℕ) : ∀ (s : St α) (buf o : ℕ), buf ∈ s.live → o + k ≤ B →
    (∀ q, o ≤ q → q < o + k → (s.mem buf q).isSome) →
    ∃ s', destroyRange B s buf o k = some s' ∧ s' = { s with mem := s'.mem } ∧
      ∀ id q, s'.mem id q = if id = buf ∧ o ≤ q ∧ q < o + k then none else s.mem id q := by
  induction k with
  | zero =>
    intro s buf o _ _ _
    refine ⟨s, rfl, rfl, fun id q => ?_⟩
    rw [if_neg (by omega)]
  | succ k ih =>
    intro s buf o h1 h2 h3
    have e1 : destroy B s buf o = some { s with mem := upd s.mem buf (upd (s.mem buf) o none) } :=
      if_pos ⟨h1, by omega, h3 o (by omega) (by omega)⟩
    obtain ⟨s', a1, a2, a3⟩ := ih { s with mem := upd s.mem buf (upd (s.mem buf) o none) } buf (o + 1)
      h1 (by omega) (by
        intro q h4 h5
        show (upd s.mem buf (upd (s.mem buf) o none) buf q).isSome = true
        rw [upd2_ne _ _ (by omega)]
        exact h3 q (by omega) (by omega))
    refine ⟨s', (bind_some e1).trans a1, a2, fun id q => ?_⟩
    rw [a3]
    show (if _ then none else upd s.mem buf (upd (s.mem buf) o none) id q) = _
    by_cases hc : id = buf ∧ o + 1 ≤ q ∧ q < o + 1 + k
    · rw [if_pos hc, if_pos ⟨hc.1, by omega, by omega⟩]
    · rw [if_neg hc]
      by_cases hd : id = buf ∧ q = o
      · rw [if_pos ⟨hd.1, by omega, by omega⟩, hd.1, hd.2, upd2_same]
      · rw [upd2_ne _ _ hd, if_neg]
        intro he
        obtain ⟨e1, e2, e3⟩ := he
        by_cases hq : q = o
        · exact hd ⟨e1, hq⟩
        · exact hc ⟨e1, by omega, by omega⟩

theorem destroyNodes_ok {B : ℕ} (k : ℕ) : ∀ (s : St α) (n : ℕ), n + k ≤ s.mapSize →
    (∀ m, n ≤ m → m < n + k → ∃ id, s.map m = some id ∧ id ∈ s.live ∧
      ∀ q, q < B → (s.mem id q).isSome) →
    (∀ a b id, s.map a = some id → s.map b = some id → a = b) →
    ∃ s', destroyNodes B s n k = some s' ∧ s' = { s with mem := s'.mem } ∧
      (∀ m id q, s.map m = some id → q < B → s'.mem id q =
        if n ≤ m ∧ m < n + k then none else s.mem id q) := by
  induction k with
  | zero =>
    intro s n _ _ _
    refine ⟨s, rfl, rfl, fun m id q _ _ => ?_⟩
    rw [if_neg (by omega)]
  | succ k ih =>
    intro s n h1 h2 h3
    obtain ⟨id, b1, b2, b3⟩ := h2 n (by omega) (by omega)
    have e1 : setNode s n 0 = some ⟨n, id, 0⟩ := by
      unfold setNode
      rw [if_pos (by omega), b1]
    obtain ⟨s1, a1, a2, a3⟩ := destroyRange_ok (B := B) B s id 0 b2 (by omega)
      (fun q _ hq => b3 q (by omega))
    have hm : s1.map = s.map := by rw [a2]
    have hl : s1.live = s.live := by rw [a2]
    have hz : s1.mapSize = s.mapSize := by rw [a2]
    obtain ⟨s2, c1, c2, c3⟩ := ih s1 (n + 1) (by rw [hz]; omega) (by
        intro m h4 h5
        obtain ⟨id', d1, d2, d3⟩ := h2 m (by omega) (by omega)
        refine ⟨id', by rw [hm]; exact d1, by rw [hl]; exact d2, fun q hq => ?_⟩
        rw [a3, if_neg]
        · exact d3 q hq
        · intro hc
          have := h3 m n id' d1 (hc.1 ▸ b1)
          omega) (by rw [hm]; exact h3)
    refine ⟨s2, (bind_some e1).trans ((bind_some a1).trans c1), ?_, ?_⟩
    · rw [c2, a2]
    · intro m id' q h4 h5
      rw [c3 m id' q (by rw [hm]; exact h4) h5, a3]
      by_cases hmn : m = n
      · subst hmn
        rw [b1] at h4
        have := Option.some.inj h4
        rw [if_neg (by omega), if_pos ⟨this.symm, by omega, by omega⟩, if_pos (by omega)]
      · have : id' ≠ id := fun hc => hmn (h3 m n id' h4 (hc ▸ b1))
        by_cases hc : n + 1 ≤ m ∧ m < n + 1 + k
        · rw [if_pos hc, if_pos (by omega)]
        · rw [if_neg hc, if_neg (fun hh => this hh.1), if_neg (by omega)]

theorem freeSlots_e {B : ℕ} (x : It) (k : ℕ) : ∀ (s : St α) (n : ℕ),
    freeSlots B { s with e := x } n k = (freeSlots B s n k).map (fun t => { t with e := x }) := by
  induction k with
  | zero => intro s n; rfl
  | succ k ih =>
    intro s n
    show (freeSlot B { s with e := x } n >>= _) = ((freeSlot B s n >>= _).map _)
    have : freeSlot B { s with e := x } n = (freeSlot B s n).map (fun t => { t with e := x }) := by
      unfold freeSlot
      simp only
      split_ifs with h1
      · cases hm : s.map n with
        | none => rfl
        | some id =>
          simp only
          split_ifs <;> rfl
      · rfl
    rw [this]
    cases hf : freeSlot B s n with
    | none => rfl
    | some t =>
      show freeSlots B { t with e := x } (n + 1) k = (freeSlots B t (n + 1) k).map _
      exact ih t (n + 1)

theorem shrink_ok {B : ℕ} {s : St α} {l : List α} (h : Inv B s l) :
    ∃ s', shrink B s = some s' ∧ Inv B s' l ∧ s'.b = s.b ∧ s'.e = s.e ∧ (Tight s → Tight s') := by
  have hnn := h.nodes
  have hsz := h.lt_size h.ebuf
  obtain ⟨s1, a1, a2, a3, a4, a5, a6, a7⟩ := freeSlots_ok s.b.node 0 h (by omega) (Or.inl (by omega))
  obtain ⟨s2, b1, b2, b3, b4, b5, b6, b7⟩ := freeSlots_ok (s.mapSize - (s.e.node + 1)) (s.e.node + 1) a2
    (by rw [a6]; omega) (Or.inr (by rw [a5]; omega))
  refine ⟨s2, (bind_some a1).trans b1, b2, by rw [b4, a4], by rw [b5, a5], fun t => ?_⟩
  have l1 : s1.live = s.live := a7 (by
    intro m _ h2
    cases hm : s.map m with
    | none => rfl
    | some id => have := t.1 m id hm; omega)
  have l2 : s2.live = s1.live := b7 (by
    intro m h1 h2
    rw [a3]
    split_ifs
    · rfl
    · cases hm : s.map m with
      | none => rfl
      | some id => have := t.1 m id hm; omega)
  refine ⟨fun m id hm => ?_, by rw [l2, l1, b4, b5, a4, a5]; exact t.2⟩
  rw [b3] at hm
  split_ifs at hm
  rw [a3] at hm
  split_ifs at hm
  rw [b4, b5, a4, a5]
  exact t.1 m id hm

theorem clear_ok {B : ℕ} {s : St α} {l : List α} (h : Inv B s l) :
    ∃ s', clear B s = some s' ∧ Inv B s' [] ∧ s'.b = s.b ∧
      (Tight s → s'.live = s.live) := by
  have hnn := h.nodes
  have hsz := h.lt_size h.ebuf
  have hlen := h.len
  have hpos : ∀ it : It, pos B it = it.node * B + it.off := fun _ => rfl
  have hfull : ∀ m id q, s.map m = some id → q < B → pos B s.b ≤ m * B + q → m * B + q < pos B s.e →
      (s.mem id q).isSome := by
    intro m id q h1 h2 h3 h4
    rw [h.cells _ _ _ h1 h2]
    unfold cell
    rw [if_neg (by omega), List.getElem?_eq_getElem (by omega)]
    rfl
  obtain ⟨s1, a1, a2, a3⟩ := destroyNodes_ok (B := B) (s.e.node - (s.b.node + 1)) s (s.b.node + 1)
    (by omega) (by
      intro m h1 h2
      obtain ⟨id, hid⟩ := h.slot m (by omega) (by omega)
      refine ⟨id, hid, h.livemap _ _ hid, fun q hq => hfull m id q hid hq ?_ ?_⟩
      · have := pos_lt h.boff (show s.b.node < m by omega)
        rw [hpos]; omega
      · have := pos_lt hq (show m < s.e.node by omega)
        rw [hpos s.e]; omega) h.inj
  have m1 : s1.map = s.map := by rw [a2]
  have l1 : s1.live = s.live := by rw [a2]
  have key : ∃ s2, (if s.b.node ≠ s.e.node then do
      let t ← destroyRange B s1 s.b.buf s.b.off (B - s.b.off)
      destroyRange B t s.e.buf 0 s.e.off
    else destroyRange B s1 s.b.buf s.b.off (s.e.off - s.b.off)) = some s2 ∧
      s2 = { s with mem := s2.mem } ∧
      ∀ m id q, s.map m = some id → q < B → s2.mem id q = none := by
    have hnone : ∀ m id q, s.map m = some id → q < B →
        (m * B + q < pos B s.b ∨ pos B s.e ≤ m * B + q) → s.mem id q = none := by
      intro m id q h1 h2 h3
      rw [h.cells _ _ _ h1 h2]
      unfold cell
      split_ifs
      · rfl
      · rw [List.getElem?_eq_none_iff]; omega
    by_cases hn : s.b.node ≠ s.e.node
    · rw [if_pos hn]
      have hbo := h.boff
      have heo := h.eoff
      obtain ⟨t, b1, b2, b3⟩ := destroyRange_ok (B := B) (B - s.b.off) s1 s.b.buf s.b.off
        (by rw [l1]; exact h.livemap _ _ h.bbuf) (by omega) (by
          intro q h1 h2
          rw [a3 _ _ _ h.bbuf (by omega), if_neg (by omega)]
          refine hfull _ _ _ h.bbuf (by omega) (by rw [hpos]; omega) ?_
          have := pos_lt (B := B) (o := q) (by omega) (show s.b.node < s.e.node by omega)
          rw [hpos]; omega)
      have mt : t.map = s.map := by rw [b2]; exact m1
      have lt : t.live = s.live := by rw [b2]; exact l1
      have hbe : s.e.buf ≠ s.b.buf := by
        intro hc
        exact hn (h.inj _ _ _ h.bbuf (hc ▸ h.ebuf))
      obtain ⟨u, c1, c2, c3⟩ := destroyRange_ok (B := B) s.e.off t s.e.buf 0
        (by rw [lt]; exact h.livemap _ _ h.ebuf) (by omega) (by
          intro q h1 h2
          rw [b3, if_neg (fun hc => hbe hc.1), a3 _ _ _ h.ebuf (by omega), if_neg (by omega)]
          refine hfull _ _ _ h.ebuf (by omega) ?_ (by rw [hpos]; omega)
          have := pos_lt (B := B) hbo (show s.b.node < s.e.node by omega)
          rw [hpos]; omega)
      refine ⟨u, (bind_some b1).trans c1, by rw [c2, b2, a2], ?_⟩
      intro m id q hm hq
      rw [c3, b3, a3 _ _ _ hm hq]
      by_cases hme : m = s.e.node
      · subst hme
        have hid : id = s.e.buf := Option.some.inj (hm.symm.trans h.ebuf)
        by_cases hqq : q < s.e.off
        · rw [if_pos ⟨hid, by omega, by omega⟩]
        · rw [if_neg (by omega), if_neg (fun hc => hbe (hid ▸ hc.1)), if_neg (by omega)]
          exact hnone _ _ _ hm hq (Or.inr (by rw [hpos]; omega))
      · have hid : id ≠ s.e.buf := fun hc => hme (h.inj _ _ _ hm (hc ▸ h.ebuf))
        rw [if_neg (fun hc => hid hc.1)]
        by_cases hmb : m = s.b.node
        · subst hmb
          have hid : id = s.b.buf := Option.some.inj (hm.symm.trans h.bbuf)
          by_cases hqq : q < s.b.off
          · rw [if_neg (by omega), if_neg (by omega)]
            exact hnone _ _ _ hm hq (Or.inl (by rw [hpos]; omega))
          · rw [if_pos ⟨hid, by omega, by omega⟩]
        · have hid : id ≠ s.b.buf := fun hc => hmb (h.inj _ _ _ hm (hc ▸ h.bbuf))
          rw [if_neg (fun hc => hid hc.1)]
          by_cases hmm : s.b.node + 1 ≤ m ∧ m < s.b.node + 1 + (s.e.node - (s.b.node + 1))
          · rw [if_pos hmm]
          · rw [if_neg hmm]
            refine hnone _ _ _ hm hq ?_
            by_cases hlt : m < s.b.node
            · left
              have := pos_lt hq hlt
              rw [hpos]; omega
            · right
              have := pos_lt heo (show s.e.node < m by omega)
              rw [hpos]; omega
    · rw [if_neg hn]
      have hnn' : s.b.node = s.e.node := by omega
      have hbo := h.boff
      have heo := h.eoff
      have hoo : s.b.off ≤ s.e.off := by
        rw [hpos, hpos, hnn'] at hlen; omega
      obtain ⟨t, b1, b2, b3⟩ := destroyRange_ok (B := B) (s.e.off - s.b.off) s1 s.b.buf s.b.off
        (by rw [l1]; exact h.livemap _ _ h.bbuf) (by omega) (by
          intro q h1 h2
          rw [a3 _ _ _ h.bbuf (by omega), if_neg (by omega)]
          exact hfull _ _ _ h.bbuf (by omega) (by rw [hpos]; omega) (by rw [hpos, ← hnn']; omega))
      refine ⟨t, b1, by rw [b2, a2], ?_⟩
      intro m id q hm hq
      rw [b3, a3 _ _ _ hm hq]
      by_cases hmb : m = s.b.node
      · subst hmb
        have hid : id = s.b.buf := Option.some.inj (hm.symm.trans h.bbuf)
        by_cases hqq : s.b.off ≤ q ∧ q < s.e.off
        · rw [if_pos ⟨hid, by omega, by omega⟩]
        · rw [if_neg (by omega), if_neg (by omega)]
          refine hnone _ _ _ hm hq ?_
          rw [hpos, hpos, ← hnn']; omega
      · have hid : id ≠ s.b.buf := fun hc => hmb (h.inj _ _ _ hm (hc ▸ h.bbuf))
        rw [if_neg (fun hc => hid hc.1), if_neg (by omega)]
        refine hnone _ _ _ hm hq ?_
        by_cases hlt : m < s.b.node
        · left
          have := pos_lt hq hlt
          rw [hpos]; omega
        · right
          have := pos_lt heo (show s.e.node < m by omega)
          rw [hpos]; omega
  obtain ⟨s2, k1, k2, k3⟩ := key
  have m2 : s2.map = s.map := by rw [k2]
  have l2 : s2.live = s.live := by rw [k2]
  have bb2 : s2.b = s.b := by rw [k2]
  have ee2 : s2.e = s.e := by rw [k2]
  have z2 : s2.mapSize = s.mapSize := by rw [k2]
  have n2 : s2.next = s.next := by rw [k2]
  have hI : Inv B { s2 with e := s2.b } [] := by
    refine ⟨by show s2.b.off < B; rw [bb2]; exact h.boff, by show s2.b.off < B; rw [bb2]; exact h.boff,
      rfl, ?_, ?_, ?_, ?_, ?_, ?_, ?_, ?_, ?_⟩
    · show ∀ n, s2.mapSize ≤ n → s2.map n = none
      rw [z2, m2]; exact h.outside
    · show ∀ n, s2.b.node ≤ n → n ≤ s2.b.node → ∃ id, s2.map n = some id
      rw [bb2, m2]
      intro n h1 h2
      exact h.slot n h1 (by omega)
    · show s2.map s2.b.node = some s2.b.buf
      rw [m2, bb2]; exact h.bbuf
    · show s2.map s2.b.node = some s2.b.buf
      rw [m2, bb2]; exact h.bbuf
    · show ∀ n id, s2.map n = some id → id ∈ s2.live
      rw [m2, l2]; exact h.livemap
    · show ∀ n m id, s2.map n = some id → s2.map m = some id → n = m
      rw [m2]; exact h.inj
    · show s2.live.Nodup
      rw [l2]; exact h.nodup
    · show ∀ id ∈ s2.live, id < s2.next
      rw [l2, n2]; exact h.fresh
    · intro n id o h1 h2
      show s2.mem id o = _
      rw [k3 n id o (by rw [← m2]; exact h1) h2]
      unfold cell
      split_ifs <;> rfl
  obtain ⟨s3, c1, c2, c3, c4, c5, c6, c7⟩ := freeSlots_ok (s := { s2 with e := s2.b }) s.b.node 0 hI
    (by show _ ≤ s2.mapSize; rw [z2]; omega) (Or.inl (by show _ ≤ s2.b.node; rw [bb2]; omega))
  have c4' : s3.b = s2.b := c4
  have c5' : s3.e = s2.b := c5
  have c6' : s3.mapSize = s2.mapSize := c6
  obtain ⟨s4, d1, d2, d3, d4, d5, d6, d7⟩ := freeSlots_ok (s.mapSize - (s.e.node + 1)) (s.e.node + 1) c2
    (by rw [c6', z2]; omega) (Or.inr (by rw [c5', bb2]; omega))
  refine ⟨s4, ?_, d2, by rw [d4, c4', bb2], ?_⟩
  · -- undo the change of `e`
    rw [freeSlots_e] at c1
    obtain ⟨t3, t31, t32⟩ := Option.map_eq_some_iff.1 c1
    have t33 : { t3 with e := t3.e } = { s3 with e := t3.e } := by rw [← t32]
    have t34 : t3 = { s3 with e := t3.e } := t33
    have g1 : freeSlots B t3 (s.e.node + 1) (s.mapSize - (s.e.node + 1)) = some { s4 with e := t3.e } := by
      rw [t34, freeSlots_e, d1]; rfl
    unfold clear shrink
    rw [bind_some a1]
    refine (bind_some k1).trans ?_
    rw [bb2, ee2, z2, bind_some t31]
    refine (bind_some g1).trans ?_
    show some { s4 with e := s4.b } = some s4
    have h4 : s4.e = s4.b := by rw [d5, d4, c5', c4']
    have hg : ∀ t : St α, t.e = t.b → { t with e := t.b } = t := by
      intro t ht
      cases t
      simp only at ht
      subst ht
      rfl
    exact congrArg some (hg s4 h4)
  · intro t
    have e3 : s3.live = s2.live := c7 (by
      intro m _ hm2
      show s2.map m = none
      rw [m2]
      cases hm : s.map m with
      | none => rfl
      | some id => have := t.1 m id hm; omega)
    rw [d7, e3, l2]
    intro m h1 h2
    rw [c3]
    split_ifs
    · rfl
    · show s2.map m = none
      rw [m2]
      cases hm : s.map m with
      | none => rfl
      | some id => have := t.1 m id hm; omega

theorem destructor_ok {B : ℕ} {s : St α} {l : List α} (h : Inv B s l) :
    ∃ left, destructor B s = some left ∧
      (Tight s → left.length = s.e.node - s.b.node) := by
  obtain ⟨s1, a1, a2, a3, a4⟩ := clear_ok h
  have hall : (List.range B).all (fun o => (s1.mem s1.b.buf o).isNone) = true := by
    rw [List.all_eq_true]
    intro o ho
    rw [List.mem_range] at ho
    rw [a2.cells _ _ _ a2.bbuf ho]
    unfold cell
    split_ifs <;> rfl
  have e1 : freeSlot B s1 s1.b.node = some { s1 with map := upd s1.map s1.b.node none, live := s1.live.erase s1.b.buf } := by
    unfold freeSlot
    rw [if_pos (a2.lt_size a2.bbuf), a2.bbuf]
    exact if_pos ⟨a2.livemap _ _ a2.bbuf, hall⟩
  refine ⟨s1.live.erase s1.b.buf, (bind_some a1).trans ((bind_some e1).trans rfl), fun t => ?_⟩
  rw [List.length_erase_of_mem (a2.livemap _ _ a2.bbuf), a4 t]
  have := t.2
  omega

end Verif.Deque
