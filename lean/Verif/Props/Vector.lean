import Verif.VectorSpec
import Verif.Props.VectorOps

/-! # C44: `mystl::vector` behaves as a sequence -/

namespace Verif.Vector

variable {α : Type}

theorem arg_of (triv : Bool) (x : List α) (r : Ref α) (v : α) (hs : triv = true ∨ ∃ v, r = .copy v) (hr : r.val x = some v) : Arg triv x r v := by
  cases r with
  | copy w => left; simp only [Ref.val, Option.some.injEq] at hr; rw [hr]
  | elem i =>
    rcases hs with h | ⟨w, h⟩
    · exact Or.inr ⟨h, i, rfl, hr⟩
    · cases h

theorem rep_holds {a : Vec α} {l : List α} : Rep a l → Holds a l := by
  intro h
  have h0 := h
  obtain ⟨_, _, h2, h3, h4⟩ := h0
  exact ⟨rep_contents h, h2, by omega, h4⟩

theorem contents_inv : ∀ (n i : ℕ) (m : Mem α) (l : List α), contents n i m = .ok l → l.length = n ∧ ∀ j, j < n → ∃ v, l[j]? = some v ∧ m[i + j]? = some (.live v) := by
  intro n
  induction n with
  | zero => intro i m l h; simp only [contents, Except.ok.injEq] at h; subst h; exact ⟨rfl, by intro j hj; omega⟩
  | succ n ih =>
    intro i m l h
    rw [contents] at h
    rcases hr : rd m i with e | v
    · rw [hr] at h; simp at h
    · rw [hr, ok_bind] at h
      rcases hc : contents n (i + 1) m with e | t
      · rw [hc] at h; simp at h
      · rw [hc] at h
        simp only [ok_bind, pure_ok, Except.ok.injEq] at h
        subst h
        obtain ⟨h1, h2⟩ := ih _ _ _ hc
        refine ⟨by simp [h1], ?_⟩
        intro j hj
        cases j with
        | zero =>
          refine ⟨v, rfl, ?_⟩
          unfold rd at hr
          rw [Nat.add_zero]
          split at hr
          · rename_i w hw; rw [hw]; simp only [Except.ok.injEq] at hr; rw [hr]
          · cases hr
        | succ j =>
          obtain ⟨w, hw1, hw2⟩ := h2 j (by omega)
          exact ⟨w, by simpa using hw1, by rw [← hw2]; congr 1; omega⟩

theorem holds_rep {a : Vec α} {l : List α} (h : Holds a l) : Rep a l := by
  obtain ⟨h1, h2, h3, h4⟩ := h
  obtain ⟨e1, e2⟩ := contents_inv _ _ _ _ h1
  refine ⟨a.mem.drop l.length, ?_, h2, by omega, h4⟩
  have : L l = a.mem.take l.length := by
    apply List.ext_getElem?
    intro j
    rcases Nat.lt_or_ge j l.length with hj | hj
    · obtain ⟨v, hv, hm⟩ := e2 j (by omega)
      rw [List.getElem?_take_of_lt hj, ← Nat.zero_add j, hm, Nat.zero_add]
      simp [L, hv]
    · rw [List.getElem?_eq_none (by simpa using hj), List.getElem?_eq_none (by simp; omega)]
  rw [this, List.take_append_drop]

/-- one operation: it does to the vectors what `spec` does to the sequences, without undefined behaviour; the only exception is the
documented `length_error`, thrown only if the capacity with the new elements (or the requested capacity) exceeds `max_size()` -/
theorem c44_step (triv : Bool) (mx : ℕ) (op : Op α) (a b : Vec α) (x y x' y' : List α) (ha : Holds a x) (hb : Holds b y)
    (hs : triv = true ∨ op.NoAlias) (h : spec op (x, y) = some (x', y')) :
    (∃ a' b', step triv mx op (a, b) = .ok (a', b') ∧ Holds a' x' ∧ Holds b' y') ∨
    (step triv mx op (a, b) = .error .length ∧ (mx < a.cap + (x'.length - x.length) ∨ ∃ n, op = .reserve n ∧ mx < n)) := by
  have hab : Rep a x := holds_rep ha
  have hbb : Rep b y := holds_rep hb
  cases op with
  | pushBack r =>
    simp only [spec, Option.map_eq_some_iff, Prod.mk.injEq] at h
    obtain ⟨v, hv, rfl, rfl⟩ := h
    rcases pushBack_ok triv mx r v hab (arg_of triv x r v hs hv) with ⟨e, he⟩ | ⟨a', e, r⟩
    · right; exact ⟨by rw [step, e]; rfl, Or.inl (by simpa using he)⟩
    · left; exact ⟨a', b, by rw [step, e]; rfl, rep_holds r, hb⟩
  | popBack =>
    rcases List.eq_nil_or_concat x with rfl | ⟨t, v, rfl⟩
    · simp [spec] at h
    · simp only [spec] at h
      simp at h
      obtain ⟨rfl, rfl⟩ := h
      obtain ⟨a', e, r⟩ := popBack_ok (by simpa using hab)
      left; exact ⟨a', b, by rw [step, e]; rfl, rep_holds (by simpa using r), hb⟩
  | insert pos r =>
    simp only [spec] at h
    split_ifs at h with hp
    simp only [Option.map_eq_some_iff, Prod.mk.injEq] at h
    obtain ⟨v, hv, rfl, rfl⟩ := h
    have ar := arg_of triv x r v hs hv
    obtain ⟨p, q, rfl, rfl⟩ := split_at hp
    rcases insert_ok triv mx r v p q hab ar with ⟨e, he⟩ | ⟨a', e, r⟩
    · right; exact ⟨by rw [step, e]; rfl, Or.inl (by simp; omega)⟩
    · left; exact ⟨a', b, by rw [step, e]; rfl, rep_holds (by simpa using r), hb⟩
  | emplace pos v =>
    simp only [spec] at h
    split_ifs at h with hp
    simp only [Option.some.injEq, Prod.mk.injEq] at h
    obtain ⟨rfl, rfl⟩ := h
    obtain ⟨p, q, rfl, rfl⟩ := split_at hp
    rcases emplace_ok triv mx v p q hab with ⟨e, he⟩ | ⟨a', e, r⟩
    · right; exact ⟨by rw [step, e]; rfl, Or.inl (by simp; omega)⟩
    · left; exact ⟨a', b, by rw [step, e]; rfl, rep_holds (by simpa using r), hb⟩
  | erase pos =>
    simp only [spec] at h
    split_ifs at h with hp
    simp only [Option.some.injEq, Prod.mk.injEq] at h
    obtain ⟨rfl, rfl⟩ := h
    obtain ⟨p, q, rfl, rfl⟩ := split_at (Nat.le_of_lt hp)
    obtain ⟨v, q, rfl⟩ : ∃ v t, q = v :: t := by
      cases q with
      | nil => simp at hp
      | cons v t => exact ⟨v, t, rfl⟩
    obtain ⟨a', e, r, _⟩ := eraseAt_ok triv p q v hab
    left; exact ⟨a', b, by rw [step, e]; rfl, rep_holds (by
      rw [show (p ++ v :: q).drop (p.length + 1) = q by rw [List.drop_append, List.drop_eq_nil_of_le (by omega)]; simp, List.take_left]
      exact r), hb⟩
  | eraseRange first last =>
    simp only [spec] at h
    split_ifs at h with hp
    simp only [Option.some.injEq, Prod.mk.injEq] at h
    obtain ⟨rfl, rfl⟩ := h
    obtain ⟨p, q, rfl, rfl⟩ := split_at (Nat.le_trans hp.1 hp.2)
    obtain ⟨w, q, rfl, hw⟩ := split_at (l := q) (pos := last - p.length) (by have := hp.2; simp at this; omega)
    obtain ⟨a', e, r, _⟩ := eraseRange_ok triv p w q hab
    obtain rfl : last = p.length + w.length := by omega
    left; exact ⟨a', b, by rw [step, e]; rfl, rep_holds (by
      rw [← List.append_assoc p w q, ← List.length_append, List.drop_left, List.append_assoc p w q, List.take_left]; exact r), hb⟩
  | insertN pos n r =>
    simp only [spec] at h
    split_ifs at h with hp
    simp only [Option.map_eq_some_iff, Prod.mk.injEq] at h
    obtain ⟨v, hv, rfl, rfl⟩ := h
    have ar := arg_of triv x r v hs hv
    obtain ⟨p, q, rfl, rfl⟩ := split_at hp
    rcases fillInsert_ok triv mx n r v p q hab ar with ⟨e, he⟩ | ⟨a', e, r⟩
    · right; exact ⟨by rw [step, e]; rfl, Or.inl (by simp; omega)⟩
    · left; exact ⟨a', b, by rw [step, e]; rfl, rep_holds (by simpa using r), hb⟩
  | insertRange pos w =>
    simp only [spec] at h
    split_ifs at h with hp
    simp only [Option.some.injEq, Prod.mk.injEq] at h
    obtain ⟨rfl, rfl⟩ := h
    obtain ⟨p, q, rfl, rfl⟩ := split_at hp
    rcases copyInsert_ok triv mx p q w hab with ⟨e, he⟩ | ⟨a', e, r⟩
    · right; exact ⟨by rw [step, e]; rfl, Or.inl (by simp; omega)⟩
    · left; exact ⟨a', b, by rw [step, e]; rfl, rep_holds (by simpa using r), hb⟩
  | resize n r =>
    simp only [spec, Option.map_eq_some_iff, Prod.mk.injEq] at h
    obtain ⟨v, hv, rfl, rfl⟩ := h
    rcases resize_ok triv mx n r v x hab (arg_of triv x r v hs hv) with ⟨e, he⟩ | ⟨a', e, r⟩
    · right; exact ⟨by rw [step, e]; rfl, Or.inl (by simp; omega)⟩
    · left; exact ⟨a', b, by rw [step, e]; rfl, rep_holds r, hb⟩
  | assignN n r =>
    simp only [spec, Option.map_eq_some_iff, Prod.mk.injEq] at h
    obtain ⟨v, hv, rfl, rfl⟩ := h
    obtain ⟨a', e, r⟩ := fillAssign_ok triv n r v x hab (arg_of triv x r v hs hv)
    left; exact ⟨a', b, by rw [step, e]; rfl, rep_holds r, hb⟩
  | assignRange w =>
    simp only [spec, Option.some.injEq, Prod.mk.injEq] at h
    obtain ⟨rfl, rfl⟩ := h
    obtain ⟨a', e, r⟩ := rangeAssign_ok hab w
    left; exact ⟨a', b, by rw [step, e]; rfl, rep_holds r, hb⟩
  | clear =>
    simp only [spec, Option.some.injEq, Prod.mk.injEq] at h
    obtain ⟨rfl, rfl⟩ := h
    obtain ⟨a', e, r, _⟩ := eraseRange_ok triv [] x [] (by simpa using hab)
    left; exact ⟨a', b, by rw [step, ha.size]; simp at e; rw [e]; rfl, rep_holds (by simpa using r), hb⟩
  | reserve n =>
    simp only [spec, Option.some.injEq, Prod.mk.injEq] at h
    obtain ⟨rfl, rfl⟩ := h
    rcases reserve_ok triv mx n hab with ⟨e, he⟩ | ⟨a', e, r, _⟩
    · right; exact ⟨by rw [step, e]; rfl, Or.inr ⟨n, rfl, he⟩⟩
    · left; exact ⟨a', b, by rw [step, e]; rfl, rep_holds r, hb⟩
  | shrink =>
    simp only [spec, Option.some.injEq, Prod.mk.injEq] at h
    obtain ⟨rfl, rfl⟩ := h
    obtain ⟨a', e, r, _⟩ := shrink_ok triv hab
    left; exact ⟨a', b, by rw [step, e]; rfl, rep_holds r, hb⟩
  | copyFrom =>
    simp only [spec, Option.some.injEq, Prod.mk.injEq] at h
    obtain ⟨rfl, rfl⟩ := h
    obtain ⟨a', e, r⟩ := copyAssign_ok hab hbb
    left; exact ⟨a', b, by rw [step, e]; rfl, rep_holds r, hb⟩
  | moveFrom =>
    simp only [spec, Option.some.injEq, Prod.mk.injEq] at h
    obtain ⟨rfl, rfl⟩ := h
    obtain ⟨a', e, r⟩ := moveAssign_ok hab hbb
    left; exact ⟨a', null, by rw [step, e]; rfl, rep_holds r, rep_holds rep_null⟩
  | swap =>
    simp only [spec, Option.some.injEq, Prod.mk.injEq] at h
    obtain ⟨rfl, rfl⟩ := h
    left; exact ⟨b, a, rfl, hb, ha⟩
  | newFill n v =>
    simp only [spec, Option.some.injEq, Prod.mk.injEq] at h
    obtain ⟨rfl, rfl⟩ := h
    obtain ⟨m, e⟩ := rep_destroy hab
    obtain ⟨a', e', r⟩ := fillInit_ok n v
    left; exact ⟨a', b, by rw [step, e, ok_bind, e']; rfl, rep_holds r, hb⟩
  | newRange w =>
    simp only [spec, Option.some.injEq, Prod.mk.injEq] at h
    obtain ⟨rfl, rfl⟩ := h
    obtain ⟨m, e⟩ := rep_destroy hab
    obtain ⟨a', e', r⟩ := rangeInit_ok w
    left; exact ⟨a', b, by rw [step, e, ok_bind, e']; rfl, rep_holds r, hb⟩
  | newCopy =>
    simp only [spec, Option.some.injEq, Prod.mk.injEq] at h
    obtain ⟨rfl, rfl⟩ := h
    obtain ⟨m, e⟩ := rep_destroy hab
    obtain ⟨a', e', r⟩ := rangeInit_ok y
    left; exact ⟨a', b, by rw [step, e, ok_bind, rep_contents hbb, ok_bind, e']; rfl, rep_holds r, hb⟩

/-- **C44** every history: two default-constructed vectors and any sequence of operations within their preconditions.  Nothing outside
the allocated cells is touched, no raw or moved-from cell is read; the vectors read back as the sequences; or some operation of the
history threw `length_error`, and then rightly. -/
theorem c44_history (triv : Bool) (mx : ℕ) (ops : List (Op α)) (x y : List α) (hs : triv = true ∨ ∀ op ∈ ops, op.NoAlias)
    (h : specRun ops ([], []) = some (x, y)) :
    (∃ a b, run triv mx ops (empty16, empty16) = .ok (a, b) ∧ Holds a x ∧ Holds b y) ∨
    (run triv mx ops (empty16, empty16) = .error .length ∧
      ∃ pre op post a b x0 y0 x1 y1, ops = pre ++ op :: post ∧ run triv mx pre (empty16, empty16) = .ok (a, b) ∧
        specRun pre ([], []) = some (x0, y0) ∧ spec op (x0, y0) = some (x1, y1) ∧
        (mx < a.cap + (x1.length - x0.length) ∨ ∃ n, op = .reserve n ∧ mx < n)) := by
  have key : ∀ (ops pre : List (Op α)) (a b : Vec α) (x0 y0 : List α), (triv = true ∨ ∀ op ∈ ops, op.NoAlias) →
      Holds a x0 → Holds b y0 → specRun ops (x0, y0) = some (x, y) → run triv mx pre (empty16, empty16) = .ok (a, b) →
      specRun pre ([], []) = some (x0, y0) →
      (∃ a' b', run triv mx ops (a, b) = .ok (a', b') ∧ Holds a' x ∧ Holds b' y) ∨
      (run triv mx ops (a, b) = .error .length ∧
        ∃ pre' op post a' b' x0' y0' x1 y1, pre ++ ops = pre' ++ op :: post ∧ run triv mx pre' (empty16, empty16) = .ok (a', b') ∧
          specRun pre' ([], []) = some (x0', y0') ∧ spec op (x0', y0') = some (x1, y1) ∧
          (mx < a'.cap + (x1.length - x0'.length) ∨ ∃ n, op = .reserve n ∧ mx < n)) := by
    intro ops
    induction ops with
    | nil =>
      intro pre a b x0 y0 _ ha hb h _ _
      simp only [specRun, Option.some.injEq, Prod.mk.injEq] at h
      obtain ⟨rfl, rfl⟩ := h
      exact Or.inl ⟨a, b, rfl, ha, hb⟩
    | cons op ops ih =>
      intro pre a b x0 y0 hs ha hb h hr hsp
      rw [specRun, Option.bind_eq_some_iff] at h
      obtain ⟨⟨x1, y1⟩, h1, h2⟩ := h
      rcases c44_step triv mx op a b x0 y0 x1 y1 ha hb (hs.imp id (fun h => h op (by simp))) h1 with ⟨a', b', e, ra, rb⟩ | ⟨e, he⟩
      · have snoc : ∀ (pre : List (Op α)) (s : Vec α × Vec α), run triv mx pre s = .ok (a, b) → run triv mx (pre ++ [op]) s = .ok (a', b') := by
          intro pre
          induction pre with
          | nil => intro s h; simp only [run, pure_ok, Except.ok.injEq] at h; subst h; simp [run, e]
          | cons o pre ih =>
            intro s h
            rw [run] at h
            rw [List.cons_append, run]
            rcases hst : step triv mx o s with e' | s'
            · rw [hst] at h; simp at h
            · rw [hst, ok_bind] at h; rw [ok_bind]; exact ih _ h
        have snoc' : ∀ (pre : List (Op α)) (s : List α × List α), specRun pre s = some (x0, y0) → specRun (pre ++ [op]) s = some (x1, y1) := by
          intro pre
          induction pre with
          | nil => intro s h; simp only [specRun, Option.some.injEq] at h; subst h; simp [specRun, h1]
          | cons o pre ih =>
            intro s h
            rw [specRun, Option.bind_eq_some_iff] at h
            obtain ⟨s', h3, h4⟩ := h
            rw [List.cons_append, specRun, h3, Option.bind_some]
            exact ih _ h4
        have := ih (pre ++ [op]) a' b' x1 y1 (hs.imp id (fun h o ho => h o (by simp [ho]))) ra rb h2 (snoc pre _ hr) (snoc' pre _ hsp)
        rw [run, e, ok_bind]
        simpa using this
      · right
        exact ⟨by rw [run, e]; rfl, pre, op, ops, a, b, x0, y0, x1, y1, rfl, hr, hsp, h1, he⟩
  have := key ops [] empty16 empty16 [] [] hs (rep_holds rep_empty) (rep_holds rep_empty) h rfl rfl
  simpa using this

/-- positions returned: `insert`, `emplace` and `insert(pos, n, value)` give the position of the (first) new element, `erase` the
position behind the erased ones -/
theorem c44_returned (triv : Bool) (mx pos n first last : ℕ) (r : Ref α) (a a' : Vec α) (i : ℕ) :
    (insert triv mx pos r a = .ok (a', i) → i = pos) ∧ (emplace triv mx pos r a = .ok (a', i) → i = pos) ∧
    (fillInsert triv mx pos n r a = .ok (a', i) → i = pos) ∧ (eraseAt triv pos a = .ok (a', i) → i = pos) ∧
    (eraseRange triv first last a = .ok (a', i) → i = first) := by
  have fin : ∀ {β : Type} (m : M β) (f : β → Vec α) (p : ℕ), (do let y ← m; pure (f y, p)) = Except.ok (a', i) → i = p := by
    intro β m f p h
    rcases m with e | y
    · simp at h
    · simp at h; exact h.2.symm
  have pas : ∀ {β γ : Type} (m : M β) (k : β → M γ) (z : γ), (m >>= k) = .ok z → ∃ y, m = .ok y ∧ k y = .ok z := by
    intro β γ m k z h
    rcases m with e | y
    · simp at h
    · exact ⟨y, rfl, h⟩
  refine ⟨?_, ?_, ?_, ?_, ?_⟩
  · intro h
    unfold insert at h
    split_ifs at h
    · obtain ⟨_, _, h⟩ := pas _ _ _ h
      exact fin _ _ _ h
    · obtain ⟨_, _, h⟩ := pas _ _ _ h
      obtain ⟨_, _, h⟩ := pas _ _ _ h
      obtain ⟨_, _, h⟩ := pas _ _ _ h
      obtain ⟨_, _, h⟩ := pas _ _ _ h
      exact fin _ _ _ h
    · exact fin _ _ _ h
  · intro h
    unfold emplace at h
    split_ifs at h
    · obtain ⟨_, _, h⟩ := pas _ _ _ h
      exact fin _ _ _ h
    · obtain ⟨_, _, h⟩ := pas _ _ _ h
      obtain ⟨_, _, h⟩ := pas _ _ _ h
      obtain ⟨_, _, h⟩ := pas _ _ _ h
      obtain ⟨_, _, h⟩ := pas _ _ _ h
      exact fin _ _ _ h
    · exact fin _ _ _ h
  · intro h
    unfold fillInsert at h
    by_cases c0 : n = 0
    · rw [if_pos c0] at h; simp at h; exact h.2.symm
    · rw [if_neg c0] at h
      obtain ⟨_, _, h⟩ := pas _ _ _ h
      by_cases c1 : a.cap - a.size ≥ n
      · rw [if_pos c1] at h
        simp only [] at h
        split_ifs at h
        · obtain ⟨_, _, h⟩ := pas _ _ _ h
          obtain ⟨_, _, h⟩ := pas _ _ _ h
          exact fin _ _ _ h
        · obtain ⟨_, _, h⟩ := pas _ _ _ h
          obtain ⟨_, _, h⟩ := pas _ _ _ h
          exact fin _ _ _ h
      · rw [if_neg c1] at h
        obtain ⟨_, _, h⟩ := pas _ _ _ h
        obtain ⟨_, _, h⟩ := pas _ _ _ h
        obtain ⟨_, _, h⟩ := pas _ _ _ h
        obtain ⟨_, _, h⟩ := pas _ _ _ h
        exact fin _ _ _ h
  · intro h
    unfold eraseAt at h
    split_ifs at h
    obtain ⟨_, _, h⟩ := pas _ _ _ h
    exact fin _ _ _ h
  · intro h
    unfold eraseRange at h
    split_ifs at h
    simp only [] at h
    obtain ⟨_, _, h⟩ := pas _ _ _ h
    exact fin _ _ _ h

/-- capacity: after `reserve(n)` it is at least `n`; `push_back` below capacity keeps the block and the capacity; a reallocating
`push_back` grows the capacity by half; `shrink_to_fit` makes it the size -/
theorem c44_capacity (triv : Bool) (mx n : ℕ) (a a' : Vec α) (l : List α) (ha : Holds a l) :
    (reserve triv mx n a = .ok a' → n ≤ a'.cap ∧ a.cap ≤ a'.cap) ∧
    (∀ r, a.size < a.cap → pushBack triv mx r a = .ok a' → a'.cap = a.cap ∧ a'.mem.length = a.mem.length) ∧
    (∀ r, a.size = a.cap → 2 ≤ a.cap → 3 * a.cap ≤ 2 * mx → pushBack triv mx r a = .ok a' → a'.cap = a.cap + a.cap / 2) ∧
    (shrink triv a = .ok a' → a'.cap = l.length) := by
  have hab := holds_rep ha
  have pas : ∀ {β γ : Type} (m : M β) (k : β → M γ) (z : γ), (m >>= k) = .ok z → ∃ y, m = .ok y ∧ k y = .ok z := by
    intro β γ m k z h
    rcases m with e | y
    · simp at h
    · exact ⟨y, rfl, h⟩
  refine ⟨?_, ?_, ?_, ?_⟩
  · intro h
    unfold reserve at h
    split_ifs at h with c1
    · obtain ⟨⟨m, q⟩, _, h⟩ := pas _ _ _ h
      simp at h; subst h; exact ⟨by simp, by simp; omega⟩
    · simp at h; subst h; exact ⟨by omega, by omega⟩
  · intro r hc h
    unfold pushBack at h
    rw [if_pos (by omega)] at h
    obtain ⟨v, _, h⟩ := pas _ _ _ h
    obtain ⟨m, hm, h⟩ := pas _ _ _ h
    simp at h; subst h
    refine ⟨rfl, ?_⟩
    unfold construct at hm
    split_ifs at hm
    simp only [Except.ok.injEq] at hm
    subst hm; simp
  · intro r hc h2 hm h
    unfold pushBack at h
    rw [if_neg (by omega)] at h
    unfold reallocInsert at h
    obtain ⟨c, hcap, h⟩ := pas _ _ _ h
    obtain ⟨⟨m, q⟩, _, h⟩ := pas _ _ _ h
    simp only [] at h
    obtain ⟨v, _, h⟩ := pas _ _ _ h
    obtain ⟨q2, _, h⟩ := pas _ _ _ h
    obtain ⟨⟨m2, q3⟩, _, h⟩ := pas _ _ _ h
    simp only [] at h
    obtain ⟨_, _, h⟩ := pas _ _ _ h
    simp at h; subst h
    simp only []
    unfold newCap at hcap
    rw [if_neg (by omega), if_neg (by omega), if_neg (by omega)] at hcap
    simp only [Except.ok.injEq] at hcap
    omega
  · intro h
    obtain ⟨a'', e, _, hc⟩ := shrink_ok triv hab
    rw [e] at h; simp only [Except.ok.injEq] at h; rw [← h]; exact hc

/-- **finding** `v.push_back(v[i])` on a full vector of a type that is not trivially copyable reads a moved-from object: the elements
are moved to the new block before the argument is copied (`std::vector` must support this call) -/
theorem c44_self_push_defect (mx i : ℕ) (a : Vec α) (l : List α) (ha : Holds a l) (hi : i < l.length) (hf : a.size = a.cap)
    (hm : a.cap + 1 ≤ mx) : pushBack false mx (.elem i) a = .error .ub := by
  obtain ⟨rest, h1, h2, h3, h4⟩ := holds_rep ha
  unfold pushBack
  rw [if_neg (by omega)]
  unfold reallocInsert
  rcases newCap_ok mx a.cap 1 with ⟨e, he⟩ | ⟨c, e, hc⟩
  · omega
  rw [e, ok_bind]
  have key : ∀ (t : List α) (pre post q : Mem α) (n s d j : ℕ), t.length = n → s = pre.length → d + n ≤ q.length → j < n →
      ∃ m q', uninitMoveTo false n s d (pre ++ L t ++ post) q = .ok (m, q') ∧ m[s + j]? = some .moved ∧ ∀ k < s, m[k]? = (pre ++ L t ++ post)[k]? := by
    intro t
    induction t with
    | nil => intro pre post q n s d j h1 _ _ h; subst h1; simp at h
    | cons v t ih =>
      intro pre post q n s d j h1 h2 h3 h4
      subst h1
      rw [List.length_cons] at h3 h4
      rw [List.length_cons, uninitMoveTo, show pre ++ L (v :: t) ++ post = pre ++ .live v :: (L t ++ post) by simp]
      unfold moveOut
      rw [rd_at _ _ _ _ h2]
      simp only [ok_bind, Bool.false_eq_true, if_false, pure_ok]
      rw [set_mid _ _ _ _ _ h2]
      unfold construct
      rw [if_pos (by omega)]
      simp only [ok_bind]
      cases t with
      | nil =>
        obtain rfl : j = 0 := by simp at h4; omega
        refine ⟨_, _, rfl, ?_, ?_⟩
        · rw [Nat.add_zero, get_mid _ _ _ _ h2]
        · intro k hk
          rw [List.getElem?_append_left (by omega), List.getElem?_append_left (by omega)]
      | cons w t =>
        have hlen : d + 1 + (w :: t).length ≤ (q.set d (.live v)).length := by simp at h3 ⊢; omega
        cases j with
        | zero =>
          obtain ⟨m, q', e, _, hk⟩ := ih (pre ++ [.moved]) post (q.set d (.live v)) _ (s + 1) (d + 1) 0 rfl (by simp [h2]) hlen (by simp)
          refine ⟨m, q', by simpa using e, ?_, ?_⟩
          · rw [Nat.add_zero, hk s (by omega), show pre ++ [Cell.moved] ++ L (w :: t) ++ post = pre ++ .moved :: (L (w :: t) ++ post) by simp,
              get_mid _ _ _ _ h2]
          · intro k hk'
            rw [hk k (by omega)]
            rw [show pre ++ [Cell.moved] ++ L (w :: t) ++ post = pre ++ .moved :: (L (w :: t) ++ post) by simp,
              List.getElem?_append_left (by omega), List.getElem?_append_left (by omega)]
        | succ j =>
          obtain ⟨m, q', e, hj, hk⟩ := ih (pre ++ [.moved]) post (q.set d (.live v)) _ (s + 1) (d + 1) j rfl (by simp [h2]) hlen (by simp at h4 ⊢; omega)
          refine ⟨m, q', by simpa using e, by rw [← hj]; congr 1; omega, ?_⟩
          intro k hk'
          rw [hk k (by omega)]
          rw [show pre ++ [Cell.moved] ++ L (w :: t) ++ post = pre ++ .moved :: (L (w :: t) ++ post) by simp,
            List.getElem?_append_left (by omega), List.getElem?_append_left (by omega)]
  obtain ⟨m, q', e2, hj, _⟩ := key l [] rest (allocate c) a.size 0 0 i h2.symm rfl (by simp [allocate]; omega) (by omega)
  rw [h1]
  simp only [List.nil_append] at e2
  rw [e2]
  simp only [ok_bind]
  rw [Nat.zero_add] at hj
  have hg : (Ref.elem i : Ref α).get m = .error .ub := by unfold Ref.get rd; simp [hj]
  rw [hg]; rfl

/-- **finding** `v.emplace(pos, v[i])` reads its argument after the elements have been shifted: `[1,2,3].emplace(0, v[2])` inserts 2,
not 3 (with `insert` it is 3) -/
theorem c44_emplace_alias_defect :
    (do let a ← rangeInit [1, 2, 3]; let (a, _) ← emplace true 1000 0 (.elem 2) a; contents a.size 0 a.mem) = Except.ok [2, 1, 2, 3] ∧
    (do let a ← rangeInit [1, 2, 3]; let (a, _) ← insert true 1000 0 (.elem 2) a; contents a.size 0 a.mem) = Except.ok [3, 1, 2, 3] := ⟨rfl, rfl⟩

/-- a history with growth, aliasing, erasure, copy and swap satisfies the hypotheses -/
example : specRun [.assignN 17 (.copy 7), .pushBack (.elem 3), .insert 2 (.copy 5), .swap, .copyFrom, .erase 0, .moveFrom, .resize 3 (.elem 0),
    .eraseRange 1 2] (([], []) : List ℕ × List ℕ) = some ([7, 5], []) := rfl

example : (run true 1000 [.assignN 17 (.copy 7), .pushBack (.elem 3), .insert 2 (.copy 5), .swap, .copyFrom, .erase 0, .moveFrom,
    .resize 3 (.elem 0), .eraseRange 1 2] ((empty16, empty16) : Vec ℕ × Vec ℕ)).toOption.map (fun s => (contents s.1.size 0 s.1.mem).toOption) =
    some (some [7, 5]) := rfl

end Verif.Vector
