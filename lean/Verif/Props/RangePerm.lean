import Verif.Props.RangeAlgo
/-!
# C105 — `random_shuffle` and `partial_sort_copy`
-/

namespace Verif.RangeAlgo
open Verif Verif.Sort

variable {α : Type} {lt : α → α → Bool}

/-! ## random_shuffle -/

theorem swap_ok (a : List α) (i j : ℕ) (hi : i < a.length) (hj : j < a.length) :
    ∃ a', swap a i j = some a' ∧ a'.Perm a ∧ (∀ k, a'[k]? = if k = j then a[i]? else if k = i then a[j]? else a[k]?) := by
  have hx := get_eq hi
  have hy := get_eq hj
  refine ⟨(a.set i a[j]).set j a[i], ?_, List.set_set_perm hi hj, fun k => ?_⟩
  · unfold swap
    rw [bindS hx, bindS hy, bindS (wr_eq hi _), wr_eq (by rw [List.length_set]; exact hj)]
  · by_cases h1 : k = j
    · subst h1
      rw [if_pos rfl, sself (by rw [List.length_set]; exact hj), hx]
    · rw [if_neg h1, sne (fun h => h1 h.symm)]
      by_cases h2 : k = i
      · subst h2
        rw [if_pos rfl, sself hi, hy]
      · rw [if_neg h2, sne (fun h => h2 h.symm)]

theorem shuffleLoop_ok (first last : ℕ) (pick : ℕ → ℕ) (hp : ∀ i, first < i → i < last → first + pick i < last) :
    ∀ (k fuel : ℕ) (a : List α) (i : ℕ), k < fuel → i + k = last → first < i → last ≤ a.length →
    ∃ a', shuffleLoop first last pick fuel a i = some a' ∧ a'.Perm a ∧ ∀ j, j < first ∨ last ≤ j → a'[j]? = a[j]? := by
  intro k
  induction k with
  | zero =>
    intro fuel a i hf hk h1 h2
    obtain ⟨fuel, rfl⟩ := Nat.exists_eq_succ_of_ne_zero (show fuel ≠ 0 by omega)
    refine ⟨a, ?_, List.Perm.refl _, fun _ _ => rfl⟩
    unfold shuffleLoop
    rw [if_neg (by omega)]
  | succ k ih =>
    intro fuel a i hf hk h1 h2
    obtain ⟨fuel, rfl⟩ := Nat.exists_eq_succ_of_ne_zero (show fuel ≠ 0 by omega)
    have hb := hp i h1 (by omega)
    obtain ⟨a1, e1, p1, g1⟩ := swap_ok a i (first + pick i) (by omega) (by omega)
    obtain ⟨a2, e2, p2, g2⟩ := ih fuel a1 (i + 1) (by omega) (by omega) (by omega) (by rw [p1.length_eq]; exact h2)
    refine ⟨a2, ?_, p2.trans p1, fun j hj => ?_⟩
    · unfold shuffleLoop
      rw [if_pos (by omega), bindS e1, e2]
    · rw [g2 j hj, g1 j, if_neg (by omega), if_neg (by omega)]

/-- **C105.** Whatever `rand()` returns, `random_shuffle` permutes the range and touches nothing else. -/
theorem c105_shuffle (rnd : ℕ → ℕ) (a : List α) (first last : ℕ) (h : first ≤ last) (hl : last ≤ a.length) :
    ∃ a', randomShuffle rnd a first last = some a' ∧ a'.Perm a ∧ ∀ j, j < first ∨ last ≤ j → a'[j]? = a[j]? := by
  unfold randomShuffle
  by_cases e : first = last
  · rw [if_pos e]
    exact ⟨a, rfl, List.Perm.refl _, fun _ _ => rfl⟩
  rw [if_neg e]
  refine shuffleLoop_ok first last _ (fun i h1 h2 => ?_) (last - first - 1) _ a (first + 1) (by omega) (by omega) (by omega) hl
  have := Nat.mod_lt (rnd i) (show 0 < i - first + 1 by omega)
  omega

/-- **C105.** The same for the version with a generator, whatever it returns. -/
theorem c105_shuffle_gen (rnd : ℕ → ℕ) (a : List α) (first last : ℕ) (h : first ≤ last) (hl : last ≤ a.length) :
    ∃ a', randomShuffleGen rnd a first last = some a' ∧ a'.Perm a ∧ ∀ j, j < first ∨ last ≤ j → a'[j]? = a[j]? := by
  unfold randomShuffleGen
  by_cases e : first = last
  · rw [if_pos e]
    exact ⟨a, rfl, List.Perm.refl _, fun _ _ => rfl⟩
  rw [if_neg e]
  refine shuffleLoop_ok first last _ (fun i h1 h2 => ?_) (last - first - 1) _ a (first + 1) (by omega) (by omega) (by omega) hl
  have := Nat.mod_lt (rnd i) (show 0 < last - first by omega)
  show first + rnd i % (last - first) < last
  omega

/-- the last round of the loop, split off -/
theorem shuffleLoop_snoc (pick : ℕ → ℕ) (last : ℕ) : ∀ (k fuel : ℕ) (a a1 : List α) (i : ℕ), i + k = last →
    shuffleLoop 0 last pick fuel a i = some a1 → shuffleLoop 0 (last + 1) pick (fuel + 1) a i = swap a1 last (0 + pick last) := by
  intro k
  induction k with
  | zero =>
    intro fuel a a1 i hk h
    cases fuel with
    | zero => exact absurd h (by unfold shuffleLoop; exact fun h => by cases h)
    | succ fuel =>
      unfold shuffleLoop at h
      rw [if_neg (by omega)] at h
      cases h
      unfold shuffleLoop
      rw [if_pos (by omega), show i = last by omega]
      cases hsw : swap a last (0 + pick last) with
      | none => rfl
      | some b =>
        show shuffleLoop 0 (last + 1) pick (fuel + 1) b (last + 1) = _
        unfold shuffleLoop
        rw [if_neg (by omega)]
  | succ k ih =>
    intro fuel a a1 i hk h
    cases fuel with
    | zero => exact absurd h (by unfold shuffleLoop; exact fun h => by cases h)
    | succ fuel =>
      unfold shuffleLoop at h
      rw [if_pos (by omega)] at h
      unfold shuffleLoop
      rw [if_pos (by omega)]
      cases hsw : swap a i (0 + pick i) with
      | none => rw [hsw] at h; cases h
      | some b =>
        rw [hsw] at h
        exact ih fuel b a1 (i + 1) (by omega) h

/-- the shuffle of the first `m + 1` elements -/
theorem shuffle_step (rnd : ℕ → ℕ) (a : List α) (m : ℕ) (hm : m + 1 < a.length) :
    ∃ a1, randomShuffle rnd a 0 (m + 1) = some a1 ∧ randomShuffle rnd a 0 (m + 2) = swap a1 (m + 1) (rnd (m + 1) % (m + 2)) := by
  obtain ⟨a1, e1, -, -⟩ := c105_shuffle rnd a 0 (m + 1) (by omega) (by omega)
  refine ⟨a1, e1, ?_⟩
  unfold randomShuffle at e1 ⊢
  rw [if_neg (by omega)] at e1 ⊢
  have := shuffleLoop_snoc (fun i => rnd i % (i - 0 + 1)) (m + 1) m (m + 1 - 0 + 1) a a1 (0 + 1) (by omega) e1
  rw [show m + 1 - 0 + 1 + 1 = m + 2 - 0 + 1 by omega] at this
  rw [this, Nat.zero_add]
  rfl

theorem eq_of_one (a b : List α) (hp : b.Perm a) (h : ∀ j, 1 ≤ j → b[j]? = a[j]?) : b = a := by
  cases a with
  | nil => exact hp.eq_nil
  | cons x t =>
    obtain ⟨m, e1, e2⟩ := range_perm [] [x] t b (by simpa using hp) (by
      intro i hi
      simp only [List.length_nil, List.length_cons] at hi
      simpa using h i (by omega))
    rw [e1, List.perm_singleton.1 e2]; rfl

theorem shuffleLoop_congr (first last : ℕ) (p q : ℕ → ℕ) (h : ∀ i, first < i → i < last → p i = q i) : ∀ (fuel : ℕ) (a : List α) (i : ℕ), first < i ∧ i ≤ last →
    shuffleLoop first last p fuel a i = shuffleLoop first last q fuel a i := by
  intro fuel
  induction fuel with
  | zero => intro a i _; rfl
  | succ fuel ih =>
    intro a i hi
    unfold shuffleLoop
    by_cases e : i ≠ last
    · rw [if_pos e, if_pos e, h i hi.1 (by omega)]
      cases swap a i (first + q i) with
      | none => rfl
      | some b => exact ih b (i + 1) (by omega)
    · rw [if_neg e, if_neg e]

theorem shuffle_reach (a : List α) (m : ℕ) : ∀ (b : List α), m + 1 ≤ a.length → b.Perm a → (∀ j, m + 1 ≤ j → b[j]? = a[j]?) →
    ∃ c : ℕ → ℕ, (∀ i, c i ≤ i) ∧ randomShuffle c a 0 (m + 1) = some b := by
  induction m with
  | zero =>
    intro b hm hp hj
    refine ⟨fun _ => 0, fun _ => Nat.zero_le _, ?_⟩
    rw [eq_of_one a b hp (fun j h => hj j (by omega))]
    unfold randomShuffle
    rw [if_neg (by omega)]
    unfold shuffleLoop
    rw [if_neg (by omega)]
  | succ m ih =>
    intro b hm hp hj
    have hx := get_eq (show m + 1 < a.length by omega)
    generalize a[m + 1] = x at hx
    -- somewhere in the first m + 2 places of b there is x
    have hlb : b.length = a.length := hp.length_eq
    obtain ⟨j, hj1, hj2⟩ : ∃ j, j ≤ m + 1 ∧ b[j]? = some x := by
      have hd : b.drop (m + 2) = a.drop (m + 2) := by
        apply List.ext_getElem?
        intro i
        rw [List.getElem?_drop, List.getElem?_drop]
        exact hj _ (by omega)
      have hp' : (b.take (m + 2)).Perm (a.take (m + 2)) := by
        have h1 : (b.take (m + 2) ++ b.drop (m + 2)).Perm (a.take (m + 2) ++ a.drop (m + 2)) := by
          rw [List.take_append_drop, List.take_append_drop]; exact hp
        rw [hd] at h1
        exact (List.perm_append_right_iff _).1 h1
      have hin : x ∈ a.take (m + 2) := by
        rw [List.mem_iff_getElem?]
        exact ⟨m + 1, by rw [List.getElem?_take, if_pos (by omega)]; exact hx⟩
      obtain ⟨j, hjx⟩ := List.mem_iff_getElem?.1 (hp'.mem_iff.2 hin)
      rw [List.getElem?_take] at hjx
      by_cases hlt : j < m + 2
      · rw [if_pos hlt] at hjx; exact ⟨j, by omega, hjx⟩
      · rw [if_neg hlt] at hjx; cases hjx
    obtain ⟨b', e1, p1, g1⟩ := swap_ok b (m + 1) j (by omega) (by omega)
    have hlb' : b'.length = b.length := p1.length_eq
    obtain ⟨c, c1, c2⟩ := ih b' (by omega) (p1.trans hp) (fun k hk => by
      rw [g1 k]
      by_cases hk1 : k = m + 1
      · subst hk1
        by_cases h2 : m + 1 = j
        · rw [if_pos h2, h2, hj2, ← h2, hx]
        · rw [if_neg h2, if_pos rfl, hj2, hx]
      · rw [if_neg (by omega), if_neg hk1, hj k (by omega)])
    refine ⟨fun i => if i = m + 1 then j else c i, fun i => ?_, ?_⟩
    · show (if i = m + 1 then j else c i) ≤ i
      split
      · omega
      · exact c1 i
    · obtain ⟨a1, q1, q2⟩ := shuffle_step (fun i => if i = m + 1 then j else c i) a m (by omega)
      have same : randomShuffle (fun i => if i = m + 1 then j else c i) a 0 (m + 1) = randomShuffle c a 0 (m + 1) := by
        unfold randomShuffle
        rw [if_neg (by omega), if_neg (by omega)]
        exact shuffleLoop_congr 0 (m + 1) _ _ (fun i _ h2 => by
          show (if i = m + 1 then j else c i) % (i - 0 + 1) = c i % (i - 0 + 1)
          rw [if_neg (by omega)]) _ a (0 + 1) ⟨by omega, by omega⟩
      rw [same, c2] at q1
      cases q1
      rw [q2]
      show swap b' (m + 1) ((if m + 1 = m + 1 then j else c (m + 1)) % (m + 2)) = some b
      rw [if_pos rfl, Nat.mod_eq_of_lt (show j < m + 2 by omega)]
      obtain ⟨b2, f1, f2, f3⟩ := swap_ok b' (m + 1) j (by omega) (by omega)
      rw [f1]
      congr 1
      apply List.ext_getElem?
      intro k
      rw [f3 k, g1 (m + 1), g1 j, g1 k]
      by_cases k1 : k = j
      · subst k1
        by_cases k2 : m + 1 = k
        · rw [if_pos rfl, if_pos k2, k2]
        · rw [if_pos rfl, if_neg k2, if_pos rfl]
      · rw [if_neg k1, if_neg k1]
        by_cases k2 : k = m + 1
        · rw [if_pos k2, if_pos rfl, k2]
        · rw [if_neg k2, if_neg k2]

/-- the choices that matter can be read off the result -/
theorem shuffle_inj (a : List α) (hn : a.Nodup) (m : ℕ) : m + 1 ≤ a.length → ∀ (r r' : ℕ → ℕ),
    randomShuffle r a 0 (m + 1) = randomShuffle r' a 0 (m + 1) → ∀ i, i < m + 1 → r i % (i + 1) = r' i % (i + 1) := by
  induction m with
  | zero =>
    intro hm r r' h i hi
    rw [show i = 0 by omega, Nat.mod_one, Nat.mod_one]
  | succ m ih =>
    intro hm r r' h
    have hx := get_eq (show m + 1 < a.length by omega)
    generalize a[m + 1] = x at hx
    obtain ⟨a1, q1, q2⟩ := shuffle_step r a m (by omega)
    obtain ⟨a2, q3, q4⟩ := shuffle_step r' a m (by omega)
    obtain ⟨a1', s1, s2, s3⟩ := c105_shuffle r a 0 (m + 1) (by omega) (by omega)
    obtain ⟨a2', t1, t2, t3⟩ := c105_shuffle r' a 0 (m + 1) (by omega) (by omega)
    rw [q1] at s1; cases s1
    rw [q3] at t1; cases t1
    have l1 := s2.length_eq
    have l2 := t2.length_eq
    have c1 := Nat.mod_lt (r (m + 1)) (show 0 < m + 2 by omega)
    have c2 := Nat.mod_lt (r' (m + 1)) (show 0 < m + 2 by omega)
    rw [q2, q4] at h
    generalize hc1 : r (m + 1) % (m + 2) = u at *
    generalize hc2 : r' (m + 1) % (m + 2) = w at *
    obtain ⟨b, e1, p1, g1⟩ := swap_ok a1 (m + 1) u (by omega) (by omega)
    obtain ⟨b2, e2, p2, g2⟩ := swap_ok a2 (m + 1) w (by omega) (by omega)
    rw [e1, e2] at h
    cases h
    have hb : b.Nodup := (p1.trans s2).nodup_iff.2 hn
    have hu : b[u]? = some x := by rw [g1 u, if_pos rfl, s3 (m + 1) (Or.inr (Nat.le_refl _)), hx]
    have hw : b[w]? = some x := by rw [g2 w, if_pos rfl, t3 (m + 1) (Or.inr (Nat.le_refl _)), hx]
    have huw : u = w := by
      have lb := (p1.trans s2).length_eq
      exact (List.getElem?_inj (show u < b.length by omega) hb).1 (hu.trans hw.symm)
    subst huw
    have haa : a1 = a2 := by
      apply List.ext_getElem?
      intro k
      have k1 := (g1 k).symm.trans (g2 k)
      have k2 := (g1 u).symm.trans (g2 u)
      have k3 := (g1 (m + 1)).symm.trans (g2 (m + 1))
      rw [if_pos rfl, if_pos rfl] at k2
      by_cases h1 : k = m + 1
      · rw [h1]; exact k2
      · by_cases h2 : k = u
        · have hne : ¬ (m + 1 = u) := fun h => h1 (h2.trans h.symm)
          rw [if_neg hne, if_neg hne, if_pos rfl, if_pos rfl] at k3
          rw [h2]; exact k3
        · rw [if_neg h2, if_neg h2, if_neg h1, if_neg h1] at k1
          exact k1
    intro i hi
    by_cases e : i = m + 1
    · rw [e, hc1, hc2]
    · exact ih (by omega) r r' (by rw [q1, q3, haa]) i (by omega)

/-- **C105.** For an array of different elements, every order of them comes from one choice of the partners, and from one only: two
runs end in the same order exactly if the partners chosen (`rand() % (i - first + 1)`) were the same in all rounds. -/
theorem c105_shuffle_uniform (a : List α) (hn : a.Nodup) :
    (∀ b : List α, b.Perm a → ∃ c : ℕ → ℕ, (∀ i, c i ≤ i) ∧ randomShuffle c a 0 a.length = some b) ∧
    (∀ r r' : ℕ → ℕ, randomShuffle r a 0 a.length = randomShuffle r' a 0 a.length ↔ ∀ i, i < a.length → r i % (i + 1) = r' i % (i + 1)) := by
  cases hl : a.length with
  | zero =>
    have ha : a = [] := List.length_eq_zero_iff.1 hl
    subst ha
    exact ⟨fun b hb => ⟨fun _ => 0, fun _ => Nat.zero_le _, by rw [hb.eq_nil]; rfl⟩, fun r r' => ⟨fun _ i hi => by omega, fun _ => rfl⟩⟩
  | succ m =>
    refine ⟨fun b hb => shuffle_reach a m b (by omega) hb (fun j hj => ?_), fun r r' => ⟨shuffle_inj a hn m (by omega) r r', fun h => ?_⟩⟩
    · rw [List.getElem?_eq_none (by rw [hb.length_eq]; omega), List.getElem?_eq_none (by omega)]
    · unfold randomShuffle
      rw [if_neg (by omega), if_neg (by omega)]
      exact shuffleLoop_congr 0 (m + 1) _ _ (fun i _ h2 => h i h2) _ a (0 + 1) ⟨by omega, by omega⟩

/-- **C105.** If the generator called with `n` returns a number below `n`, as it should, the version with a generator makes the same
exchanges; so it, too, reaches every order in one way only. -/
theorem c105_shuffle_gen_eq (rnd : ℕ → ℕ) (a : List α) (first last : ℕ) (hr : ∀ i, first < i → i < last → rnd i < i - first + 1) :
    randomShuffleGen rnd a first last = randomShuffle rnd a first last := by
  unfold randomShuffleGen randomShuffle
  by_cases e : first = last
  · rw [if_pos e, if_pos e]
  · rw [if_neg e, if_neg e]
    by_cases h : first ≤ last
    · exact shuffleLoop_congr first last _ _ (fun i h1 h2 => by
        have := hr i h1 h2
        show rnd i % (last - first) = rnd i % (i - first + 1)
        rw [Nat.mod_eq_of_lt this, Nat.mod_eq_of_lt (by omega)]) _ a (first + 1) ⟨by omega, by omega⟩
    · rw [show last - first = 0 by omega]
      unfold shuffleLoop
      rw [if_pos (by omega), if_pos (by omega)]
      have e1 : ∀ x : Option (List α), (x >>= fun a => shuffleLoop first last (fun i => rnd i % 0) 0 a (first + 1 + 1)) = none := by
        intro x; cases x <;> rfl
      have e2 : ∀ x : Option (List α), (x >>= fun a => shuffleLoop first last (fun i => rnd i % (i - first + 1)) 0 a (first + 1 + 1)) = none := by
        intro x; cases x <;> rfl
      exact (e1 _).trans (e2 _).symm

example : ∀ i : ℕ, 2 < i → i < 6 → (fun i => i - 2) i < i - 2 + 1 := by intro i h1 h2; show i - 2 < _; omega
example : randomShuffleGen (fun i => i - 4) [10, 20, 30, 40, 50] 1 5 = some [10, 50, 20, 30, 40] := by decide
example : randomShuffle (fun i => 7 * i + 3) [10, 20, 30, 40, 50] 1 5 = some [10, 40, 30, 20, 50] := by decide

/-! ## partial_sort_copy -/

theorem fillLoop_ok : ∀ (src pre mid post : List α), fillLoop (pre.length + mid.length) src (pre ++ mid ++ post) pre.length =
    some (pre ++ src.take mid.length ++ (mid.drop src.length ++ post), pre.length + min src.length mid.length, src.drop mid.length) := by
  intro src
  induction src with
  | nil => intro pre mid post; simp [fillLoop]
  | cons x xs ih =>
    intro pre mid post
    unfold fillLoop
    cases mid with
    | nil => simp
    | cons y mid =>
      have hw : wr (pre ++ y :: mid ++ post) pre.length x = some (pre ++ x :: mid ++ post) := by
        rw [wr_eq (by simp)]
        simp
      have h := ih (pre ++ [x]) mid post
      rw [if_pos (by simp), bindS hw]
      simp only [List.length_append, List.length_cons, List.length_nil, List.append_assoc, List.cons_append, List.nil_append, List.take_succ_cons, List.drop_succ_cons] at h ⊢
      rw [show pre.length + (mid.length + 1) = pre.length + (0 + 1) + mid.length by omega, show pre.length + 1 = pre.length + (0 + 1) by omega, h,
        show pre.length + (0 + 1) + min xs.length mid.length = pre.length + min (xs.length + 1) (mid.length + 1) by omega]

theorem pscLoop_ok (hs : StrictWeak lt) (pre post : List α) : ∀ (xs h out : List α), h ≠ [] → IsHeap lt (pre ++ h ++ post) pre.length h.length →
    (∀ x ∈ h, ∀ y ∈ out, lt y x = false) →
    ∃ h' out', pscLoop lt pre.length h.length xs (pre ++ h ++ post) = some (pre ++ h' ++ post) ∧ h'.length = h.length ∧
      IsHeap lt (pre ++ h' ++ post) pre.length h.length ∧ (h' ++ out').Perm (h ++ out ++ xs) ∧ (∀ x ∈ h', ∀ y ∈ out', lt y x = false) := by
  intro xs
  induction xs with
  | nil =>
    intro h out hne hh ho
    exact ⟨h, out, rfl, rfl, hh, by simp, ho⟩
  | cons x xs ih =>
    intro h out hne hh ho
    cases h with
    | nil => exact absurd rfl hne
    | cons y t =>
      have hy : (pre ++ (y :: t) ++ post)[pre.length]? = some y := by simp
      have hroot := heap_root hs pre.length (y :: t).length (pre ++ (y :: t) ++ post) (by simp) hh
      have hmax : ∀ z ∈ y :: t, lt y z = false := by
        intro z hz
        obtain ⟨i, hi⟩ := List.mem_iff_getElem?.1 hz
        have hil : i < (y :: t).length := (List.getElem?_eq_some_iff.1 hi).1
        exact hroot i hil y z hy (by
          rw [List.append_assoc, List.getElem?_append_right (by omega), Nat.add_sub_cancel_left, List.getElem?_append_left hil]; exact hi)
      unfold pscLoop
      rw [bindS hy]
      by_cases hc : lt x y = true
      · rw [if_pos hc]
        obtain ⟨a', e1, e2, e3⟩ := adjustHeap_ok hs pre.length (y :: t).length 0 x (pre ++ (y :: t) ++ post) (by simp) (by simp)
          (fun i g0 g1 _ => hh i g0 g1)
        have hset : (pre ++ (y :: t) ++ post).set (pre.length + 0) x = pre ++ (x :: t) ++ post := by simp
        obtain ⟨h', f1, f2⟩ := range_perm pre (x :: t) post a' (by rw [← hset]; exact e2.perm) (by
          intro i hi
          rw [e2.frame i (by simpa using hi), ← hset, sne]
          simp only [List.length_cons] at hi
          omega)
        subst f1
        have hl' : h'.length = (y :: t).length := by rw [f2.length_eq]; rfl
        have hne' : h' ≠ [] := by
          intro hnil; rw [hnil] at hl'; simp at hl'
        have hord : ∀ z ∈ h', ∀ o ∈ y :: out, lt o z = false := by
          intro z hz o ho'
          have hz' := f2.mem_iff.1 hz
          have hoy : lt o y = false := by
            rcases List.mem_cons.1 ho' with h1 | h1
            · rw [h1]; exact irrefl' hs _
            · exact ho y List.mem_cons_self o h1
          rcases List.mem_cons.1 hz' with h2 | h2
          · rw [h2]
            exact ge_trans hs hoy (hs.asymm _ _ hc)
          · exact ge_trans hs hoy (hmax z (List.mem_cons_of_mem _ h2))
        obtain ⟨h2, o2, k1, k2, k3, k4, k5⟩ := ih h' (y :: out) hne' (by rw [hl']; exact fun i g0 g1 => e3 i g0 g1 (Nat.zero_le _)) hord
        rw [hl'] at k1 k2 k3
        refine ⟨h2, o2, (bindS e1).trans k1, k2, k3, k4.trans ?_, k5⟩
        have p1 : (h' ++ (y :: out) ++ xs).Perm ((x :: t) ++ (y :: out) ++ xs) := (f2.append_right _).append_right _
        refine p1.trans ?_
        have p2 : ((x :: t) ++ (y :: out) ++ xs).Perm (x :: y :: (t ++ out ++ xs)) := by
          simp only [List.cons_append, List.append_assoc]
          exact (List.perm_middle (a := y) (l₁ := t) (l₂ := out ++ xs)).cons x
        have p3 : ((y :: t) ++ out ++ (x :: xs)).Perm (x :: y :: (t ++ out ++ xs)) := by
          have := List.perm_middle (a := x) (l₁ := (y :: t) ++ out) (l₂ := xs)
          simpa using this
        exact p2.trans p3.symm
      · rw [if_neg hc]
        obtain ⟨h2, o2, k1, k2, k3, k4, k5⟩ := ih (y :: t) (x :: out) hne hh (by
          intro z hz o ho'
          rcases List.mem_cons.1 ho' with h1 | h1
          · rw [h1]; exact ge_trans hs (by simpa using hc) (hmax z hz)
          · exact ho z hz o h1)
        refine ⟨h2, o2, k1, k2, k3, k4.trans ?_, k5⟩
        simp only [List.cons_append, List.append_assoc]
        exact ((List.perm_middle (a := x) (l₁ := out) (l₂ := xs)).symm.append_left t).cons y

/-- **C105.** `partial_sort_copy` puts the smallest elements of the source, in order, into the destination `mid` (as many as fit,
or all if there are fewer), returns the end of what it wrote, and changes nothing else. -/
theorem c105_partial_sort_copy (hs : StrictWeak lt) (src pre mid post : List α) :
    ∃ s rest, partialSortCopy lt src (pre ++ mid ++ post) pre.length (pre.length + mid.length) =
        some (pre ++ s ++ mid.drop src.length ++ post, pre.length + s.length) ∧
      s.length = min src.length mid.length ∧ Sorted lt s ∧ (s ++ rest).Perm src ∧ ∀ x ∈ s, ∀ y ∈ rest, lt y x = false := by
  unfold partialSortCopy
  by_cases h0 : pre.length = pre.length + mid.length
  · have hm : mid = [] := List.length_eq_zero_iff.1 (by omega)
    subst hm
    rw [if_pos h0]
    exact ⟨[], src, by simp, by simp, List.Pairwise.nil, by simp, by simp⟩
  rw [if_neg h0, bindS (fillLoop_ok src pre mid post)]
  have hk : (src.take mid.length).length = min src.length mid.length := by rw [List.length_take]; omega
  show ∃ s rest, (makeHeap lt (pre ++ src.take mid.length ++ (mid.drop src.length ++ post)) pre.length (pre.length + min src.length mid.length) >>= _) = _ ∧ _
  rw [← hk]
  generalize hp : mid.drop src.length ++ post = tail
  generalize hh : src.take mid.length = h at hk ⊢
  obtain ⟨a1, e1, e2, e3, e4, -⟩ := makeHeap_ok hs (pre ++ h ++ tail) pre.length h.length (by simp)
  obtain ⟨h1, f1, f2⟩ := range_perm pre h tail a1 e3 e4
  subst f1
  rw [bindS e1, Nat.add_sub_cancel_left]
  -- the second loop
  obtain ⟨h2, out, k1, k2, k3, k4, k5⟩ : ∃ h2 out, pscLoop lt pre.length h.length (src.drop mid.length) (pre ++ h1 ++ tail) = some (pre ++ h2 ++ tail) ∧
      h2.length = h.length ∧ IsHeap lt (pre ++ h2 ++ tail) pre.length h.length ∧ (h2 ++ out).Perm (h1 ++ src.drop mid.length) ∧ (∀ x ∈ h2, ∀ y ∈ out, lt y x = false) := by
    by_cases hn : h1 = []
    · have hsrc : src = [] := by
        rw [hn] at f2
        have := f2.symm.eq_nil
        rw [this] at hh
        rcases List.take_eq_nil_iff.1 hh with h | h
        · exact absurd h (by omega)
        · exact h
      rw [hsrc, List.drop_nil]
      exact ⟨h1, [], rfl, f2.length_eq, e2, by simp, by simp⟩
    · obtain ⟨h2, out, k1, k2, k3, k4, k5⟩ := pscLoop_ok hs pre tail (src.drop mid.length) h1 [] hn (by rw [f2.length_eq]; exact e2) (by simp)
      rw [f2.length_eq] at k1 k2 k3
      exact ⟨h2, out, k1, k2, k3, by simpa using k4, k5⟩
  rw [bindS k1]
  obtain ⟨a3, g1, g2, g3, g4, -⟩ := sortHeap_ok hs pre.length h.length (pre ++ h2 ++ tail) (by simp; omega) k3
  obtain ⟨s, j1, j2⟩ := range_perm pre h2 tail a3 g2 (by rw [k2]; exact g4)
  subst j1
  rw [bindS g1]
  have hsl : s.length = h.length := by rw [j2.length_eq, k2]
  refine ⟨s, out, ?_, by rw [hsl, hk], ?_, ?_, fun x hx y hy => k5 x (j2.mem_iff.1 hx) y hy⟩
  · rw [← hp, hsl]; simp
  · unfold Sorted
    rw [List.pairwise_iff_getElem]
    intro i j hi hj hij
    refine g3 i j hij (by omega) _ _ ?_ ?_
    · rw [List.append_assoc, List.getElem?_append_right (by omega), Nat.add_sub_cancel_left, List.getElem?_append_left hj, get_eq hj]
    · rw [List.append_assoc, List.getElem?_append_right (by omega), Nat.add_sub_cancel_left, List.getElem?_append_left hi, get_eq hi]
  · refine (j2.append_right _).trans (k4.trans ?_)
    refine (f2.append_right _).trans ?_
    rw [← hh, List.take_append_drop]

example : partialSortCopy (fun x y : ℕ => decide (x < y)) [5, 2, 9, 1, 7, 3] [0, 0, 0, 0, 8] 1 4 = some ([0, 1, 2, 3, 8], 4) := by decide

end Verif.RangeAlgo
