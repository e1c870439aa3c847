import Verif.EclipseTable
import Verif.Props.Geom

/-!
# C54: the interpolation table of the solar eclipse module (exact arithmetic)
-/

namespace Verif.Geom

open Real

/-- the number `j` of node `i` of a table of nine numbers per node -/
def cell (l : List ℝ) (i j : ℕ) : ℝ := l.getD (9 * i + j) 0

theorem blocks_length {α β : Type*} (f : α → List β) (w : ℕ) : ∀ (l : List α), (∀ a ∈ l, (f a).length = w) → (l.flatMap f).length = l.length * w
  | [], _ => by simp
  | a :: l, h => by
    rw [List.flatMap_cons, List.length_append, h a (by simp), blocks_length f w l (fun b hb => h b (by simp [hb])), List.length_cons]
    ring

theorem blocks_get {α β : Type*} (f : α → List β) (w : ℕ) : ∀ (l : List α), (∀ a ∈ l, (f a).length = w) → ∀ (i j : ℕ), j < w →
    (l.flatMap f)[w * i + j]? = (l[i]?).bind (fun a => (f a)[j]?)
  | [], _, i, j, _ => by simp
  | a :: l, h, 0, j, hj => by
    rw [List.flatMap_cons, Nat.mul_zero, Nat.zero_add, List.getElem?_append_left (by rw [h a (by simp)]; exact hj)]
    simp
  | a :: l, h, i + 1, j, hj => by
    have ha := h a (by simp)
    rw [List.flatMap_cons, List.getElem?_append_right (by rw [ha, Nat.mul_succ]; omega), ha,
      show w * (i + 1) + j - w = w * i + j by rw [Nat.mul_succ]; omega]
    rw [blocks_get f w l (fun b hb => h b (by simp [hb])) i j hj]
    simp

theorem node_length (e : Eph) (k : ℤ) (n i : ℕ) (f : Option (List ℝ)) : (node e k n i f).length = 9 := rfl

theorem build_length (e : Eph) (k : ℤ) (n : ℕ) : (build e k n).length = n * 9 := by
  unfold build
  rw [blocks_length _ 9 _ (fun a _ => node_length e k n a _), List.length_range]

theorem build_cell (e : Eph) (k : ℤ) (n i j : ℕ) (hi : i < n) (hj : j < 9) :
    cell (build e k n) i j = (node e k n i (if i = 0 then none else some (node e k n 0 none))).getD j 0 := by
  unfold cell build
  rw [List.getD_eq_getElem?_getD, blocks_get _ 9 _ (fun a _ => node_length e k n a _) i j hj, List.getElem?_range hi, Option.bind_some,
    List.getD_eq_getElem?_getD]

/-- the centre of the interpolation -/
theorem clamp (N : ℕ) (hN : 3 ≤ N) (f : ℤ) : ∃ c : ℕ, 1 ≤ c ∧ c + 2 ≤ N ∧
    (let c0 := if f ≤ 0 then 1 else f
     (if c0 > (N : ℤ) - 2 then (N : ℤ) - 2 else c0) = (c : ℤ)) := by
  simp only []
  by_cases h1 : f ≤ 0
  · rw [if_pos h1, if_neg (by omega)]
    exact ⟨1, by omega, by omega, rfl⟩
  · rw [if_neg h1]
    by_cases h2 : f > (N : ℤ) - 2
    · rw [if_pos h2]; exact ⟨N - 2, by omega, by omega, by omega⟩
    · rw [if_neg h2]; exact ⟨f.toNat, by omega, by omega, by omega⟩

theorem at_cell (l : List ℝ) (n i j : ℕ) (hl : l.length = n * 9) (hi : i < n) (hj : j < 9) (p : ℤ) (hp : p = 9 * i + j) :
    (if 0 ≤ p then l[p.toNat]? else none) = some (cell l i j) := by
  rw [if_pos (by omega), show p.toNat = 9 * i + j by omega]
  unfold cell
  have : 9 * i + j < l.length := by omega
  rw [List.getD_eq_getElem?_getD, List.getElem?_eq_getElem this]
  rfl

/-- the shape of the result for three or more nodes -/
theorem chazhi_quad (s : RsTab) (n : ℕ) (hn : 3 ≤ n) (hl : s.Zs.length = n * 9) (jd : ℝ) (xt : ℕ) (hx : xt < 3) :
    ∃ c : ℕ, 1 ≤ c ∧ c + 2 ≤ n ∧
      (let t := (jd - s.Zjd) / 0.04 + (n : ℝ) / 2 - 0.5
       let f := fun j => quad (cell s.Zs c j) (cell s.Zs (c + 1) j) (cell s.Zs (c - 1) j) (t - c)
       s.chazhi jd xt = some ⟨f (3 * xt), f (3 * xt + 1), f (3 * xt + 2)⟩
       ∧ (0 ≤ t → t ≤ n - 1 → |t - c| ≤ 1)) := by
  obtain ⟨t, ht⟩ : ∃ t, t = (jd - s.Zjd) / 0.04 + (n : ℝ) / 2 - 0.5 := ⟨_, rfl⟩
  obtain ⟨c, hc1, hc2, hc⟩ := clamp n hn ⌊t + 0.5⌋
  refine ⟨c, hc1, hc2, ?_⟩
  simp only [← ht]
  constructor
  · have hN : ((s.Zs.length / 9 : ℕ) : ℤ) = n := by rw [hl]; omega
    have hw : (s.Zs.length : ℤ) / n = 9 := by
      rw [hl]; push_cast; rw [mul_comm]; exact Int.mul_ediv_cancel _ (by omega)
    unfold RsTab.chazhi
    simp only [hN, hw]
    rw [if_neg (by omega), if_neg (by omega)]
    simp only [Int.cast_natCast, ← ht, hc]
    have g := fun (i j : ℕ) (hi : i < n) (hj : j < 9) (p : ℤ) (hp : p = 9 * i + j) => at_cell s.Zs n i j hl hi hj p hp
    have t0 : ∀ r : ℕ, r < 3 → (if 0 ≤ (xt : ℤ) * 3 + c * 9 + r then s.Zs[((xt : ℤ) * 3 + c * 9 + r).toNat]? else none) = some (cell s.Zs c (3 * xt + r)) :=
      fun r hr => g c (3 * xt + r) (by omega) (by omega) _ (by push_cast; ring)
    have t1 : ∀ r : ℕ, r < 3 → (if 0 ≤ (xt : ℤ) * 3 + c * 9 + r + 9 then s.Zs[((xt : ℤ) * 3 + c * 9 + r + 9).toNat]? else none) = some (cell s.Zs (c + 1) (3 * xt + r)) :=
      fun r hr => g (c + 1) (3 * xt + r) (by omega) (by omega) _ (by push_cast; ring)
    have t2 : ∀ r : ℕ, r < 3 → (if 0 ≤ (xt : ℤ) * 3 + c * 9 + r - 9 then s.Zs[((xt : ℤ) * 3 + c * 9 + r - 9).toNat]? else none) = some (cell s.Zs (c - 1) (3 * xt + r)) :=
      fun r hr => g (c - 1) (3 * xt + r) (by omega) (by omega) _ (by omega)
    have a0 := t0 0 (by omega); have a1 := t1 0 (by omega); have a2 := t2 0 (by omega)
    have b0 := t0 1 (by omega); have b1 := t1 1 (by omega); have b2 := t2 1 (by omega)
    have c0 := t0 2 (by omega); have c1 := t1 2 (by omega); have c2 := t2 2 (by omega)
    simp only [Nat.cast_zero, add_zero, Nat.cast_one, Nat.cast_ofNat] at a0 a1 a2 b0 b1 b2 c0 c1 c2
    simp only [a0, a1, a2, b0, b1, b2, c0, c1, c2, Option.bind_eq_bind, Option.bind_some]
    rfl
  · intro h0 h1
    have f1 := Int.floor_le (t + 0.5)
    have f2 := Int.lt_floor_add_one (t + 0.5)
    simp only [] at hc
    have hcr : (c : ℝ) = ((c : ℤ) : ℝ) := by simp
    rw [hcr, ← hc, abs_le]
    have hn' : (3 : ℝ) ≤ n := by exact_mod_cast hn
    by_cases g1 : ⌊t + 0.5⌋ ≤ 0
    · rw [if_pos g1, if_neg (by omega)]
      have : (⌊t + 0.5⌋ : ℝ) ≤ 0 := by exact_mod_cast g1
      push_cast
      constructor <;> linarith
    · rw [if_neg g1]
      by_cases g2 : ⌊t + 0.5⌋ > (n : ℤ) - 2
      · rw [if_pos g2]
        have : ((n : ℤ) - 2 : ℤ) + 1 ≤ ⌊t + 0.5⌋ := by omega
        have : (((n : ℤ) - 2 + 1 : ℤ) : ℝ) ≤ (⌊t + 0.5⌋ : ℝ) := by exact_mod_cast this
        push_cast at this ⊢
        constructor <;> linarith
      · rw [if_neg g2]
        constructor <;> linarith

/-- two nodes: a straight line -/
theorem chazhi_line (s : RsTab) (hl : s.Zs.length = 2 * 9) (jd : ℝ) (xt : ℕ) (hx : xt < 3) :
    let t := (jd - s.Zjd) / 0.04 + 1 - 0.5
    let f := fun j => cell s.Zs 0 j + (cell s.Zs 1 j - cell s.Zs 0 j) * t
    s.chazhi jd xt = some ⟨f (3 * xt), f (3 * xt + 1), f (3 * xt + 2)⟩ := by
  simp only []
  unfold RsTab.chazhi
  have hN : ((s.Zs.length / 9 : ℕ) : ℤ) = 2 := by rw [hl]; rfl
  have hw : (s.Zs.length : ℤ) / 2 = 9 := by rw [hl]; norm_num
  simp only [hN, hw]
  rw [if_neg (by omega), if_pos trivial]
  have g := fun (i j : ℕ) (hi : i < 2) (hj : j < 9) (p : ℤ) (hp : p = 9 * i + j) => at_cell s.Zs 2 i j hl hi hj p hp
  have t0 : ∀ r : ℕ, r < 3 → (if 0 ≤ (xt : ℤ) * 3 + r then s.Zs[((xt : ℤ) * 3 + r).toNat]? else none) = some (cell s.Zs 0 (3 * xt + r)) :=
    fun r hr => g 0 (3 * xt + r) (by omega) (by omega) _ (by push_cast; ring)
  have t1 : ∀ r : ℕ, r < 3 → (if 0 ≤ (xt : ℤ) * 3 + r + 9 then s.Zs[((xt : ℤ) * 3 + r + 9).toNat]? else none) = some (cell s.Zs 1 (3 * xt + r)) :=
    fun r hr => g 1 (3 * xt + r) (by omega) (by omega) _ (by push_cast; ring)
  have a0 := t0 0 (by omega); have a1 := t1 0 (by omega)
  have b0 := t0 1 (by omega); have b1 := t1 1 (by omega)
  have c0 := t0 2 (by omega); have c1 := t1 2 (by omega)
  simp only [Nat.cast_zero, add_zero, Nat.cast_one, Nat.cast_ofNat] at a0 a1 b0 b1 c0 c1
  simp only [a0, a1, b0, b1, c0, c1, Option.bind_eq_bind, Option.bind_some]
  norm_num

/-- **C54 (no access outside the table).**  Once `init` has been called with 2 or at least 3 nodes, the interpolation reads inside the table for every instant, however far, and each of
the three groups of coordinates; before the first call it divides by zero. -/
theorem c54_in_bounds (e : Eph) (s : RsTab) (jd0 jd : ℝ) (n : ℕ) (hn : 2 ≤ n) (xt : ℕ) (hx : xt < 3) :
    ((s.init e jd0 n).chazhi jd xt).isSome ∧ RsTab.fresh.chazhi jd xt = none := by
  constructor
  · have hl : (s.init e jd0 n).Zs.length = n * 9 := by
      unfold RsTab.init
      split_ifs with h
      · exact h.2
      · exact build_length e _ n
    rcases Nat.lt_or_ge n 3 with h | h
    · obtain rfl : n = 2 := by omega
      rw [chazhi_line _ hl jd xt hx]; rfl
    · obtain ⟨c, -, -, h1, -⟩ := chazhi_quad _ n h hl jd xt hx
      rw [h1]; rfl
  · simp [RsTab.chazhi, RsTab.fresh]

theorem quad_exact (b bp bm : ℝ) : quad b bp bm 0 = b ∧ quad b bp bm 1 = bp ∧ quad b bp bm (-1) = bm := by
  unfold quad
  refine ⟨by ring, by ring, by ring⟩

/-- **C54 (exact on parabolas).**  If the coordinates tabulated at the nodes are values of polynomials of degree at most two in time (one, with two nodes), the interpolation gives these
polynomials at every instant. -/
theorem c54_polynomial (s : RsTab) (n : ℕ) (hl : s.Zs.length = n * 9) (hn : 2 ≤ n) (xt : ℕ) (hx : xt < 3) (q : ℕ → ℝ → ℝ)
    (hq : ∀ r < 3, ∃ a b c : ℝ, (n = 2 → c = 0) ∧ ∀ t, q r t = a + b * t + c * t ^ 2)
    (hnode : ∀ r < 3, ∀ i < n, cell s.Zs i (3 * xt + r) = q r (nodeTime s.Zjd n i)) (jd : ℝ) :
    s.chazhi jd xt = some ⟨q 0 jd, q 1 jd, q 2 jd⟩ := by
  rcases Nat.lt_or_ge n 3 with h | h
  · obtain rfl : n = 2 := by omega
    rw [chazhi_line s hl jd xt hx]
    have key : ∀ r < 3, cell s.Zs 0 (3 * xt + r) + (cell s.Zs 1 (3 * xt + r) - cell s.Zs 0 (3 * xt + r)) * ((jd - s.Zjd) / 0.04 + 1 - 0.5) = q r jd := fun r hr => by
      obtain ⟨a, b, c, hc, hq⟩ := hq r hr
      rw [hnode r hr 0 (by omega), hnode r hr 1 (by omega), hq, hq, hq, hc rfl]
      unfold nodeTime
      norm_num
      ring
    have k0 := key 0 (by omega); have k1 := key 1 (by omega); have k2 := key 2 (by omega)
    simp only [add_zero] at k0
    simp only [k0, k1, k2]
  · obtain ⟨m, h1, h2, h3, -⟩ := chazhi_quad s n h hl jd xt hx
    rw [h3]
    have key : ∀ r < 3, quad (cell s.Zs m (3 * xt + r)) (cell s.Zs (m + 1) (3 * xt + r)) (cell s.Zs (m - 1) (3 * xt + r))
        ((jd - s.Zjd) / 0.04 + (n : ℝ) / 2 - 0.5 - m) = q r jd := fun r hr => by
      obtain ⟨a, b, c, -, hq⟩ := hq r hr
      rw [hnode r hr m (by omega), hnode r hr (m + 1) (by omega), hnode r hr (m - 1) (by omega), hq, hq, hq, hq]
      unfold nodeTime quad
      rw [Nat.cast_sub h1]
      push_cast
      norm_num
      ring
    have k0 := key 0 (by omega); have k1 := key 1 (by omega); have k2 := key 2 (by omega)
    simp only [add_zero] at k0
    simp only [k0, k1, k2]

/-- **C54 (nodes).**  At the instants of the nodes the interpolation gives the tabulated coordinates. -/
theorem c54_nodes (s : RsTab) (n : ℕ) (hl : s.Zs.length = n * 9) (hn : 2 ≤ n) (xt : ℕ) (hx : xt < 3) (i : ℕ) (hi : i < n) :
    s.chazhi (nodeTime s.Zjd n i) xt = some ⟨cell s.Zs i (3 * xt), cell s.Zs i (3 * xt + 1), cell s.Zs i (3 * xt + 2)⟩ := by
  rcases Nat.lt_or_ge n 3 with h | h
  · obtain rfl : n = 2 := by omega
    rw [chazhi_line s hl _ xt hx]
    have ht : (nodeTime s.Zjd 2 i - s.Zjd) / 0.04 + 1 - 0.5 = i := by unfold nodeTime; norm_num; ring
    simp only [ht]
    rcases (by omega : i = 0 ∨ i = 1) with rfl | rfl <;> simp
  · obtain ⟨c, h1, h2, h3, h4⟩ := chazhi_quad s n h hl (nodeTime s.Zjd n i) xt hx
    have ht : (nodeTime s.Zjd n i - s.Zjd) / 0.04 + (n : ℝ) / 2 - 0.5 = i := by unfold nodeTime; norm_num; ring
    simp only [ht] at h3 h4
    rw [h3]
    have hin : (i : ℝ) + 1 ≤ n := by exact_mod_cast hi
    have hb : |(i : ℝ) - c| ≤ 1 := h4 (Nat.cast_nonneg i) (by linarith)
    have hz : |(i : ℤ) - c| ≤ 1 := by
      have : ((|(i : ℤ) - c| : ℤ) : ℝ) ≤ ((1 : ℤ) : ℝ) := by push_cast; exact hb
      exact_mod_cast this
    obtain ⟨g1, g2⟩ := abs_le.1 hz
    rcases (by omega : i = c ∨ i = c + 1 ∨ i + 1 = c) with g | g | g
    · subst g
      simp [(quad_exact _ _ _).1]
    · subst g
      have : ((c + 1 : ℕ) : ℝ) - c = 1 := by push_cast; ring
      simp only [this, (quad_exact _ _ _).2.1]
    · subst g
      have : (i : ℝ) - ((i + 1 : ℕ) : ℝ) = -1 := by push_cast; ring
      simp only [this, (quad_exact _ _ _).2.2, Nat.add_sub_cancel]

/-- **C54 (the table is that of the requested lunation, whatever was asked before).**  Provided the approximate new moon number `k` lies where the numbering of new moons gives it the number `k`,
a call of `init` after any sequence of calls leaves exactly the table a first call would have made. -/
theorem c54_history (e : Eph) (P : ℤ → Prop) (hP : ∀ k, P k → suoN (e.newMoon k) = k) (calls : List (ℝ × ℕ))
    (hcalls : ∀ q ∈ calls, P (suoN q.1)) (jd : ℝ) (n : ℕ) (hn : 0 < n) :
    (calls.foldl (fun s q => s.init e q.1 q.2) RsTab.fresh).init e jd n = ⟨e.newMoon (suoN jd), build e (suoN jd) n⟩ := by
  have inv : ∀ (calls : List (ℝ × ℕ)) (s : RsTab), (∀ q ∈ calls, P (suoN q.1)) →
      (s.Zs = [] ∨ ∃ k m, P k ∧ s = ⟨e.newMoon k, build e k m⟩) →
      ((calls.foldl (fun s q => s.init e q.1 q.2) s).Zs = [] ∨ ∃ k m, P k ∧ calls.foldl (fun s q => s.init e q.1 q.2) s = ⟨e.newMoon k, build e k m⟩) := by
    intro calls
    induction calls with
    | nil => intro s _ h; exact h
    | cons q l ih =>
      intro s hq h
      rw [List.foldl_cons]
      refine ih _ (fun x hx => hq x (by simp [hx])) ?_
      unfold RsTab.init
      split_ifs
      · exact h
      · exact Or.inr ⟨_, _, hq q (by simp), rfl⟩
  have h := inv calls RsTab.fresh hcalls (Or.inl rfl)
  generalize calls.foldl (fun s q => s.init e q.1 q.2) RsTab.fresh = s at h ⊢
  unfold RsTab.init
  split_ifs with hit
  · rcases h with h | ⟨k, m, hk, rfl⟩
    · rw [h] at hit; simp at hit; omega
    · obtain ⟨h1, h2⟩ := hit
      simp only [hP k hk] at h1
      simp only [build_length] at h2
      have : m = n := by omega
      rw [h1, this]
  · rfl

/-- **C54 (numbering).**  The proviso of `c54_history` holds for 900000 new moons before and after the year 2000 if the approximate new moon is within a day of the mean one. -/
theorem c54_numbering (e : Eph) (k : ℤ) (hk : |k| ≤ 900000) (h : |e.newMoon k - (29.530588853 * k + 5.098)| ≤ 1) : suoN (e.newMoon k) = k := by
  obtain ⟨h1, h2⟩ := abs_le.1 h
  obtain ⟨k1, k2⟩ := abs_le.1 hk
  have k1' : (-900000 : ℝ) ≤ k := by exact_mod_cast k1
  have k2' : (k : ℝ) ≤ 900000 := by exact_mod_cast k2
  unfold suoN
  rw [Int.floor_eq_iff, le_div_iff₀ (by norm_num), div_lt_iff₀ (by norm_num)]
  constructor <;> norm_num at h1 h2 ⊢ <;> linarith

/-- **C54 (continuous angles).**  In the table of a lunation the right ascensions of sun and moon, and the first angle of the Bessel axis, are never smaller than at the first node and less than a
turn larger; and if sun (moon) has advanced by `δ`, less than a turn, since the first node, the tabulated angle is that of the first node plus `δ`. -/
theorem c54_continuous (e : Eph) (k : ℤ) (n : ℕ) (i : ℕ) (hi : i < n) (T : ℕ → ℝ) (hT : ∀ i, T i = nodeTime (e.newMoon k) n i)
    (hs : ∀ t, 0 ≤ (e.sun k n t).x ∧ (e.sun k n t).x < 2 * π) (hm : ∀ t, 0 ≤ (e.moon k n t).x ∧ (e.moon k n t).x < 2 * π) :
    let c := cell (build e k n)
    (∀ j ∈ [0, 3, 6], c 0 j ≤ c i j ∧ c i j < c 0 j + 2 * π)
    ∧ (∀ (δ : ℝ) (w : ℤ), 0 ≤ δ → δ < 2 * π → (e.sun k n (T i)).x = (e.sun k n (T 0)).x + δ + 2 * π * w → c i 0 = c 0 0 + δ)
    ∧ (∀ (δ : ℝ) (w : ℤ), 0 ≤ δ → δ < 2 * π → (e.moon k n (T i)).x = (e.moon k n (T 0)).x + δ + 2 * π * w → c i 3 = c 0 3 + δ) := by
  intro c
  have hpi := pi_pos
  have h0 : ∀ j < 9, c 0 j = (node e k n 0 none).getD j 0 := fun j hj => by
    show cell _ _ _ = _
    rw [build_cell e k n 0 j (by omega) hj, if_pos rfl]
  have hcj : ∀ j < 9, c i j = (node e k n i (if i = 0 then none else some (node e k n 0 none))).getD j 0 := fun j hj => build_cell e k n i j hi hj
  have s0 : c 0 0 = (e.sun k n (T 0)).x := by rw [h0 0 (by omega), hT]; rfl
  have m0 : c 0 3 = (e.moon k n (T 0)).x := by rw [h0 3 (by omega), hT]; rfl
  obtain ⟨X, hX⟩ : ∃ X : ℕ → ℝ, X = fun i => c i 6 := ⟨_, rfl⟩
  have b0 : ∃ y, 0 ≤ y ∧ y < 2 * π ∧ c 0 6 = π / 2 + y := by
    rw [h0 6 (by omega)]
    exact ⟨_, (c37_range _).1, (c37_range _).2.1, rfl⟩
  by_cases hi0 : i = 0
  · subst hi0
    refine ⟨fun j _ => ⟨le_refl _, by linarith⟩, ?_, ?_⟩
    · intro δ w d1 d2 h
      have : (w : ℝ) = 0 := by
        have e1 : δ = -(2 * π * w) := by linarith
        have l1 : (w : ℝ) ≤ 0 := by by_contra hc; push Not at hc; nlinarith
        have l2 : (-1 : ℝ) < w := by nlinarith
        have l1' : w ≤ 0 := by exact_mod_cast l1
        have l2' : -1 < w := by exact_mod_cast l2
        exact_mod_cast (by omega : w = 0)
      rw [this] at h; linarith
    · intro δ w d1 d2 h
      have : (w : ℝ) = 0 := by
        have e1 : δ = -(2 * π * w) := by linarith
        have l1 : (w : ℝ) ≤ 0 := by by_contra hc; push Not at hc; nlinarith
        have l2 : (-1 : ℝ) < w := by nlinarith
        have l1' : w ≤ 0 := by exact_mod_cast l1
        have l2' : -1 < w := by exact_mod_cast l2
        exact_mod_cast (by omega : w = 0)
      rw [this] at h; linarith
  · have sI : c i 0 = if (e.sun k n (T i)).x < c 0 0 then (e.sun k n (T i)).x + 2 * π else (e.sun k n (T i)).x := by
      rw [hcj 0 (by omega), if_neg hi0, h0 0 (by omega), hT]; rfl
    have mI : c i 3 = if (e.moon k n (T i)).x < c 0 3 then (e.moon k n (T i)).x + 2 * π else (e.moon k n (T i)).x := by
      rw [hcj 3 (by omega), if_neg hi0, h0 3 (by omega), hT]; rfl
    have bI : ∃ y, 0 ≤ y ∧ y < 2 * π ∧ c i 6 = if π / 2 + y < c 0 6 then π / 2 + y + 2 * π else π / 2 + y := by
      rw [hcj 6 (by omega), if_neg hi0, h0 6 (by omega)]
      exact ⟨_, (c37_range _).1, (c37_range _).2.1, rfl⟩
    have adv : ∀ (x x0 v : ℝ), 0 ≤ x → x < 2 * π → 0 ≤ x0 → x0 < 2 * π → v = (if x < x0 then x + 2 * π else x) →
        ∀ (δ : ℝ) (w : ℤ), 0 ≤ δ → δ < 2 * π → x = x0 + δ + 2 * π * w → v = x0 + δ := by
      intro x x0 v a1 a2 a3 a4 hv δ w d1 d2 h
      have l1 : (w : ℝ) < 1 := by nlinarith
      have l2 : (-2 : ℝ) < w := by nlinarith
      have l1' : w < 1 := by exact_mod_cast l1
      have l2' : -2 < w := by exact_mod_cast l2
      rcases (by omega : w = 0 ∨ w = -1) with rfl | rfl
      · push_cast at h
        rw [hv, if_neg (by linarith), h]; ring
      · push_cast at h
        rw [hv, if_pos (by linarith), h]; ring
    obtain ⟨sA, sB⟩ := hs (T i)
    obtain ⟨sC, sD⟩ := hs (T 0)
    obtain ⟨mA, mB⟩ := hm (T i)
    obtain ⟨mC, mD⟩ := hm (T 0)
    refine ⟨?_, ?_, ?_⟩
    · intro j hj
      simp only [List.mem_cons, List.not_mem_nil, or_false] at hj
      rcases hj with rfl | rfl | rfl
      · rw [sI, s0]; split_ifs <;> constructor <;> linarith
      · rw [mI, m0]; split_ifs <;> constructor <;> linarith
      · obtain ⟨y, y1, y2, hy⟩ := bI
        obtain ⟨z, z1, z2, hz⟩ := b0
        rw [hy, hz]; split_ifs <;> constructor <;> linarith
    · intro δ w d1 d2 h
      rw [s0]
      exact adv _ _ _ sA sB sC sD (by rw [sI, s0]) δ w d1 d2 h
    · intro δ w d1 d2 h
      rw [m0]
      exact adv _ _ _ mA mB mC mD (by rw [mI, m0]) δ w d1 d2 h

/-- an ephemeris meeting the hypotheses: the mean new moon, sun and moon standing still -/
noncomputable def demoEph : Eph := ⟨fun k => 29.530588853 * k + 5.098, fun _ _ _ => ⟨1, 0, 1⟩, fun _ _ _ => ⟨1, 0, 2⟩, fun _ _ _ => 0⟩

example : suoN (demoEph.newMoon 100) = 100 := c54_numbering demoEph 100 (by norm_num) (by simp [demoEph])

example : ((RsTab.fresh.init demoEph 0 7).init demoEph 3000 3).init demoEph 0 7 = ⟨demoEph.newMoon 0, build demoEph 0 7⟩ := by
  have h0 : suoN 0 = 0 := by unfold suoN; rw [Int.floor_eq_iff]; norm_num
  have h1 : suoN 3000 = 101 := by unfold suoN; rw [Int.floor_eq_iff]; norm_num
  have := c54_history demoEph (fun k => |k| ≤ 900000) (fun k hk => c54_numbering demoEph k hk (by simp [demoEph])) [(0, 7), (3000, 3)]
    (by intro q hq; simp at hq; rcases hq with rfl | rfl <;> simp [h0, h1]) 0 7 (by norm_num)
  simpa [h0] using this

end Verif.Geom
