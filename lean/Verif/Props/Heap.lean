import Verif.Sort
import Verif.OrderSpec
import Mathlib.Data.List.Basic
import Mathlib.Tactic.Common

/-! # Heap algorithms (C46) -/

namespace Verif.Sort
open Verif

variable {α : Type} {lt : α → α → Bool}

/-- `a[i]` is not before `a[j]` -/
def Ge (lt : α → α → Bool) (a : List α) (i j : ℕ) : Prop := ∀ x y, a[i]? = some x → a[j]? = some y → lt x y = false

/-- `[f, f + n)` is a (max-)heap: no element is before one of its children -/
def IsHeap (lt : α → α → Bool) (a : List α) (f n : ℕ) : Prop := ∀ i, 0 < i → i < n → Ge lt a (f + (i - 1) / 2) (f + i)

/-- the heap order for the parents from position `t` on -/
def HeapFrom (lt : α → α → Bool) (a : List α) (f n t : ℕ) : Prop :=
  ∀ i, 0 < i → i < n → t ≤ (i - 1) / 2 → Ge lt a (f + (i - 1) / 2) (f + i)

/-- `P` holds for the elements in `[f, f + n)`, except perhaps at `f + h` -/
def AllBut (P : α → Prop) (a : List α) (f n h : ℕ) : Prop := ∀ i x, i < n → i ≠ h → a[f + i]? = some x → P x

/-- positions outside `[f, f + n)` are the same -/
def Frame (a b : List α) (f n : ℕ) : Prop := ∀ i, i < f ∨ f + n ≤ i → a[i]? = b[i]?

theorem wr_eq {a : List α} {i : ℕ} (h : i < a.length) (v : α) : wr a i v = some (a.set i v) := by simp [wr, h]

theorem get_eq {a : List α} {i : ℕ} (h : i < a.length) : a[i]? = some a[i] := List.getElem?_eq_getElem h

theorem get_set (a : List α) (i j : ℕ) (v : α) (h : i < a.length) : (a.set i v)[j]? = if i = j then some v else a[j]? := by
  rw [List.getElem?_set]; split <;> simp_all

theorem set_move_perm (a : List α) (i j : ℕ) (v x : α) (hi : i < a.length) (hj : j < a.length) (hx : a[j]? = some x) (hij : i ≠ j) :
    ((a.set i x).set j v).Perm (a.set i v) := by
  have h := List.set_set_perm (as := a.set i v) (i := i) (j := j) (by simpa using hi) (by simpa using hj)
  have e1 : (a.set i v)[i]'(by simpa using hi) = v := by simp
  have e2 : (a.set i v)[j]'(by simpa using hj) = x := by
    rw [List.getElem_set_ne hij]
    rw [get_eq hj] at hx; exact Option.some.inj hx
  rw [e1, e2, List.set_set] at h
  exact h

theorem ge_trans (hs : StrictWeak lt) {x y z : α} (h1 : lt x y = false) (h2 : lt y z = false) : lt x z = false := by
  by_contra h
  rcases hs.trans_neg x y z (by simpa using h) with h' | h' <;> simp_all

theorem irrefl' (hs : StrictWeak lt) (x : α) : lt x x = false := by
  by_contra h
  have := hs.asymm x x (by simpa using h)
  simp_all

/-- `h` lies in the subtree of `t` -/
inductive Below (t : ℕ) : ℕ → Prop
  | top : Below t t
  | child {h : ℕ} : 0 < h → Below t ((h - 1) / 2) → Below t h

theorem Below.le {t h : ℕ} (b : Below t h) : t ≤ h := by
  induction b with
  | top => exact Nat.le_refl _
  | child _ _ ih => omega

theorem Below.up {t h : ℕ} (b : Below t h) (ht : t < h) : Below t ((h - 1) / 2) := by
  cases b with
  | top => omega
  | child _ hb => exact hb

theorem below_zero (h : ℕ) : Below 0 h := by
  induction h using Nat.strongRecOn with
  | ind h ih =>
    rcases Nat.eq_zero_or_pos h with rfl | hp
    · exact .top
    · exact .child hp (ih _ (by omega))

/-- state of the percolation: a hole at `h`, all order constraints that do not involve the hole hold, and those across it as well -/
structure Hole (lt : α → α → Bool) (a : List α) (f n t h : ℕ) : Prop where
  edges : ∀ i, 0 < i → i < n → t ≤ (i - 1) / 2 → i ≠ h → (i - 1) / 2 ≠ h → Ge lt a (f + (i - 1) / 2) (f + i)
  across : t < h → ∀ c, 0 < c → c < n → (c - 1) / 2 = h → Ge lt a (f + (h - 1) / 2) (f + c)
  below : Below t h
  lt_n : h < n

/-- what an operation on the heap with a hole at `h` and value `v` to place yields -/
structure Placed (lt : α → α → Bool) (a a' : List α) (f n t h : ℕ) (v : α) : Prop where
  perm : a'.Perm (a.set (f + h) v)
  frame : Frame a' a f n
  all : ∀ P : α → Prop, P v → AllBut P a f n h → AllBut P a' f n n

theorem pushAux_ok (hs : StrictWeak lt) (f n t : ℕ) (v : α) : ∀ (fuel : ℕ) (a : List α) (h : ℕ), h < fuel → f + n ≤ a.length →
    Hole lt a f n t h → (∀ c y, 0 < c → c < n → (c - 1) / 2 = h → a[f + c]? = some y → lt v y = false) →
    ∃ a', pushAux lt f t v fuel a h = some a' ∧ Placed lt a a' f n t h v ∧ HeapFrom lt a' f n t := by
  intro fuel
  induction fuel with
  | zero => intro a h hf; omega
  | succ fuel ih =>
    intro a h hf hl hh hc
    have hn := hh.lt_n
    have hfh : f + h < a.length := by omega
    -- the final write
    have fin : (t < h → ∀ x, a[f + (h - 1) / 2]? = some x → lt x v = false) →
        Placed lt a (a.set (f + h) v) f n t h v ∧ HeapFrom lt (a.set (f + h) v) f n t := by
      intro hp
      refine ⟨⟨List.Perm.refl _, ?_, ?_⟩, ?_⟩
      · intro i hi
        rw [get_set _ _ _ _ hfh, if_neg (by omega)]
      · intro P hv hP i x hi _ hx
        rw [get_set _ _ _ _ hfh] at hx
        by_cases e : f + h = f + i
        · rw [if_pos e] at hx; cases hx; exact hv
        · rw [if_neg e] at hx; exact hP i x hi (by omega) hx
      · intro i h0 hi hti x y hx hy
        rw [get_set _ _ _ _ hfh] at hx hy
        by_cases e1 : f + h = f + (i - 1) / 2
        · rw [if_pos e1] at hx; cases hx
          rw [if_neg (by omega)] at hy
          exact hc i y h0 hi (by omega) hy
        · rw [if_neg e1] at hx
          by_cases e2 : f + h = f + i
          · rw [if_pos e2] at hy; cases hy
            have : i = h := by omega
            subst this
            exact hp (by omega) x hx
          · rw [if_neg e2] at hy
            exact hh.edges i h0 hi hti (by omega) (by omega) x y hx hy
    unfold pushAux
    by_cases ht : h > t
    · have hpn : f + (h - 1) / 2 < a.length := by omega
      have hx := get_eq hpn
      generalize a[f + (h - 1) / 2] = x at hx
      simp only [ht, if_true, hx, Option.bind_eq_bind, Option.bind_some]
      by_cases hlt : lt x v = true
      · simp only [hlt, if_true, wr_eq hfh, Option.bind_some]
        have hb := hh.below.up ht
        have hbt := hb.le
        have hne : f + h ≠ f + (h - 1) / 2 := by omega
        have hxv : lt v x = false := hs.asymm _ _ hlt
        obtain ⟨a', e, hp, hheap⟩ := ih (a.set (f + h) x) ((h - 1) / 2) (by omega) (by simpa using hl) (by
          refine ⟨?_, ?_, hb, by omega⟩
          · intro i h0 hi hti g1 g2 y z hy hz
            rw [get_set _ _ _ _ hfh] at hy hz
            by_cases e1 : f + h = f + (i - 1) / 2
            · rw [if_pos e1] at hy; cases hy
              rw [if_neg (by omega)] at hz
              exact hh.across ht i h0 hi (by omega) x z hx hz
            · rw [if_neg e1] at hy
              rw [if_neg (by intro e2; apply g2; rw [show i = h by omega])] at hz
              exact hh.edges i h0 hi hti (by rintro rfl; exact g2 rfl) (by omega) y z hy hz
          · intro ht2 c h0 hc2 hcp y z hy hz
            rw [get_set _ _ _ _ hfh] at hy hz
            rw [if_neg (by omega)] at hy
            have e1 : lt y x = false := hh.edges ((h - 1) / 2) (by omega) (by omega) (by have := (hb.up ht2).le; omega) (by omega) (by omega) y x hy hx
            by_cases e2 : f + h = f + c
            · rw [if_pos e2] at hz; cases hz; exact e1
            · rw [if_neg e2] at hz
              refine ge_trans hs e1 (hh.edges c h0 hc2 (by omega) (by omega) (by omega) x z ?_ hz)
              rw [hcp]; exact hx) (by
          intro c y h0 hc2 hcp hy
          rw [get_set _ _ _ _ hfh] at hy
          by_cases e2 : f + h = f + c
          · rw [if_pos e2] at hy; cases hy; exact hxv
          · rw [if_neg e2] at hy
            refine ge_trans hs hxv (hh.edges c h0 hc2 (by omega) (by omega) (by omega) x y ?_ hy)
            rw [hcp]; exact hx)
        refine ⟨a', e, ⟨?_, ?_, ?_⟩, hheap⟩
        · exact hp.perm.trans (set_move_perm a _ _ v x hfh hpn hx hne)
        · intro i hi
          rw [hp.frame i hi, get_set _ _ _ _ hfh, if_neg (by omega)]
        · intro P hv hP
          refine hp.all P hv ?_
          intro i y hi hih hy
          rw [get_set _ _ _ _ hfh] at hy
          by_cases e2 : f + h = f + i
          · rw [if_pos e2] at hy; cases hy
            exact hP _ x (by omega) (by omega) hx
          · rw [if_neg e2] at hy
            exact hP i y hi (by omega) hy
      · simp only [hlt, wr_eq hfh]
        refine ⟨_, by simp, fin ?_⟩
        intro _ y hy
        rw [hx] at hy; cases hy
        simpa using hlt
    · simp only [ht, if_false, wr_eq hfh]
      exact ⟨_, rfl, fin (fun h' => absurd h' ht)⟩

theorem downLoop_ok (hs : StrictWeak lt) (f n t : ℕ) (v : α) : ∀ (fuel : ℕ) (a : List α) (h : ℕ), n < fuel + h → f + n ≤ a.length →
    Hole lt a f n t h → ∃ a' h', downLoop lt f n fuel a h = some (a', h') ∧ Hole lt a' f n t h' ∧ n ≤ 2 * h' + 1 ∧ a'.length = a.length ∧
      (a'.set (f + h') v).Perm (a.set (f + h) v) ∧ Frame a' a f n ∧ ∀ P, AllBut P a f n h → AllBut P a' f n h' := by
  intro fuel
  induction fuel with
  | zero => intro a h hf hl hh; have := hh.lt_n; omega
  | succ fuel ih =>
    intro a h hf hl hh
    have hn := hh.lt_n
    have hfh : f + h < a.length := by omega
    -- moving the child `c` with value `z` up into the hole
    have step : ∀ c z, 0 < c → c < n → (c - 1) / 2 = h → a[f + c]? = some z →
        (∀ c' y, 0 < c' → c' < n → (c' - 1) / 2 = h → a[f + c']? = some y → lt z y = false) →
        Hole lt (a.set (f + h) z) f n t c ∧ ((a.set (f + h) z).set (f + c) v).Perm (a.set (f + h) v) ∧
          Frame (a.set (f + h) z) a f n ∧ ∀ P, AllBut P a f n h → AllBut P (a.set (f + h) z) f n c := by
      intro c z h0 hc hcp hz hmax
      have hbt := hh.below.le
      refine ⟨⟨?_, ?_, .child h0 (by rw [hcp]; exact hh.below), hc⟩, set_move_perm a _ _ v z hfh (by omega) hz (by omega), ?_, ?_⟩
      · intro i g0 hi hti g1 g2 x y hx hy
        rw [get_set _ _ _ _ hfh] at hx hy
        by_cases e1 : f + h = f + (i - 1) / 2
        · rw [if_pos e1] at hx; cases hx
          rw [if_neg (by omega)] at hy
          exact hmax i y g0 hi (by omega) hy
        · rw [if_neg e1] at hx
          by_cases e2 : f + h = f + i
          · rw [if_pos e2] at hy; cases hy
            have : i = h := by omega
            subst this
            exact hh.across (by omega) c h0 hc hcp x z hx hz
          · rw [if_neg e2] at hy
            exact hh.edges i g0 hi hti (by omega) (by omega) x y hx hy
      · intro _ c' g0 hc' hcp' x y hx hy
        rw [get_set _ _ _ _ hfh] at hx hy
        rw [if_pos (by omega)] at hx; cases hx
        rw [if_neg (by omega)] at hy
        refine hh.edges c' g0 hc' (by omega) (by omega) (by omega) z y ?_ hy
        rw [hcp']; exact hz
      · intro i hi
        rw [get_set _ _ _ _ hfh, if_neg (by omega)]
      · intro P hP i x hi hic hx
        rw [get_set _ _ _ _ hfh] at hx
        by_cases e : f + h = f + i
        · rw [if_pos e] at hx; cases hx
          exact hP c z hc (by omega) hz
        · rw [if_neg e] at hx
          exact hP i x hi (by omega) hx
    unfold downLoop
    by_cases h1 : 2 * h + 2 < n
    · have hx := get_eq (show f + (2 * h + 2) < a.length by omega)
      generalize a[f + (2 * h + 2)] = x at hx
      have hy := get_eq (show f + (2 * h + 2) - 1 < a.length by omega)
      generalize a[f + (2 * h + 2) - 1] = y at hy
      simp only [h1, if_true, hx, hy, Option.bind_eq_bind, Option.bind_some]
      have fin : ∀ c z, 0 < c → c < n → (c - 1) / 2 = h → a[f + c]? = some z →
          (∀ c' y, 0 < c' → c' < n → (c' - 1) / 2 = h → a[f + c']? = some y → lt z y = false) →
          ∃ a' h', (do let z ← a[f + c]?
                       let a ← wr a (f + h) z
                       downLoop lt f n fuel a c) = some (a', h') ∧ Hole lt a' f n t h' ∧ n ≤ 2 * h' + 1 ∧ a'.length = a.length ∧
            (a'.set (f + h') v).Perm (a.set (f + h) v) ∧ Frame a' a f n ∧ ∀ P, AllBut P a f n h → AllBut P a' f n h' := by
        intro c z h0 hc hcp hz hmax
        obtain ⟨s1, s2, s3, s4⟩ := step c z h0 hc hcp hz hmax
        obtain ⟨a', h', e, i1, i2, i3, i4, i5, i6⟩ := ih (a.set (f + h) z) c (by omega) (by simpa using hl) s1
        refine ⟨a', h', ?_, i1, i2, by simpa using i3, i4.trans s2, ?_, fun P hP => i6 P (s4 P hP)⟩
        · simp only [hz, Option.bind_eq_bind, Option.bind_some, wr_eq hfh]; exact e
        · intro i hi
          rw [i5 i hi, s3 i hi]
      have hch : ∀ c', 0 < c' → c' < n → (c' - 1) / 2 = h → c' = 2 * h + 1 ∨ c' = 2 * h + 2 := by intro c' _ _ _; omega
      by_cases hlt : lt x y = true
      · simp only [hlt, if_true]
        refine fin (2 * h + 2 - 1) y (by omega) (by omega) (by omega) (by rw [← hy]; congr 1) ?_
        intro c' w g0 g1 g2 hw
        rcases hch c' g0 g1 g2 with rfl | rfl
        · rw [show f + (2 * h + 1) = f + (2 * h + 2) - 1 by omega, hy] at hw; cases hw; exact irrefl' hs _
        · rw [hx] at hw; cases hw; exact hs.asymm _ _ hlt
      · simp only [hlt]
        refine fin (2 * h + 2) x (by omega) (by omega) (by omega) hx ?_
        intro c' w g0 g1 g2 hw
        rcases hch c' g0 g1 g2 with rfl | rfl
        · rw [show f + (2 * h + 1) = f + (2 * h + 2) - 1 by omega, hy] at hw; cases hw; simpa using hlt
        · rw [hx] at hw; cases hw; exact irrefl' hs _
    · simp only [h1, if_false]
      by_cases h2 : 2 * h + 2 = n
      · simp only [h2, if_true]
        have hz := get_eq (show f + (n - 1) < a.length by omega)
        generalize a[f + (n - 1)] = z at hz
        obtain ⟨s1, s2, s3, s4⟩ := step (n - 1) z (by omega) (by omega) (by omega) hz (by
          intro c' w g0 g1 g2 hw
          rw [show c' = n - 1 by omega, hz] at hw; cases hw; exact irrefl' hs _)
        refine ⟨a.set (f + h) z, n - 1, ?_, s1, by omega, by simp, s2, s3, s4⟩
        simp only [hz, Option.bind_eq_bind, Option.bind_some, wr_eq hfh]; rfl
      · simp only [h2, if_false]
        exact ⟨a, h, rfl, hh, by omega, rfl, List.Perm.refl _, fun _ _ => rfl, fun _ h => h⟩

theorem adjustHeap_ok (hs : StrictWeak lt) (f n t : ℕ) (v : α) (a : List α) (hl : f + n ≤ a.length) (ht : t < n)
    (hh : HeapFrom lt a f n (t + 1)) :
    ∃ a', adjustHeap lt f a t n v = some a' ∧ Placed lt a a' f n t t v ∧ HeapFrom lt a' f n t := by
  obtain ⟨a1, h1, e1, d1, d2, d3, d4, d5, d6⟩ := downLoop_ok hs f n t v (n + 1) a t (by omega) hl
    ⟨fun i g0 g1 g2 g3 g4 => hh i g0 g1 (by omega), fun h => absurd h (Nat.lt_irrefl _), .top, ht⟩
  obtain ⟨a2, e2, p2, q2⟩ := pushAux_ok hs f n t v (h1 + 1) a1 h1 (by omega) (by omega) d1 (by intro c y _ _ _; omega)
  refine ⟨a2, ?_, ⟨p2.perm.trans d4, ?_, ?_⟩, q2⟩
  · unfold adjustHeap
    rw [e1]; exact e2
  · intro i hi
    rw [p2.frame i hi, d5 i hi]
  · intro P hv hP
    exact p2.all P hv (d6 P hP)

/-- the root of a heap is its maximum -/
theorem heap_root (hs : StrictWeak lt) (f n : ℕ) (a : List α) (hl : f + n ≤ a.length) (hh : IsHeap lt a f n) :
    ∀ i, i < n → Ge lt a f (f + i) := by
  intro i
  induction i using Nat.strongRecOn with
  | ind i ih =>
    intro hi x y hx hy
    rcases Nat.eq_zero_or_pos i with rfl | h0
    · simp only [Nat.add_zero] at hy
      rw [hx] at hy; cases hy; exact irrefl' hs _
    · have hp := get_eq (show f + (i - 1) / 2 < a.length by omega)
      exact ge_trans hs (ih _ (by omega) (by omega) x _ hx hp) (hh i h0 hi _ y hp hy)

/-- C46: `push_heap` on a heap with a new element at its end makes the whole range a heap -/
theorem c46_push_heap (hs : StrictWeak lt) (a : List α) (f n : ℕ) (hl : f + n ≤ a.length) (hn : 0 < n) (hh : IsHeap lt a f (n - 1)) :
    ∃ a', pushHeap lt a f (f + n) = some a' ∧ IsHeap lt a' f n ∧ a'.Perm a ∧ Frame a' a f n := by
  have hv := get_eq (show f + n - 1 < a.length by omega)
  generalize a[f + n - 1] = v at hv
  obtain ⟨a', e, p, q⟩ := pushAux_ok hs f n 0 v (n + 1) a (n - 1) (by omega) hl
    ⟨fun i g0 g1 g2 g3 g4 => hh i g0 (by omega), by intro _ c; omega, below_zero _, by omega⟩ (by intro c y _ _ _; omega)
  refine ⟨a', ?_, fun i g0 g1 => q i g0 g1 (Nat.zero_le _), ?_, p.frame⟩
  · unfold pushHeap
    rw [if_neg (by omega), hv, Option.bind_eq_bind, Option.bind_some, show f + n - f = n by omega]; exact e
  · refine p.perm.trans ?_
    have : a.set (f + (n - 1)) v = a := by
      apply List.ext_getElem?
      intro i
      rw [get_set _ _ _ _ (by omega)]
      split
      · subst_vars; rw [← hv]; congr 1; omega
      · rfl
    rw [this]

theorem makeLoop_ok (hs : StrictWeak lt) (f n : ℕ) : ∀ (h : ℕ) (a : List α), f + n ≤ a.length → h < n → HeapFrom lt a f n (h + 1) →
    ∃ a', makeLoop lt f n h a = some a' ∧ IsHeap lt a' f n ∧ a'.Perm a ∧ Frame a' a f n ∧ ∀ P, AllBut P a f n n → AllBut P a' f n n := by
  intro h
  induction h with
  | zero =>
    intro a hl hn hh
    have hv := get_eq (show f + 0 < a.length by omega)
    generalize hve : a[f + 0] = v at hv
    obtain ⟨a', e, p, q⟩ := adjustHeap_ok hs f n 0 v a hl hn hh
    have hset : a.set (f + 0) v = a := by rw [← hve]; exact List.set_getElem_self _
    refine ⟨a', ?_, fun i g0 g1 => q i g0 g1 (Nat.zero_le _), by rw [← hset]; exact p.perm, p.frame, ?_⟩
    · unfold makeLoop
      rw [hv, Option.bind_eq_bind, Option.bind_some, e]; rfl
    · intro P hP
      exact p.all P (hP 0 v hn (by omega) hv) (fun i x g1 g2 g3 => hP i x g1 (by omega) g3)
  | succ h ih =>
    intro a hl hn hh
    have hv := get_eq (show f + (h + 1) < a.length by omega)
    generalize hve : a[f + (h + 1)] = v at hv
    obtain ⟨a1, e, p, q⟩ := adjustHeap_ok hs f n (h + 1) v a hl hn hh
    have hset : a.set (f + (h + 1)) v = a := by rw [← hve]; exact List.set_getElem_self _
    have hperm : a1.Perm a := by have := p.perm; rwa [hset] at this
    obtain ⟨a2, e2, i1, i2, i3, i4⟩ := ih a1 (by rw [hperm.length_eq]; exact hl) (by omega) q
    refine ⟨a2, ?_, i1, i2.trans hperm, fun i hi => (i3 i hi).trans (p.frame i hi), ?_⟩
    · unfold makeLoop
      simp only [hv, Option.bind_eq_bind, Option.bind_some, e]; exact e2
    · intro P hP
      exact i4 P (p.all P (hP _ v hn (by omega) hv) (fun i x g1 g2 g3 => hP i x g1 (by omega) g3))

/-- C46: `make_heap` makes the range a heap -/
theorem makeHeap_ok (hs : StrictWeak lt) (a : List α) (f n : ℕ) (hl : f + n ≤ a.length) :
    ∃ a', makeHeap lt a f (f + n) = some a' ∧ IsHeap lt a' f n ∧ a'.Perm a ∧ Frame a' a f n ∧ ∀ P, AllBut P a f n n → AllBut P a' f n n := by
  unfold makeHeap
  rw [show f + n - f = n by omega]
  by_cases h : n < 2
  · rw [if_pos h]
    exact ⟨a, rfl, fun i g0 g1 => absurd g1 (by omega), List.Perm.refl _, fun _ _ => rfl, fun _ h => h⟩
  · rw [if_neg h]
    exact makeLoop_ok hs f n _ a hl (by omega) (fun i g0 g1 g2 => absurd g2 (by omega))

theorem c46_make_heap (hs : StrictWeak lt) (a : List α) (f n : ℕ) (hl : f + n ≤ a.length) :
    ∃ a', makeHeap lt a f (f + n) = some a' ∧ IsHeap lt a' f n ∧ a'.Perm a ∧ Frame a' a f n := by
  obtain ⟨a', h1, h2, h3, h4, _⟩ := makeHeap_ok hs a f n hl
  exact ⟨a', h1, h2, h3, h4⟩

/-- replacing the root: `pop_heap_aux(first, middle, i, *i)` puts the root at `i ≥ middle` and the value from there into the heap -/
theorem popAux_ok (hs : StrictWeak lt) (a : List α) (f n i : ℕ) (v : α) (hn : 0 < n) (hi : f + n ≤ i) (hil : i < a.length)
    (hv : a[i]? = some v) (hh : IsHeap lt a f n) (r : α) (hr : a[f]? = some r) :
    ∃ a', popAux lt a f (f + n) i v = some a' ∧ IsHeap lt a' f n ∧ a'.Perm a ∧
      (∀ j, j < f ∨ f + n ≤ j → a'[j]? = if j = i then some r else a[j]?) ∧
      ∀ P : α → Prop, P v → AllBut P a f n n → AllBut P a' f n n := by
  have h1 : (a.set i r).length = a.length := by simp
  obtain ⟨a', e, p, q⟩ := adjustHeap_ok hs f n 0 v (a.set i r) (by rw [h1]; omega) hn (by
    intro j g0 g1 g2 x y hx hy
    rw [get_set _ _ _ _ hil, if_neg (by omega)] at hx hy
    exact hh j g0 g1 x y hx hy)
  refine ⟨a', ?_, fun i g0 g1 => q i g0 g1 (Nat.zero_le _), ?_, ?_, ?_⟩
  · unfold popAux
    simp only [hr, Option.bind_eq_bind, Option.bind_some, wr_eq hil, show f + n - f = n by omega]; exact e
  · refine p.perm.trans ?_
    have h2 := set_move_perm a i (f + 0) v r hil (by omega) hr (by omega)
    refine h2.trans ?_
    rw [get_eq hil] at hv
    rw [← Option.some.inj hv, List.set_getElem_self]
  · intro j hj
    rw [p.frame j hj, get_set _ _ _ _ hil]
    by_cases e : j = i
    · rw [if_pos e, if_pos e.symm]
    · rw [if_neg e, if_neg (fun h => e h.symm)]
  · intro P hPv hP
    refine p.all P hPv ?_
    intro j x g1 g2 hx
    rw [get_set _ _ _ _ hil, if_neg (by omega)] at hx
    exact hP j x g1 (by omega) hx

/-- C46: `pop_heap` moves the maximum to the end and leaves a heap before it -/
theorem c46_pop_heap (hs : StrictWeak lt) (a : List α) (f n : ℕ) (hl : f + n ≤ a.length) (hn : 1 < n) (hh : IsHeap lt a f n) :
    ∃ a', popHeap lt a f (f + n) = some a' ∧ IsHeap lt a' f (n - 1) ∧ a'.Perm a ∧ a'[f + (n - 1)]? = a[f]? ∧
      (∀ i, i < n → Ge lt a' (f + (n - 1)) (f + i)) ∧ Frame a' a f n ∧ ∀ P, AllBut P a f n n → AllBut P a' f n n := by
  have hv := get_eq (show f + (n - 1) < a.length by omega)
  generalize a[f + (n - 1)] = v at hv
  have hr := get_eq (show f < a.length by omega)
  generalize a[f] = r at hr
  obtain ⟨a', e, p1, p2, p3, p4⟩ := popAux_ok hs a f (n - 1) (f + (n - 1)) v (by omega) (by omega) (by omega) hv
    (fun i g0 g1 => hh i g0 (by omega)) r hr
  have hlast : a'[f + (n - 1)]? = some r := by rw [p3 _ (by omega), if_pos rfl]
  have hall : ∀ P, AllBut P a f n n → AllBut P a' f n n := by
    intro P hP i x g1 g2 hx
    by_cases e : i = n - 1
    · subst e
      rw [hlast] at hx; cases hx
      exact hP 0 _ (by omega) (by omega) hr
    · exact p4 P (hP (n - 1) v (by omega) (by omega) hv) (fun j y g1 g2 g3 => hP j y (by omega) (by omega) g3) i x (by omega) (by omega) hx
  refine ⟨a', ?_, p1, p2, by rw [hlast, hr], ?_, ?_, hall⟩
  · unfold popHeap
    rw [if_neg (by omega), show f + n - 1 = f + (n - 1) by omega, hv, Option.bind_eq_bind, Option.bind_some]; exact e
  · intro i hi x y hx hy
    rw [hlast] at hx
    obtain rfl := Option.some.inj hx
    refine hall (fun y => lt r y = false) ?_ i y hi (by omega) hy
    intro j z g1 g2 hz
    exact heap_root hs f n a hl hh j g1 _ z hr hz
  · intro j hj
    rw [p3 j (by omega), if_neg (by omega)]

theorem sortHeap_ok (hs : StrictWeak lt) (f : ℕ) : ∀ (n : ℕ) (a : List α), f + n ≤ a.length → IsHeap lt a f n →
    ∃ a', sortHeap lt f n a = some a' ∧ a'.Perm a ∧ (∀ i j, i < j → j < n → Ge lt a' (f + j) (f + i)) ∧ Frame a' a f n ∧
      ∀ P, AllBut P a f n n → AllBut P a' f n n := by
  intro n
  induction n with
  | zero => intro a hl hh; exact ⟨a, rfl, List.Perm.refl _, by intro i j; omega, fun _ _ => rfl, fun _ h => h⟩
  | succ n ih =>
    intro a hl hh
    unfold sortHeap
    by_cases hn : n + 1 > 1
    · obtain ⟨a1, e1, q1, q2, q3, q4, q5, q6⟩ := c46_pop_heap hs a f (n + 1) hl hn hh
      obtain ⟨a2, e2, r1, r2, r3, r4⟩ := ih a1 (by rw [q2.length_eq]; omega) q1
      simp only [Nat.add_sub_cancel] at q4 q3
      refine ⟨a2, by rw [if_pos hn, e1, Option.bind_eq_bind, Option.bind_some]; exact e2, r1.trans q2, ?_, ?_, ?_⟩
      · intro i j hij hj
        by_cases e : j = n
        · subst e
          intro x y hx hy
          rw [r3 (f + j) (by omega)] at hx
          refine r4 (fun y => lt x y = false) ?_ i y hij (by omega) hy
          intro k z g1 g2 hz
          exact q4 k (by omega) x z hx hz
        · exact r2 i j hij (by omega)
      · intro i hi
        rw [r3 i (by omega), q5 i hi]
      · intro P hP i x g1 g2 hx
        have h1 := q6 P hP
        by_cases e : i = n
        · subst e
          rw [r3 (f + i) (by omega)] at hx
          exact h1 i x g1 (by omega) hx
        · exact r4 P (fun j y g1 g2 g3 => h1 j y (by omega) (by omega) g3) i x (by omega) (by omega) hx
    · rw [if_neg hn]
      exact ⟨a, rfl, List.Perm.refl _, by intro i j; omega, fun _ _ => rfl, fun _ h => h⟩

theorem sortedOn_of_ge {a : List α} {f n : ℕ} (h : ∀ i j, i < j → j < n → Ge lt a (f + j) (f + i)) : SortedOn lt a f (f + n) := by
  intro i j h1 h2 h3 x y hx hy
  refine h (i - f) (j - f) (by omega) (by omega) y x ?_ ?_
  · rw [show f + (j - f) = j by omega]; exact hy
  · rw [show f + (i - f) = i by omega]; exact hx

/-- C46: `sort_heap` sorts a heap -/
theorem c46_sort_heap (hs : StrictWeak lt) (a : List α) (f n : ℕ) (hl : f + n ≤ a.length) (hh : IsHeap lt a f n) :
    ∃ a', sortHeap lt f n a = some a' ∧ SortedOn lt a' f (f + n) ∧ a'.Perm a ∧ Frame a' a f n := by
  obtain ⟨a', h1, h2, h3, h4, _⟩ := sortHeap_ok hs f n a hl hh
  exact ⟨a', h1, sortedOn_of_ge h3, h2, h4⟩

theorem psLoop_ok (hs : StrictWeak lt) (f n : ℕ) (hn : 0 < n) : ∀ (k i : ℕ) (a : List α), f + n ≤ i → i + k ≤ a.length → IsHeap lt a f n →
    (∀ j, f + n ≤ j → j < i → Ge lt a j f) →
    ∃ a', psLoop lt f (f + n) k i a = some a' ∧ IsHeap lt a' f n ∧ a'.Perm a ∧ (∀ j, f + n ≤ j → j < i + k → Ge lt a' j f) ∧
      (∀ j, j < f ∨ i + k ≤ j → a'[j]? = a[j]?) := by
  intro k
  induction k with
  | zero => intro i a h1 h2 h3 h4; exact ⟨a, rfl, h3, List.Perm.refl _, by simpa using h4, fun _ _ => rfl⟩
  | succ k ih =>
    intro i a hi hl hh hge
    have hx := get_eq (show i < a.length by omega)
    generalize a[i] = x at hx
    have hr := get_eq (show f < a.length by omega)
    generalize a[f] = r at hr
    unfold psLoop
    simp only [hx, hr, Option.bind_eq_bind, Option.bind_some]
    by_cases hlt : lt x r = true
    · simp only [hlt, if_true]
      obtain ⟨a1, e1, p1, p2, p3, p4⟩ := popAux_ok hs a f n i x hn hi (by omega) hx hh r hr
      rw [e1, Option.bind_some]
      have hbound : ∀ j y, j < n → a1[f + j]? = some y → lt r y = false := by
        intro j y g hy
        refine p4 (fun y => lt r y = false) (hs.asymm _ _ hlt) ?_ j y g (by omega) hy
        intro j' z g1 _ hz
        exact heap_root hs f n a (by omega) hh j' g1 r z hr hz
      obtain ⟨a2, e2, q1, q2, q3, q4⟩ := ih (i + 1) a1 (by omega) (by rw [p2.length_eq]; omega) p1 (by
        intro j g1 g2 u w hu hw
        have hw' := hbound 0 w hn (by simpa using hw)
        rw [p3 j (by omega)] at hu
        by_cases e : j = i
        · rw [if_pos e] at hu; cases hu; exact hw'
        · rw [if_neg e] at hu
          exact ge_trans hs (hge j g1 (by omega) u r hu hr) hw')
      refine ⟨a2, e2, q1, q2.trans p2, ?_, ?_⟩
      · intro j g1 g2; exact q3 j g1 (by omega)
      · intro j hj
        rw [q4 j (by omega), p3 j (by omega), if_neg (by omega)]
    · simp only [hlt]
      obtain ⟨a2, e2, q1, q2, q3, q4⟩ := ih (i + 1) a (by omega) (by omega) hh (by
        intro j g1 g2 u w hu hw
        by_cases e : j = i
        · subst e; rw [hx] at hu; cases hu; rw [hr] at hw; cases hw; simpa using hlt
        · exact hge j g1 (by omega) u w hu hw)
      exact ⟨a2, by simpa using e2, q1, q2, fun j g1 g2 => q3 j g1 (by omega), fun j hj => q4 j (by omega)⟩

/-- C46: `partial_sort` brings the smallest elements, sorted, to the front of the range -/
theorem c46_partial_sort (hs : StrictWeak lt) (a : List α) (f n k : ℕ) (hl : f + n + k ≤ a.length) (hn : 0 < n) :
    ∃ a', partialSort lt a f (f + n) (f + n + k) = some a' ∧ a'.Perm a ∧ SortedOn lt a' f (f + n) ∧
      (∀ i j, i < n → f + n ≤ j → j < f + n + k → Ge lt a' j (f + i)) ∧ (∀ j, j < f ∨ f + n + k ≤ j → a'[j]? = a[j]?) := by
  obtain ⟨a1, e1, p1, p2, p3, _⟩ := makeHeap_ok hs a f n (by omega)
  obtain ⟨a2, e2, q1, q2, q3, q4⟩ := psLoop_ok hs f n hn k (f + n) a1 (by omega) (by rw [p2.length_eq]; omega) p1 (by intro j; omega)
  have hlen2 := q2.length_eq.trans p2.length_eq
  obtain ⟨a3, e3, r1, r2, r3, r4⟩ := sortHeap_ok hs f n a2 (by omega) q1
  refine ⟨a3, ?_, r1.trans (q2.trans p2), sortedOn_of_ge r2, ?_, ?_⟩
  · unfold partialSort
    simp only [e1, Option.bind_eq_bind, Option.bind_some, show f + n + k - (f + n) = k by omega, e2,
      show f + n - f = n by omega]
    exact e3
  · intro i j g1 g2 g3 x y hx hy
    rw [r3 j (by omega)] at hx
    have hr := get_eq (show f < a2.length by omega)
    refine r4 (fun y => lt x y = false) ?_ i y g1 (by omega) hy
    intro m z h1 h2 hz
    exact ge_trans hs (q3 j g2 g3 x _ hx hr) (heap_root hs f n a2 (by omega) q1 m h1 _ z hr hz)
  · intro j hj
    rw [r3 j (by omega), q4 j (by omega), p3 j (by omega)]

example : (partialSort (fun a b => Nat.blt a b) [5, 3, 9, 1, 7, 2] 0 3 6).map (fun r => r.take 3) = some [1, 2, 3] := by decide +kernel

end Verif.Sort
