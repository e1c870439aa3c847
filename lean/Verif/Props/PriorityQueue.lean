import Verif.PriorityQueue
import Verif.Props.Heap
import Mathlib.Data.Multiset.Basic
import Mathlib.Data.Multiset.AddSub
import Mathlib.Data.List.Sort

/-!
# C85 `priority_queue` is a multiset that shows a largest element
-/

namespace Verif.Pq

open Verif Verif.Sort

variable {α κ : Type}

/-! ## Specification -/

/-- what a queue means: the elements with multiplicity, and the order -/
structure Bag (α κ : Type) where
  elems : Multiset α
  comp : κ

abbrev Bags (α κ : Type) := Nat → Option (Bag α κ)

/-- `x` is a largest element of `m` -/
def Largest (less : κ → α → α → Bool) (k : κ) (m : Multiset α) (x : α) : Prop := x ∈ m ∧ ∀ y ∈ m, less k x y = false

def putBag (w : Bags α κ) (i : Nat) (b : Bag α κ) : Bags α κ := fun k => if k = i then some b else w k

/-- what one call does to the bags -/
inductive SpecStep (less : κ → α → α → Bool) (dflt : κ) (w : Bags α κ) : Op α κ → Bags α κ → Prop
  | new (i) : SpecStep less dflt w (.new i) (putBag w i ⟨0, dflt⟩)
  | newComp (i k) : SpecStep less dflt w (.newComp i k) (putBag w i ⟨0, k⟩)
  | ofList (i) (l : List α) : SpecStep less dflt w (.ofList i l) (putBag w i ⟨l, dflt⟩)
  | copy (i j b) : w j = some b → SpecStep less dflt w (.copy i j) (putBag w i b)
  | move (i j b) : w j = some b → SpecStep less dflt w (.move i j) (putBag (putBag w j ⟨0, b.comp⟩) i b)
  | assign (i j a b) : w i = some a → w j = some b → SpecStep less dflt w (.assign i j) (putBag w i b)
  | moveAssign (i j a b) : i ≠ j → w i = some a → w j = some b → SpecStep less dflt w (.moveAssign i j) (putBag (putBag w j ⟨0, b.comp⟩) i b)
  | assignList (i) (a) (l : List α) : w i = some a → SpecStep less dflt w (.assignList i l) (putBag w i ⟨l, dflt⟩)
  | push (i x b) : w i = some b → SpecStep less dflt w (.push i x) (putBag w i ⟨x ::ₘ b.elems, b.comp⟩)
  | pop (i x m k) : w i = some ⟨x ::ₘ m, k⟩ → Largest less k (x ::ₘ m) x → SpecStep less dflt w (.pop i) (putBag w i ⟨m, k⟩)
  | clear (i b) : w i = some b → SpecStep less dflt w (.clear i) (putBag w i ⟨0, b.comp⟩)
  | swap (i j a b) : w i = some a → w j = some b → SpecStep less dflt w (.swap i j) (putBag (putBag w i b) j a)

/-- the calls a client may make: on existing queues, `pop` only when there is an element, no move from a queue to itself -/
def Allowed (w : Bags α κ) : Op α κ → Prop
  | .new _ | .newComp _ _ | .ofList _ _ => True
  | .copy _ j => (w j).isSome
  | .move i j => i ≠ j ∧ (w j).isSome
  | .assign i j => (w i).isSome ∧ (w j).isSome
  | .moveAssign i j => i ≠ j ∧ (w i).isSome ∧ (w j).isSome
  | .assignList i _ | .push i _ | .clear i => (w i).isSome
  | .pop i => ∃ b, w i = some b ∧ b.elems ≠ 0
  | .swap i j => (w i).isSome ∧ (w j).isSome

/-- a history whose calls are all allowed at the time they are made, whichever largest element each `pop` removed -/
def Client (less : κ → α → α → Bool) (dflt : κ) : Bags α κ → List (Op α κ) → Prop
  | _, [] => True
  | w, o :: os => Allowed w o ∧ ∀ w', SpecStep less dflt w o w' → Client less dflt w' os

/-- the bags after a history -/
inductive SpecRun (less : κ → α → α → Bool) (dflt : κ) : Bags α κ → List (Op α κ) → Bags α κ → Prop
  | nil (w) : SpecRun less dflt w [] w
  | cons {w w' w'' o os} : SpecStep less dflt w o w' → SpecRun less dflt w' os w'' → SpecRun less dflt w (o :: os) w''

/-! ## One queue -/

/-- the queue holds the bag -/
def Holds (less : κ → α → α → Bool) (q : Queue α κ) (b : Bag α κ) : Prop :=
  (q.c : Multiset α) = b.elems ∧ q.comp = b.comp ∧ IsHeap (less q.comp) q.c 0 q.c.length

variable {less : κ → α → α → Bool} {dflt : κ}

theorem make_holds (hs : ∀ k, StrictWeak (less k)) (l : List α) (k : κ) :
    ∃ c, makeHeap (less k) l 0 l.length = some c ∧ Holds less ⟨c, k⟩ ⟨l, k⟩ := by
  obtain ⟨c, h1, h2, h3, -⟩ := c46_make_heap (hs k) l 0 l.length (by omega)
  rw [Nat.zero_add] at h1
  refine ⟨c, h1, Multiset.coe_eq_coe.2 h3, rfl, ?_⟩
  rw [h3.length_eq]; exact h2

theorem holds_copy (hs : ∀ k, StrictWeak (less k)) {q : Queue α κ} {b : Bag α κ} (h : Holds less q b) :
    ∃ p, copyOf less q = some p ∧ Holds less p b := by
  obtain ⟨c, h1, h2⟩ := make_holds hs q.c q.comp
  refine ⟨⟨c, q.comp⟩, ?_, ?_⟩
  · unfold copyOf; rw [h1]; rfl
  · obtain ⟨e1, e2, e3⟩ := h2
    exact ⟨e1.trans h.1, h.2.1, e3⟩

theorem holds_push (hs : ∀ k, StrictWeak (less k)) {q : Queue α κ} {b : Bag α κ} (h : Holds less q b) (x : α) :
    ∃ p, push less q x = some p ∧ Holds less p ⟨x ::ₘ b.elems, b.comp⟩ := by
  obtain ⟨e1, e2, e3⟩ := h
  have hheap : IsHeap (less q.comp) (q.c ++ [x]) 0 ((q.c ++ [x]).length - 1) := by
    intro i hi0 hi y z hy hz
    have hl : (q.c ++ [x]).length - 1 = q.c.length := by simp
    rw [hl] at hi
    rw [List.getElem?_append_left (by omega)] at hy hz
    exact e3 i hi0 hi y z hy hz
  obtain ⟨c, h1, h2, h3, -⟩ := c46_push_heap (hs q.comp) (q.c ++ [x]) 0 (q.c ++ [x]).length (by omega) (by simp) hheap
  rw [Nat.zero_add] at h1
  refine ⟨⟨c, q.comp⟩, ?_, ?_, e2, ?_⟩
  · unfold push; rw [h1]; rfl
  · rw [← e1, Multiset.cons_coe]
    exact Multiset.coe_eq_coe.2 (h3.trans (List.perm_append_comm))
  · rw [h3.length_eq]; exact h2

/-- `pop_heap` of one element -/
theorem pop_one (lt : α → α → Bool) (x : α) : popHeap lt [x] 0 1 = some [x] := rfl

theorem holds_top (hs : ∀ k, StrictWeak (less k)) {q : Queue α κ} {b : Bag α κ} (h : Holds less q b) (hne : b.elems ≠ 0) :
    ∃ x, top q = some x ∧ Largest less b.comp b.elems x := by
  obtain ⟨e1, e2, e3⟩ := h
  have hpos : 0 < q.c.length := by
    rcases Nat.eq_zero_or_pos q.c.length with h0 | h0
    · exfalso; apply hne; rw [← e1, List.length_eq_zero_iff.1 h0]; rfl
    · exact h0
  refine ⟨q.c[0], get_eq hpos, ?_, ?_⟩
  · rw [← e1]; exact List.getElem_mem _
  · intro y hy
    rw [← e1, Multiset.mem_coe] at hy
    obtain ⟨i, hi, rfl⟩ := List.getElem_of_mem hy
    have := heap_root (hs q.comp) 0 q.c.length q.c (by omega) e3 i hi q.c[0] q.c[i] (get_eq hpos) (by rw [Nat.zero_add]; exact get_eq hi)
    rw [← e2]; exact this

theorem holds_pop (hs : ∀ k, StrictWeak (less k)) {q : Queue α κ} {b : Bag α κ} (h : Holds less q b) (hne : b.elems ≠ 0) :
    ∃ p x m, pop less q = some p ∧ top q = some x ∧ b.elems = x ::ₘ m ∧ Largest less b.comp b.elems x ∧ Holds less p ⟨m, b.comp⟩ := by
  obtain ⟨x, hx, hlarge⟩ := holds_top hs h hne
  obtain ⟨e1, e2, e3⟩ := h
  have hpos : 0 < q.c.length := by
    rcases Nat.eq_zero_or_pos q.c.length with h0 | h0
    · exfalso; apply hne; rw [← e1, List.length_eq_zero_iff.1 h0]; rfl
    · exact h0
  -- the array after pop_heap
  obtain ⟨c, hc, hheap, hperm, hlast⟩ : ∃ c, popHeap (less q.comp) q.c 0 q.c.length = some c ∧ IsHeap (less q.comp) c 0 (q.c.length - 1) ∧ c.Perm q.c
      ∧ c[q.c.length - 1]? = q.c[0]? := by
    by_cases h1 : 1 < q.c.length
    · obtain ⟨c, k1, k2, k3, k4, -⟩ := c46_pop_heap (hs q.comp) q.c 0 q.c.length (by omega) h1 e3
      simp only [Nat.zero_add] at k1 k4
      exact ⟨c, k1, k2, k3, k4⟩
    · have hl : q.c.length = 1 := by omega
      obtain ⟨y, hy⟩ := List.length_eq_one_iff.1 hl
      rw [hy]
      exact ⟨[y], pop_one _ y, fun i h0 h1 => absurd h1 (by simp), List.Perm.refl _, rfl⟩
  have hcl : c.length = q.c.length := hperm.length_eq
  have hcne : c ≠ [] := by intro h0; rw [h0] at hcl; simp at hcl; omega
  have hlst : c.getLast hcne = x := by
    have h2 : c[c.length - 1]? = some (c.getLast hcne) := by
      rw [← List.getLast?_eq_getElem?, List.getLast?_eq_some_getLast hcne]
    rw [hcl, hlast] at h2
    have : top q = some (c.getLast hcne) := h2
    rw [hx] at this
    exact (Option.some.inj this).symm
  have hsplit : c.dropLast ++ [x] = c := by rw [← hlst]; exact List.dropLast_append_getLast hcne
  refine ⟨⟨c.dropLast, q.comp⟩, x, (c.dropLast : Multiset α), ?_, hx, ?_, hlarge, rfl, e2, ?_⟩
  · unfold pop; rw [hc]; rfl
  · rw [← e1, Multiset.cons_coe]
    refine Multiset.coe_eq_coe.2 ?_
    refine hperm.symm.trans ?_
    conv_lhs => rw [← hsplit]
    exact List.perm_append_comm
  · intro i hi0 hi y z hy hz
    have hdl : c.dropLast.length = q.c.length - 1 := by rw [List.length_dropLast, hcl]
    have hi' : i < c.dropLast.length := hi
    rw [hdl] at hi'
    have up : ∀ (j : ℕ) (v : α), c.dropLast[j]? = some v → c[j]? = some v := by
      intro j v hj
      rw [← hsplit, List.getElem?_append_left (by
        by_contra hge
        rw [List.getElem?_eq_none (by omega)] at hj
        cases hj)]
      exact hj
    exact hheap i hi0 hi' y z (up _ _ hy) (up _ _ hz)

theorem clearLoop_holds (hs : ∀ k, StrictWeak (less k)) : ∀ (fuel : Nat) (q : Queue α κ) (b : Bag α κ), Holds less q b → q.c.length < fuel →
    ∃ p, clearLoop less fuel q = some p ∧ Holds less p ⟨0, b.comp⟩ := by
  intro fuel
  induction fuel with
  | zero => intro q b _ h; omega
  | succ fuel ih =>
    intro q b h hf
    unfold clearLoop
    by_cases h0 : q.c.length = 0
    · rw [if_pos h0]
      refine ⟨q, rfl, ?_, h.2.1, h.2.2⟩
      rw [List.length_eq_zero_iff.1 h0]; rfl
    · rw [if_neg h0]
      have hne : b.elems ≠ 0 := by
        intro h1
        rw [← h.1] at h1
        exact h0 (List.length_eq_zero_iff.2 ((Multiset.coe_eq_zero _).1 h1))
      obtain ⟨p, x, m, hp, -, hb, -, hh⟩ := holds_pop hs h hne
      rw [hp]
      have hlen : p.c.length + 1 = q.c.length := by
        have e1 := congrArg Multiset.card h.1
        have e2 := congrArg Multiset.card hh.1
        rw [hb, Multiset.card_cons] at e1
        simp only [Multiset.coe_card] at e1 e2
        omega
      exact ih p ⟨m, b.comp⟩ hh (by omega)

theorem holds_clear (hs : ∀ k, StrictWeak (less k)) {q : Queue α κ} {b : Bag α κ} (h : Holds less q b) :
    ∃ p, clear less q = some p ∧ Holds less p ⟨0, b.comp⟩ := clearLoop_holds hs _ q b h (by omega)

theorem holds_ofList (hs : ∀ k, StrictWeak (less k)) (l : List α) : ∃ p, ofList less dflt l = some p ∧ Holds less p ⟨l, dflt⟩ := by
  obtain ⟨c, h1, h2⟩ := make_holds hs l dflt
  exact ⟨⟨c, dflt⟩, by unfold ofList; rw [h1]; rfl, h2⟩

theorem holds_empty (k : κ) : Holds less (⟨[], k⟩ : Queue α κ) ⟨0, k⟩ := ⟨rfl, rfl, fun i _ h => absurd h (by simp)⟩

/-! ## Histories -/

/-- every queue holds its bag, and exactly the same queues exist -/
def Agree (less : κ → α → α → Bool) (w : World α κ) (s : Bags α κ) : Prop :=
  ∀ i, (w i = none ∧ s i = none) ∨ ∃ q b, w i = some q ∧ s i = some b ∧ Holds less q b

theorem agree_put {w : World α κ} {s : Bags α κ} (h : Agree less w s) (i : Nat) {q : Queue α κ} {b : Bag α κ} (hq : Holds less q b) :
    Agree less (put w i q) (putBag s i b) := by
  intro k
  unfold put putBag
  by_cases e : k = i
  · rw [if_pos e, if_pos e]; exact Or.inr ⟨q, b, rfl, rfl, hq⟩
  · rw [if_neg e, if_neg e]; exact h k

theorem agree_get {w : World α κ} {s : Bags α κ} (h : Agree less w s) {i : Nat} (hi : (s i).isSome) :
    ∃ q b, w i = some q ∧ s i = some b ∧ Holds less q b := by
  rcases h i with ⟨-, h2⟩ | h2
  · rw [h2] at hi; cases hi
  · exact h2

/-- every allowed call runs without leaving the array, and does to the bags what it should -/
theorem step_ok (hs : ∀ k, StrictWeak (less k)) {w : World α κ} {s : Bags α κ} (h : Agree less w s) (o : Op α κ) (ho : Allowed s o) :
    ∃ w' s', step less dflt w o = some w' ∧ SpecStep less dflt s o s' ∧ Agree less w' s' := by
  cases o with
  | new i => exact ⟨_, _, rfl, .new i, agree_put h i (holds_empty _)⟩
  | newComp i k => exact ⟨_, _, rfl, .newComp i k, agree_put h i (holds_empty _)⟩
  | ofList i l =>
    obtain ⟨p, h1, h2⟩ := holds_ofList (dflt := dflt) hs l
    exact ⟨_, _, by show (ofList less dflt l).bind _ = _; rw [h1]; rfl, .ofList i l, agree_put h i h2⟩
  | copy i j =>
    obtain ⟨q, b, hq, hb, hh⟩ := agree_get h ho
    obtain ⟨p, h1, h2⟩ := holds_copy hs hh
    exact ⟨_, _, by show (w j).bind _ = _; rw [hq]; show (copyOf less q).bind _ = _; rw [h1]; rfl, .copy i j b hb, agree_put h i h2⟩
  | move i j =>
    obtain ⟨q, b, hq, hb, hh⟩ := agree_get h ho.2
    obtain ⟨p, h1, h2⟩ := holds_copy hs hh
    refine ⟨_, _, by show (w j).bind _ = _; rw [hq]; show (copyOf less q).bind _ = _; rw [h1]; rfl, .move i j b hb, agree_put (agree_put h j ?_) i h2⟩
    rw [← hh.2.1]; exact holds_empty _
  | assign i j =>
    obtain ⟨q0, b0, hq0, hb0, -⟩ := agree_get h ho.1
    obtain ⟨q, b, hq, hb, hh⟩ := agree_get h ho.2
    obtain ⟨p, h1, h2⟩ := holds_copy hs hh
    exact ⟨_, _, by show (w i).bind _ = _; rw [hq0]; show (w j).bind _ = _; rw [hq]; show (copyOf less q).bind _ = _; rw [h1]; rfl, .assign i j b0 b hb0 hb, agree_put h i h2⟩
  | moveAssign i j =>
    obtain ⟨q0, b0, hq0, hb0, -⟩ := agree_get h ho.2.1
    obtain ⟨q, b, hq, hb, hh⟩ := agree_get h ho.2.2
    obtain ⟨p, h1, h2⟩ := holds_copy hs hh
    refine ⟨_, _, by show (w i).bind _ = _; rw [hq0]; show (w j).bind _ = _; rw [hq]; show (copyOf less q).bind _ = _; rw [h1]; rfl, .moveAssign i j b0 b ho.1 hb0 hb,
      agree_put (agree_put h j ?_) i h2⟩
    rw [← hh.2.1]; exact holds_empty _
  | assignList i l =>
    obtain ⟨q0, b0, hq0, hb0, -⟩ := agree_get h ho
    obtain ⟨p, h1, h2⟩ := holds_ofList (dflt := dflt) hs l
    exact ⟨_, _, by show (w i).bind _ = _; rw [hq0]; show (ofList less dflt l).bind _ = _; rw [h1]; rfl, .assignList i b0 l hb0, agree_put h i h2⟩
  | push i x =>
    obtain ⟨q, b, hq, hb, hh⟩ := agree_get h ho
    obtain ⟨p, h1, h2⟩ := holds_push hs hh x
    exact ⟨_, _, by show (w i).bind _ = _; rw [hq]; show (push less q x).bind _ = _; rw [h1]; rfl, .push i x b hb, agree_put h i h2⟩
  | pop i =>
    obtain ⟨b', hb', hne⟩ := ho
    obtain ⟨q, b, hq, hb, hh⟩ := agree_get h (i := i) (by rw [hb']; rfl)
    obtain rfl : b' = b := by rw [hb'] at hb; exact Option.some.inj hb
    obtain ⟨p, x, m, h1, -, h3, h4, h5⟩ := holds_pop hs hh hne
    refine ⟨_, _, by show (w i).bind _ = _; rw [hq]; show (pop less q).bind _ = _; rw [h1]; rfl, .pop i x m b'.comp (by rw [hb, ← h3]) (by rw [← h3]; exact h4), agree_put h i h5⟩
  | clear i =>
    obtain ⟨q, b, hq, hb, hh⟩ := agree_get h ho
    obtain ⟨p, h1, h2⟩ := holds_clear hs hh
    exact ⟨_, _, by show (w i).bind _ = _; rw [hq]; show (clear less q).bind _ = _; rw [h1]; rfl, .clear i b hb, agree_put h i h2⟩
  | swap i j =>
    obtain ⟨p, a, hp, ha, hpa⟩ := agree_get h ho.1
    obtain ⟨q, b, hq, hb, hqb⟩ := agree_get h ho.2
    exact ⟨_, _, by show (w i).bind _ = _; rw [hp]; show (w j).bind _ = _; rw [hq]; rfl, .swap i j a b ha hb, agree_put (agree_put h i hqb) j hpa⟩

theorem run_ok (hs : ∀ k, StrictWeak (less k)) : ∀ (os : List (Op α κ)) (w : World α κ) (s : Bags α κ), Agree less w s → Client less dflt s os →
    ∃ w' s', run less dflt w os = some w' ∧ SpecRun less dflt s os s' ∧ Agree less w' s' := by
  intro os
  induction os with
  | nil => intro w s h _; exact ⟨w, s, rfl, .nil s, h⟩
  | cons o os ih =>
    intro w s h hc
    obtain ⟨w1, s1, h1, h2, h3⟩ := step_ok hs h o hc.1
    obtain ⟨w2, s2, k1, k2, k3⟩ := ih w1 s1 h3 (hc.2 s1 h2)
    exact ⟨w2, s2, by unfold run; rw [h1]; exact k1, .cons h2 k2, k3⟩

/-- **C85.**  For every comparison that is a strict weak order and every history of allowed calls on any number of queues: no element outside an array is touched and every loop ends; each
queue holds exactly the multiset and the order that the calls prescribe, `pop` having removed a largest element; `size`, `empty` and `top` answer for that multiset, `top` being a largest element. -/
theorem c85_history (less : κ → α → α → Bool) (dflt : κ) (hs : ∀ k, StrictWeak (less k)) (os : List (Op α κ)) (hc : Client less dflt (fun _ => none) os) :
    ∃ w s, run less dflt (fun _ => none) os = some w ∧ SpecRun less dflt (fun _ => none) os s
      ∧ ∀ i, ((w i).isSome ↔ (s i).isSome) ∧ ∀ q b, w i = some q → s i = some b →
          q.c.length = b.elems.card ∧ (q.c.length = 0 ↔ b.elems = 0) ∧ (b.elems ≠ 0 → ∃ x, top q = some x ∧ Largest less b.comp b.elems x) := by
  obtain ⟨w, s, h1, h2, h3⟩ := run_ok hs os (fun _ => none) (fun _ => none) (fun i => Or.inl ⟨rfl, rfl⟩) hc
  refine ⟨w, s, h1, h2, fun i => ⟨?_, ?_⟩⟩
  · rcases h3 i with ⟨e1, e2⟩ | ⟨q, b, e1, e2, -⟩
    · rw [e1, e2]; rfl
    · rw [e1, e2]; simp
  · intro q b hq hb
    rcases h3 i with ⟨e1, -⟩ | ⟨q', b', e1, e2, hh⟩
    · rw [e1] at hq; cases hq
    · rw [hq] at e1; rw [hb] at e2
      obtain rfl := Option.some.inj e1
      obtain rfl := Option.some.inj e2
      have hcard : q.c.length = b.elems.card := by rw [← hh.1]; rfl
      exact ⟨hcard, by rw [hcard, Multiset.card_eq_zero], fun hne => holds_top hs hh hne⟩

/-- `top` and `pop` until the queue is empty -/
def drain (less : κ → α → α → Bool) : Nat → Queue α κ → Option (List α)
  | 0, q => if q.c.length = 0 then some [] else none
  | n + 1, q => if q.c.length = 0 then some [] else do
    let x ← top q
    let q ← pop less q
    let r ← drain less n q
    pure (x :: r)

theorem drain_holds (less : κ → α → α → Bool) (hs : ∀ k, StrictWeak (less k)) : ∀ (n : Nat) (q : Queue α κ) (b : Bag α κ), Holds less q b → q.c.length = n →
    ∃ l, drain less n q = some l ∧ l.Perm q.c ∧ l.Pairwise (fun x y => less b.comp x y = false) := by
  intro n
  induction n with
  | zero =>
    intro q b h hn
    refine ⟨[], by unfold drain; rw [if_pos hn], ?_, List.Pairwise.nil⟩
    rw [List.length_eq_zero_iff.1 hn]
  | succ n ih =>
    intro q b h hn
    have hne : b.elems ≠ 0 := by
      intro h1
      rw [← h.1] at h1
      have := List.length_eq_zero_iff.2 ((Multiset.coe_eq_zero _).1 h1)
      omega
    obtain ⟨p, x, m, h1, h2, h3, h4, h5⟩ := holds_pop hs h hne
    have hlen : p.c.length = n := by
      have e1 := congrArg Multiset.card h.1
      have e2 := congrArg Multiset.card h5.1
      rw [h3, Multiset.card_cons] at e1
      simp only [Multiset.coe_card] at e1 e2
      omega
    obtain ⟨l, k1, k2, k3⟩ := ih p ⟨m, b.comp⟩ h5 hlen
    have hperm : (x :: l).Perm q.c := by
      refine Multiset.coe_eq_coe.1 ?_
      rw [h.1, h3, ← Multiset.cons_coe, Multiset.coe_eq_coe.2 k2, h5.1]
    refine ⟨x :: l, ?_, hperm, List.Pairwise.cons ?_ k3⟩
    · unfold drain
      rw [if_neg (by omega), h2]
      show (pop less q).bind _ = _
      rw [h1]
      show (drain less n p).bind _ = _
      rw [k1]; rfl
    · intro y hy
      refine h4.2 y ?_
      rw [← h.1, Multiset.mem_coe]
      exact hperm.subset (List.mem_cons_of_mem _ hy)

/-- **C85 (drain).**  After any history of allowed calls, taking `top` and `pop` from any queue until it is empty yields all its elements, largest first. -/
theorem c85_drain (less : κ → α → α → Bool) (dflt : κ) (hs : ∀ k, StrictWeak (less k)) (os : List (Op α κ)) (hc : Client less dflt (fun _ => none) os) :
    ∃ w s, run less dflt (fun _ => none) os = some w ∧ SpecRun less dflt (fun _ => none) os s
      ∧ ∀ i q b, w i = some q → s i = some b →
          ∃ l : List α, drain less q.c.length q = some l ∧ (l : Multiset α) = b.elems ∧ l.Pairwise (fun x y => less b.comp x y = false) := by
  obtain ⟨w, s, h1, h2, h3⟩ := run_ok hs os (fun _ => none) (fun _ => none) (fun i => Or.inl ⟨rfl, rfl⟩) hc
  refine ⟨w, s, h1, h2, fun i q b hq hb => ?_⟩
  rcases h3 i with ⟨e1, -⟩ | ⟨q', b', e1, e2, hh⟩
  · rw [e1] at hq; cases hq
  · rw [hq] at e1; rw [hb] at e2
    obtain rfl := Option.some.inj e1
    obtain rfl := Option.some.inj e2
    obtain ⟨l, k1, k2, k3⟩ := drain_holds less hs _ q b hh rfl
    exact ⟨l, k1, by rw [← hh.1]; exact Multiset.coe_eq_coe.2 k2, k3⟩

/-! ## A concrete history -/

theorem nat_strict : StrictWeak (fun a b : Nat => decide (a < b)) := by
  constructor
  · intro a b h; simp at h ⊢; omega
  · intro a b c h; simp at h ⊢; omega

example : ((run (fun (_ : Unit) (a b : Nat) => decide (a < b)) () (fun _ => none)
    [.ofList 0 [3, 1, 4, 1, 5], .push 0 9, .copy 1 0, .pop 0, .push 1 2, .swap 0 1, .pop 1]).bind (fun w => (w 1).bind top)) = some 4 := by decide
example : ((run (fun (_ : Unit) (a b : Nat) => decide (a < b)) () (fun _ => none)
    [.ofList 0 [3, 1, 4, 1, 5], .push 0 9, .copy 1 0, .pop 0, .push 1 2, .swap 0 1, .pop 1]).bind (fun w => (w 0).bind top)) = some 9 := by decide

/-- an allowed history: two elements, a third pushed, one popped, the queue copied and the copy popped -/
example : Client (fun (_ : Unit) (a b : Nat) => decide (a < b)) () (fun _ => none) [.ofList 0 [3, 1], .push 0 9, .pop 0, .copy 1 0, .pop 1] := by
  refine ⟨trivial, fun w1 h1 => ?_⟩
  cases h1
  refine ⟨rfl, fun w2 h2 => ?_⟩
  cases h2 with | push i x b hb =>
  obtain rfl := Option.some.inj hb
  refine ⟨⟨_, rfl, by simp⟩, fun w3 h3 => ?_⟩
  cases h3 with | pop i y m k hm hl =>
  have e := congrArg Bag.elems (Option.some.inj hm)
  have e' : (9 ::ₘ (([3, 1] : List ℕ) : Multiset ℕ)) = y ::ₘ m := e
  have hcard := congrArg Multiset.card e'
  rw [Multiset.card_cons, Multiset.card_cons] at hcard
  have hm0 : m ≠ 0 := by
    intro h0
    rw [h0] at hcard
    simp at hcard
  refine ⟨rfl, fun w4 h4 => ?_⟩
  cases h4 with | copy i j b hb =>
  obtain rfl := Option.some.inj hb
  exact ⟨⟨_, rfl, hm0⟩, fun _ _ => trivial⟩

end Verif.Pq
