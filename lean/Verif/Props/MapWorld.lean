import Verif.RbWorld
import Verif.RbMap7
import Verif.Props.Map
/-!
# C116: programs with several maps
-/

namespace Verif.Rb

open Verif.MapSpec

variable {K V : Type}

/-! ## Specification -/

/-- what the variables hold: no variable, a map moved from, or a map as the list of its pairs in ascending order -/
abbrev Vals (K V : Type) := Nat → Option (Option (List (K × V)))

/-- the statements a program may use, what they show, and what the variables hold afterwards.  A map moved from can be moved, swapped, assigned to by
a move, and destroyed; nothing else. -/
inductive Step (lt : K → K → Bool) (d : V) : WOp K V → Vals K V → Option (Out K V) → Vals K V → Prop where
  | new {i vs} : vs i = none → Step lt d (.new i) vs none (updV vs i (some (some [])))
  | run {i op vs M} : vs i = some (some M) →
      Step lt d (.run i op) vs (some (MapSpec.spec lt d op M).1) (updV vs i (some (some (MapSpec.spec lt d op M).2)))
  | copyNew {i j vs M} : vs i = none → vs j = some (some M) → Step lt d (.copyNew i j) vs none (updV vs i (some (some M)))
  | moveNew {i j vs x} : vs i = none → vs j = some x → Step lt d (.moveNew i j) vs none (updV (updV vs i (some x)) j (some none))
  | assign {i j vs M N} : vs i = some (some N) → vs j = some (some M) → Step lt d (.assign i j) vs none (updV vs i (some (some M)))
  | moveAssign {i j vs x y} : i ≠ j → vs i = some y → vs j = some x →
      Step lt d (.moveAssign i j) vs none (updV (updV vs i (some x)) j (some none))
  | swap {i j vs x y} : vs i = some x → vs j = some y → Step lt d (.swap i j) vs none (updV (updV vs i (some y)) j (some x))
  | destroy {i vs x} : vs i = some x → Step lt d (.destroy i) vs none (updV vs i none)

/-- a program -/
inductive Run (lt : K → K → Bool) (d : V) : List (WOp K V) → Vals K V → List (Option (Out K V)) → Vals K V → Prop where
  | nil {vs} : Run lt d [] vs [] vs
  | cons {o os vs x us xs ws} : Step lt d o vs x us → Run lt d os us xs ws → Run lt d (o :: os) vs (x :: xs) ws

/-! ## Proof -/

theorem Tr.emptyHeader {α : Type} {h : Heap α} {t : Tree0} (hT : Tr h t ([] : List (Ptr × α))) : h t.hd = some ⟨0, t.hd, t.hd, true, none⟩ := by
  obtain ⟨T, m, s, hi, _⟩ := hT
  have hT0 : T = .nil := by
    cases T with
    | nil => rfl
    | node a c l v r => simp [Shape.items] at hi
  subst hT0
  exact s.place.header

/-- the tree below a header that exists already -/
theorem copyAssign_ok {α : Type} {alloc : Heap α → Ptr} (ga : GoodAlloc alloc) {h : Heap α} {t rhs : Tree0} {L R : List (Ptr × α)} (hT : Tr h t L)
    (hS : Tr h rhs R) (hb : Bounded h) (hdis : ∀ q ∈ owned t.hd L, q ∉ owned rhs.hd R) :
    ∃ h' t' L', copyAssign alloc h t rhs = some (h', t') ∧ Tr h' t' L' ∧ t'.hd = t.hd ∧ L'.map (fun x => x.2) = R.map (fun x => x.2) ∧
      (∀ q ∈ owned t'.hd L', q ∈ owned t.hd L ∨ h q = none) ∧ Off (owned t.hd L ++ owned t'.hd L') h h' ∧ (∀ q ∈ owned t.hd L, q ∉ owned t'.hd L' → h' q = none) := by
  obtain ⟨h1, e1, T1, o1, f1⟩ := clear_ok hT
  have hS1 : Tr h1 rhs R := hS.congr (fun q hq => o1 q (fun e => hdis q e hq)) (by rw [T1.null, hS.null])
  have hb1 : Bounded h1 := by
    obtain ⟨B, hB⟩ := hb
    obtain ⟨C, hC⟩ := list_bound (owned t.hd L)
    refine ⟨max B C, fun q hq => ?_⟩
    rw [o1 q (fun e => absurd (hC q e) (Nat.not_lt.2 (le_trans (le_max_right B C) hq)))]
    exact hB q (le_trans (le_max_left B C) hq)
  have hnone : ∀ q, h1 q = none → q ∈ owned t.hd L ∨ h q = none := by
    intro q hq
    by_cases hm : q ∈ owned t.hd L
    · exact Or.inl hm
    · exact Or.inr (by rw [← o1 q hm]; exact hq)
  have hhd0 : h1 t.hd = some ⟨0, t.hd, t.hd, true, none⟩ := T1.emptyHeader
  have hdR : t.hd ∉ owned rhs.hd R := hdis t.hd (by simp [owned])
  have hS1' := hS1
  obtain ⟨T, m, s, hi, hR, hbl, hc⟩ := hS1'
  by_cases hz : rhs.count = 0
  · have hL : R = [] := List.length_eq_zero_iff.1 (by rw [← hc]; exact hz)
    refine ⟨h1, ⟨t.hd, 0⟩, [], ?_, T1, rfl, by rw [hL], ?_, fun q hq => o1 q (fun e => hq (List.mem_append_left _ e)), fun q hq hq2 => f1 q ?_⟩
    · rw [copyAssign, e1]
      simp only [Option.bind_eq_bind, Option.bind_some, hz, ne_eq, not_true_eq_false, if_false]
      rfl
    · intro q hq
      simp only [owned, addrs, List.map_nil, List.mem_singleton] at hq
      exact Or.inl (by rw [hq]; simp [owned])
    · rcases List.mem_cons.1 hq with rfl | hq
      · exact absurd (by simp [owned]) hq2
      · exact hq
  · have hTne : T ≠ .nil := by
      rintro rfl
      rw [hc, ← hi] at hz
      exact hz rfl
    have h10 : h1 0 = none := T1.null
    have hd0 : t.hd ≠ 0 := by intro e; rw [e, h10] at hhd0; exact absurd hhd0 (by simp)
    have hhead : h1 rhs.hd = some ⟨T.ptr, firstP rhs.hd R, lastP rhs.hd R, true, none⟩ := s.place.header
    obtain ⟨T', h2, e2, c2, o2⟩ := (copy_ok ga T).1 h1 rhs.hd t.hd (4 * rhs.count + 4) hTne s.tree s.sep'.zero hb1 h10 (by rw [hhd0]; simp) (by rw [hi, ← hc]; omega)
    generalize hhd : t.hd = hd at *
    have hT'ne : T' ≠ .nil := by
      rintro rfl
      have := c2.like
      cases this
      exact hTne rfl
    have hdn : hd ∉ addrs T'.items := fun e => by have := c2.fresh hd e; rw [hhd0] at this; exact absurd this (by simp)
    have h2hd : h2 hd = some ⟨0, hd, hd, true, none⟩ := by rw [o2 hd hdn]; exact hhd0
    have hlen : T'.items.length = rhs.count := by rw [c2.like.length, hi, hc]
    have rep : ∀ c : Option (Cell α), Rep (put h2 hd c) hd T' := fun c => c2.rep.congr (fun q hq => put_ne _ _ (fun e : q = hd => hdn (e ▸ hq)))
    have hmin : ∀ c : Option (Cell α), treeMin (put h2 hd c) (rhs.count + 1) T'.ptr = some (firstP hd T'.items) := fun c => by
      obtain ⟨st, y, cy, vy, yr, e1, e2, e3⟩ := treeMin_ok T' (rhs.count + 1) (rep c) hT'ne c2.null (by omega)
      rw [e3, e1, plug_items, allL_before e2]; rfl
    have hmax : ∀ c : Option (Cell α), treeMax (put h2 hd c) (rhs.count + 1) T'.ptr = some (lastP hd T'.items) := fun c => by
      obtain ⟨st, y, cy, vy, yl, e1, e2, e3⟩ := treeMax_ok T' (rhs.count + 1) (rep c) hT'ne c2.null (by omega)
      rw [e3, e1, plug_items, allR_after e2, List.append_nil]
      simp only [Shape.items]
      rw [← List.append_assoc, lastP_append]
    obtain ⟨h3, hh3⟩ : ∃ h3, h3 = put h2 hd (some ⟨T'.ptr, firstP hd T'.items, lastP hd T'.items, true, none⟩) := ⟨_, rfl⟩
    have hcopy : copyAssign alloc h t rhs = some (h3, ⟨hd, rhs.count⟩) := by
      have hroot : root h1 rhs.hd = some T.ptr := by rw [root, hhead]; rfl
      rw [copyAssign, e1]
      simp only [hhd, hz, ne_eq, not_false_eq_true, if_true, hroot, Option.bind_eq_bind, Option.bind_some, e2, setParent, h2hd, Option.map_some, hmin, setLeft, put_same, put_put, hmax, setRight]
      rw [hh3]; rfl
    refine ⟨h3, ⟨hd, rhs.count⟩, T'.items, hcopy, ⟨T', m, ⟨?_, ?_, ?_, ?_⟩, rfl, c2.like.rb hR, by rw [c2.like.isRed]; exact hbl, hlen.symm⟩, rfl, by rw [c2.like.vals, hi], ?_, fun q hq => ?_, fun q hq hq2 => ?_⟩
    · rw [hh3]; exact rep _
    · show h3 hd = _
      rw [hh3, put_same]
    · show (0 :: hd :: addrs T'.items).Nodup
      rw [List.nodup_cons, List.nodup_cons, List.mem_cons, not_or]
      exact ⟨⟨Ne.symm hd0, c2.null⟩, hdn, c2.nodup⟩
    · rw [hh3, put_ne _ _ (Ne.symm hd0), o2 0 c2.null]; exact h10
    · intro q hq
      rcases List.mem_cons.1 hq with rfl | hq
      · exact Or.inl (by simp [owned])
      · exact hnone q (c2.fresh q hq)
    · rw [List.mem_append, not_or, owned, owned, List.mem_cons, List.mem_cons, not_or, not_or] at hq
      rw [hh3, put_ne _ _ hq.2.1, o2 q hq.2.2]
      exact o1 q (by rw [owned, List.mem_cons, not_or]; exact hq.1)
    · rw [owned, List.mem_cons, not_or] at hq2
      rw [hh3, put_ne _ _ hq2.1, o2 q hq2.2]
      exact f1 q ((List.mem_cons.1 hq).resolve_left hq2.1)

/-- what a variable holds, in memory and in the specification -/
inductive Slot : Option Tree0 → Option (Option (List (K × V))) → Option (Tree0 × List (Elem K V)) → Prop where
  | none : Slot none none none
  | hollow : Slot (some hollow) (some none) none
  | map (t : Tree0) (L : List (Elem K V)) : Slot (some t) (some (some (vals L))) (some (t, L))

/-- the addresses of a variable -/
def foot : Option (Tree0 × List (Elem K V)) → List Ptr
  | none => []
  | some (t, L) => owned t.hd L

structure WI (lt : K → K → Bool) (h0 : Heap (K × V)) (g : Nat → Option (Tree0 × List (Elem K V))) (w : World K V) (vs : Vals K V) : Prop where
  bd : Bounded w.heap
  null : w.heap 0 = none
  slot : ∀ i, Slot (w.var i) (vs i) (g i)
  map : ∀ i t L, g i = some (t, L) → MapAt lt w.heap t L
  dis : ∀ i j, i ≠ j → ∀ q ∈ foot (g i), q ∉ foot (g j)
  base : ∀ q, h0 q ≠ none → w.heap q = h0 q
  fresh : ∀ i, ∀ q ∈ foot (g i), h0 q = none
  left : ∀ q c, h0 q = none → w.heap q = some c → (∃ i, q ∈ foot (g i)) ∨ c.val = none

theorem updV_same {β : Type} (f : Nat → β) (i : Nat) (v : β) : updV f i v i = v := if_pos rfl
theorem updV_ne {β : Type} (f : Nat → β) {i j : Nat} (v : β) (h : j ≠ i) : updV f i v j = f j := if_neg h

theorem updV_updV {β : Type} (f : Nat → β) (i : Nat) (v u : β) : updV (updV f i v) i u = updV f i u := by
  funext k
  by_cases h : k = i
  · subst h; rw [updV_same, updV_same]
  · rw [updV_ne _ _ h, updV_ne _ _ h, updV_ne _ _ h]

theorem WI.alloc {lt : K → K → Bool} {h0 : Heap (K × V)} {g : Nat → Option (Tree0 × List (Elem K V))} {w : World K V} {vs : Vals K V} (W : WI lt h0 g w vs) (i : Nat) :
    ∀ q ∈ foot (g i), w.heap q ≠ none := by
  intro q hq
  cases hg : g i with
  | none => rw [hg] at hq; simp [foot] at hq
  | some c =>
    obtain ⟨t, L⟩ := c
    rw [hg] at hq
    exact (W.map i t L hg).1.alloc q hq

theorem WI.upd {lt : K → K → Bool} {h0 : Heap (K × V)} {g : Nat → Option (Tree0 × List (Elem K V))} {w : World K V} {vs : Vals K V} (W : WI lt h0 g w vs) (i : Nat)
    {x : Option Tree0} {v : Option (Option (List (K × V)))} {c : Option (Tree0 × List (Elem K V))} {h' : Heap (K × V)} (hs : Slot x v c)
    (off : ∀ q, q ∉ foot (g i) → q ∉ foot c → h' q = w.heap q) (new : ∀ q ∈ foot c, q ∈ foot (g i) ∨ w.heap q = none)
    (hm : ∀ t L, c = some (t, L) → MapAt lt h' t L) (hn : h' 0 = none)
    (gone : ∀ q ∈ foot (g i), q ∉ foot c → ∀ e, h' q = some e → e.val = none) :
    WI lt h0 (updV g i c) ⟨h', updV w.var i x⟩ (updV vs i v) := by
  have away : ∀ j, j ≠ i → ∀ q ∈ foot (g j), q ∉ foot (g i) ∧ q ∉ foot c := fun j hj q hq => by
    have h1 := W.dis j i hj q hq
    refine ⟨h1, fun e => ?_⟩
    rcases new q e with h2 | h2
    · exact h1 h2
    · exact W.alloc j q hq h2
  have hfresh : ∀ q ∈ foot c, h0 q = none := fun q hq => by
    rcases new q hq with h | h
    · exact W.fresh i q h
    · by_contra e
      exact e (by rw [← W.base q e]; exact h)
  refine ⟨?_, hn, fun k => ?_, fun k t L hk => ?_, fun k l hkl q hq => ?_, fun q hq => ?_, fun k q hq => ?_, fun q e hq he => ?_⟩
  · obtain ⟨B, hB⟩ := W.bd
    obtain ⟨C, hC⟩ := list_bound (foot (g i) ++ foot c)
    refine ⟨max B C, fun q hq => ?_⟩
    have hn : q ∉ foot (g i) ++ foot c := fun e => absurd (hC q e) (Nat.not_lt.2 (le_trans (le_max_right B C) hq))
    rw [List.mem_append, not_or] at hn
    show h' q = none
    rw [off q hn.1 hn.2]
    exact hB q (le_trans (le_max_left B C) hq)
  · by_cases h : k = i
    · subst h; simpa only [updV_same] using hs
    · simpa only [updV_ne _ _ h] using W.slot k
  · by_cases h : k = i
    · subst h; rw [updV_same] at hk; exact hm t L hk
    · rw [updV_ne _ _ h] at hk
      have hM := W.map k t L hk
      refine ⟨hM.1.congr (fun q hq => ?_) (by rw [W.null]; exact hn), hM.2⟩
      have := away k h q (by rw [hk]; exact hq)
      exact off q this.1 this.2
  · by_cases h : k = i
    · subst h
      rw [updV_same] at hq
      rw [updV_ne _ _ (Ne.symm hkl)]
      exact fun e => (away l (Ne.symm hkl) q e).2 hq
    · rw [updV_ne _ _ h] at hq
      by_cases h2 : l = i
      · subst h2; rw [updV_same]; exact (away k h q hq).2
      · rw [updV_ne _ _ h2]; exact W.dis k l hkl q hq
  · have h1 : q ∉ foot (g i) := fun e => hq (W.fresh i q e)
    have h2 : q ∉ foot c := fun e => hq (hfresh q e)
    show h' q = h0 q
    rw [off q h1 h2]
    exact W.base q hq
  · by_cases h : k = i
    · subst h; rw [updV_same] at hq; exact hfresh q hq
    · rw [updV_ne _ _ h] at hq; exact W.fresh k q hq
  · by_cases h2 : q ∈ foot c
    · exact Or.inl ⟨i, by rw [updV_same]; exact h2⟩
    · by_cases h1 : q ∈ foot (g i)
      · exact Or.inr (gone q h1 h2 e he)
      · have he' : w.heap q = Option.some e := by rw [← off q h1 h2]; exact he
        rcases W.left q e hq he' with ⟨k, hk⟩ | h
        · refine Or.inl ⟨k, ?_⟩
          have hki : k ≠ i := fun e => h1 (e ▸ hk)
          rw [updV_ne _ _ hki]; exact hk
        · exact Or.inr h

theorem WI.relabel {lt : K → K → Bool} {h0 : Heap (K × V)} {g : Nat → Option (Tree0 × List (Elem K V))} {w : World K V} {vs : Vals K V} (W : WI lt h0 g w vs)
    (f : Nat → Nat) {g' : Nat → Option (Tree0 × List (Elem K V))} {var' : Nat → Option Tree0} {us : Vals K V} (hs : ∀ k, Slot (var' k) (us k) (g' k))
    (hg : ∀ k, g' k = none ∨ g' k = g (f k)) (hf : ∀ k l, k ≠ l → g' k ≠ none → g' l ≠ none → f k ≠ f l)
    (hb : ∀ k, g k ≠ none → ∃ l, g' l = g k) : WI lt h0 g' ⟨w.heap, var'⟩ us := by
  refine ⟨W.bd, W.null, hs, fun k t L hk => ?_, fun k l hkl q hq => ?_, W.base, fun k q hq => ?_, fun q e hq he => ?_⟩
  · rcases hg k with h | h
    · rw [h] at hk; exact absurd hk (by simp)
    · exact W.map (f k) t L (by rw [← h]; exact hk)
  · by_cases hk : g' k = none
    · rw [hk] at hq; simp [foot] at hq
    by_cases hl : g' l = none
    · rw [hl]; simp [foot]
    rw [(hg k).resolve_left hk] at hq
    rw [(hg l).resolve_left hl]
    exact W.dis _ _ (hf k l hkl hk hl) q hq
  · by_cases hk : g' k = none
    · rw [hk] at hq; simp [foot] at hq
    rw [(hg k).resolve_left hk] at hq
    exact W.fresh _ q hq
  · rcases W.left q e hq he with ⟨k, hk⟩ | h
    · obtain ⟨l, hl⟩ := hb k (fun e => by rw [e] at hk; simp [foot] at hk)
      exact Or.inl ⟨l, by rw [hl]; exact hk⟩
    · exact Or.inr h

/-- the variable holds a map -/
theorem WI.get {lt : K → K → Bool} {h0 : Heap (K × V)} {g : Nat → Option (Tree0 × List (Elem K V))} {w : World K V} {vs : Vals K V} (W : WI lt h0 g w vs) {i : Nat}
    {M : List (K × V)} (hv : vs i = some (some M)) : ∃ t L, w.var i = some t ∧ g i = some (t, L) ∧ vals L = M ∧ MapAt lt w.heap t L := by
  have hs := W.slot i
  rw [hv] at hs
  generalize ha : w.var i = a at hs
  generalize hb : g i = b at hs
  cases hs with
  | map t L => exact ⟨t, L, rfl, rfl, rfl, W.map i t L hb⟩

theorem WI.gone {lt : K → K → Bool} {h0 : Heap (K × V)} {g : Nat → Option (Tree0 × List (Elem K V))} {w : World K V} {vs : Vals K V} (W : WI lt h0 g w vs) {i : Nat}
    (hv : vs i = none) : w.var i = none ∧ g i = none := by
  have hs := W.slot i
  rw [hv] at hs
  generalize ha : w.var i = a at hs
  generalize hb : g i = b at hs
  cases hs with
  | none => exact ⟨rfl, rfl⟩

theorem WI.live {lt : K → K → Bool} {h0 : Heap (K × V)} {g : Nat → Option (Tree0 × List (Elem K V))} {w : World K V} {vs : Vals K V} (W : WI lt h0 g w vs) {i : Nat}
    {x : Option (List (K × V))} (hv : vs i = some x) : ∃ t, w.var i = some t ∧ Slot (some t) (some x) (g i) := by
  have hs := W.slot i
  rw [hv] at hs
  generalize ha : w.var i = a at hs
  generalize hb : g i = b at hs
  cases hs with
  | map t L => exact ⟨t, rfl, .map t L⟩
  | hollow => exact ⟨_, rfl, .hollow⟩

/-- `clear` of whatever a variable holds -/
theorem WI.wipe {lt : K → K → Bool} {h0 : Heap (K × V)} {g : Nat → Option (Tree0 × List (Elem K V))} {w : World K V} {vs : Vals K V} (W : WI lt h0 g w vs) {i : Nat}
    {y : Option (List (K × V))} (hv : vs i = some y) : ∃ t h' t', w.var i = some t ∧ Rb.clear w.heap t = some (h', t') ∧
      ∀ {x : Option Tree0} {v : Option (Option (List (K × V)))}, Slot x v none → WI lt h0 (updV g i none) ⟨h', updV w.var i x⟩ (updV vs i v) := by
  obtain ⟨t, ht, hs⟩ := W.live hv
  generalize hb : g i = b at hs
  cases hs with
  | hollow =>
    refine ⟨_, w.heap, hollow, ht, by simp [Rb.clear, hollow], fun {x v} hx => ?_⟩
    exact W.upd i hx (fun _ _ _ => rfl) (fun q hq => by simp [foot] at hq) (fun t L e => by simp at e) W.null (fun q hq => by rw [hb] at hq; simp [foot] at hq)
  | map t L =>
    obtain ⟨h', e1, T1, o1, f1⟩ := clear_ok (W.map i t L hb).1
    refine ⟨_, h', _, ht, e1, fun {x v} hx => ?_⟩
    refine W.upd i hx (fun q hq _ => o1 q (by rw [hb] at hq; exact hq)) (fun q hq => by simp [foot] at hq) (fun t L e => by simp at e) T1.null (fun q hq _ e he => ?_)
    rw [hb] at hq
    rcases List.mem_cons.1 hq with rfl | hq
    · rw [T1.emptyHeader, Option.some.injEq] at he
      rw [← he]
    · rw [f1 q hq] at he; exact absurd he (by simp)

/-- `i` takes what `j` holds, `j` becomes hollow -/
theorem WI.move {lt : K → K → Bool} {h0 : Heap (K × V)} {g : Nat → Option (Tree0 × List (Elem K V))} {w : World K V} {vs : Vals K V} (W : WI lt h0 g w vs) {i j : Nat}
    (hij : i ≠ j) {t : Tree0} {x : Option (List (K × V))} (hg : g i = none) (hs : Slot (some t) (some x) (g j)) :
    WI lt h0 (updV (updV g i (g j)) j none) ⟨w.heap, updV (updV w.var i (some t)) j (some hollow)⟩ (updV (updV vs i (some x)) j (some none)) := by
  refine W.relabel (fun k => if k = i then j else k) (fun k => ?_) (fun k => ?_) (fun k l hkl hk hl => ?_) (fun k hk => ?_)
  · by_cases h : k = j
    · subst h; simp only [updV_same]; exact .hollow
    · by_cases h2 : k = i
      · subst h2; simpa only [updV_ne _ _ h, updV_same] using hs
      · simpa only [updV_ne _ _ h, updV_ne _ _ h2] using W.slot k
  · by_cases h : k = j
    · subst h; exact Or.inl (updV_same _ _ _)
    · right
      by_cases h2 : k = i
      · subst h2; rw [updV_ne _ _ h, updV_same, if_pos rfl]
      · rw [updV_ne _ _ h, updV_ne _ _ h2, if_neg h2]
  · have h1 : k ≠ j := fun e => hk (by rw [e, updV_same])
    have h2 : l ≠ j := fun e => hl (by rw [e, updV_same])
    show (if k = i then j else k) ≠ (if l = i then j else l)
    split <;> split <;> omega
  · by_cases h : k = j
    · exact ⟨i, by rw [updV_ne _ _ hij, updV_same, h]⟩
    · have h2 : k ≠ i := fun e => hk (by rw [e]; exact hg)
      exact ⟨k, by rw [updV_ne _ _ h, updV_ne _ _ h2]⟩

theorem asc_vals {lt : K → K → Bool} {L L' : List (Elem K V)} (e : vals L' = vals L) (h : Asc lt L) : Asc lt L' := by
  rw [Asc, ← List.pairwise_map (f := fun x : Elem K V => x.2) (R := fun a b => lt a.1 b.1 = true)] at h ⊢
  have e' : L'.map (fun x => x.2) = L.map (fun x => x.2) := e
  rw [e']; exact h

theorem step_ok {lt : K → K → Bool} (sw : StrictWeak lt) (d : V) {alloc : Heap (K × V) → Ptr} (ga : GoodAlloc alloc) {h0 : Heap (K × V)}
    {g : Nat → Option (Tree0 × List (Elem K V))} {w : World K V} {vs us : Vals K V} {o : WOp K V} {x : Option (Out K V)} (W : WI lt h0 g w vs) (hst : Step lt d o vs x us) :
    ∃ w' g', runW lt d alloc o w = some (x, w') ∧ WI lt h0 g' w' us := by
  cases hst with
  | @new i _ hv =>
    obtain ⟨e1, e2⟩ := W.gone hv
    obtain ⟨a0, a1⟩ := ga _ W.bd
    have I := Inv.init (lt := lt) W.bd W.null a0 a1
    refine ⟨_, updV g i (some ((init w.heap (alloc w.heap)).2, [])), by rw [runW, e1], W.upd i (.map _ []) (fun q _ hq => ?_) (fun q hq => ?_) (fun t L e => ?_) I.map.1.null (fun q hq => by rw [e2] at hq; simp [foot] at hq)⟩
    · exact I.off q hq
    · exact Or.inr (I.fresh q hq)
    · rw [Option.some.injEq, Prod.mk.injEq] at e
      obtain ⟨rfl, rfl⟩ := e
      exact I.map
  | @run i op _ M hv =>
    obtain ⟨t, L, e1, e2, rfl, hM⟩ := W.get hv
    obtain ⟨k0, hk0⟩ : ∃ k0 : Heap (K × V), k0 = fun q => if q ∈ owned t.hd L then none else w.heap q := ⟨_, rfl⟩
    have I : Inv lt k0 t.hd w.heap t L := by
      refine ⟨hM, rfl, fun q hq => ?_, fun q hq => ?_, ?_⟩
      · rw [hk0]; exact (if_neg hq).symm
      · rw [hk0]; exact if_pos hq
      · obtain ⟨B, hB⟩ := W.bd
        refine ⟨B, fun q hq => ?_⟩
        rw [hk0]
        show (if q ∈ owned t.hd L then none else w.heap q) = none
        rw [hB q hq, ite_self]
    obtain ⟨h', t', L', e3, J, e4⟩ := runOp_ok sw ga d op I
    refine ⟨⟨h', updV w.var i (some t')⟩, updV g i (some (t', L')), by simp only [runW, e1, Option.bind_eq_bind, Option.bind_some, e3], ?_⟩
    rw [← e4]
    have hfo : foot (some (t', L')) = owned t.hd L' := by rw [foot, J.hdr]
    refine W.upd i (.map t' L') (fun q h1 h2 => ?_) (fun q hq => ?_) (fun s R e => ?_) J.map.1.null (fun q h1 h2 e he => ?_)
    · rw [e2, foot] at h1
      rw [hfo] at h2
      rw [J.off q h2, hk0]
      exact if_neg h1
    · rw [e2, foot]
      by_cases h : q ∈ owned t.hd L
      · exact Or.inl h
      · have := J.fresh q (by rw [← hfo]; exact hq)
        rw [hk0] at this
        exact Or.inr ((if_neg h).symm.trans this)
    · rw [Option.some.injEq, Prod.mk.injEq] at e
      obtain ⟨rfl, rfl⟩ := e
      exact J.map
    · rw [e2, foot] at h1
      rw [hfo] at h2
      rw [J.off q h2, hk0] at he
      exact absurd ((if_pos h1).symm.trans he) (by simp)
  | @copyNew i j _ M hv hw =>
    obtain ⟨e1, e2⟩ := W.gone hv
    obtain ⟨t, L, e3, e4, rfl, hM⟩ := W.get hw
    obtain ⟨h', t', L', e5, T1, hvals, hfr, hoff⟩ := copy_ctor_ok ga hM.1 W.bd
    have hvv : vals L' = vals L := hvals
    refine ⟨⟨h', updV w.var i (some t')⟩, updV g i (some (t', L')), by simp only [runW, e1, e3, Option.bind_eq_bind, Option.bind_some, e5], ?_⟩
    rw [← hvv]
    refine W.upd i (.map t' L') (fun q _ h2 => hoff q h2) (fun q hq => Or.inr (hfr q hq)) (fun s R e => ?_) T1.null (fun q hq => by rw [e2] at hq; simp [foot] at hq)
    rw [Option.some.injEq, Prod.mk.injEq] at e
    obtain ⟨rfl, rfl⟩ := e
    exact ⟨T1, asc_vals hvv hM.2⟩
  | @moveNew i j _ x hv hw =>
    obtain ⟨e1, e2⟩ := W.gone hv
    obtain ⟨t, e3, hs⟩ := W.live hw
    have hij : i ≠ j := by rintro rfl; rw [hv] at hw; exact absurd hw (by simp)
    exact ⟨⟨w.heap, updV (updV w.var i (some t)) j (some hollow)⟩, _, by simp only [runW, e1, e3, Option.bind_eq_bind, Option.bind_some], W.move hij e2 hs⟩
  | @assign i j _ M N hv hw =>
    obtain ⟨t, L, e1, e2, rfl, hM⟩ := W.get hv
    obtain ⟨s, R, e3, e4, rfl, hR⟩ := W.get hw
    by_cases hij : i = j
    · subst hij
      refine ⟨w, g, by simp only [runW, e1, Option.bind_eq_bind, Option.bind_some, if_true], ?_⟩
      rw [hv, Option.some.injEq, Option.some.injEq] at hw
      have : updV vs i (some (some (vals R))) = vs := by
        funext k
        by_cases h : k = i
        · subst h; rw [updV_same, hv, hw]
        · exact updV_ne _ _ h
      rw [this]; exact W
    · have hdis : ∀ q ∈ owned t.hd L, q ∉ owned s.hd R := fun q hq => by
        have := W.dis i j hij q (by rw [e2]; exact hq)
        rw [e4] at this; exact this
      obtain ⟨h', t', L', e5, T1, _, hvals, hnew, hoff, hgone⟩ := copyAssign_ok ga hM.1 hR.1 W.bd hdis
      have hvv : vals L' = vals R := hvals
      refine ⟨⟨h', updV w.var i (some t')⟩, updV g i (some (t', L')), by simp only [runW, e1, e3, Option.bind_eq_bind, Option.bind_some, if_neg hij, e5], ?_⟩
      rw [← hvv]
      refine W.upd i (.map t' L') (fun q h1 h2 => hoff q ?_) (fun q hq => ?_) (fun s R e => ?_) T1.null (fun q h1 h2 e he => ?_)
      · rw [e2] at h1
        rw [List.mem_append, not_or]; exact ⟨h1, h2⟩
      · rw [e2]; exact hnew q hq
      · rw [Option.some.injEq, Prod.mk.injEq] at e
        obtain ⟨rfl, rfl⟩ := e
        exact ⟨T1, asc_vals hvv hR.2⟩
      · rw [e2] at h1
        rw [hgone q h1 h2] at he; exact absurd he (by simp)
  | @moveAssign i j _ x y hij hv hw =>
    obtain ⟨t, h', t', e1, e2, hW⟩ := W.wipe hv
    obtain ⟨s, e3, hs⟩ := W.live hw
    have W2 := hW (x := some hollow) (v := some none) .hollow
    have hji : j ≠ i := Ne.symm hij
    have W3 := W2.move hij (t := s) (x := x) (updV_same _ _ _) (by rw [updV_ne _ _ hji]; exact hs)
    have e5 : updV (updV vs i (some none)) i (some x) = updV vs i (some x) := updV_updV _ _ _ _
    have e6 : updV (updV w.var i (some hollow)) i (some s) = updV w.var i (some s) := updV_updV _ _ _ _
    obtain ⟨g2, W4⟩ : ∃ g2, WI lt h0 g2 ⟨h', updV (updV w.var i (some s)) j (some hollow)⟩ (updV (updV vs i (some x)) j (some none)) := by
      simp only [e5, e6] at W3
      exact ⟨_, W3⟩
    exact ⟨⟨h', updV (updV w.var i (some s)) j (some hollow)⟩, g2, by simp only [runW, e1, e2, Option.bind_eq_bind, Option.bind_some, updV_ne _ _ hji, e3], W4⟩
  | @swap i j _ x y hv hw =>
    obtain ⟨t, e1, hs⟩ := W.live hv
    obtain ⟨s, e2, hr⟩ := W.live hw
    refine ⟨⟨w.heap, updV (updV w.var i (some s)) j (some t)⟩, updV (updV g i (g j)) j (g i), by simp only [runW, e1, e2, Option.bind_eq_bind, Option.bind_some], ?_⟩
    refine W.relabel (fun k => if k = j then i else if k = i then j else k) (fun k => ?_) (fun k => Or.inr ?_) (fun k l hkl _ _ => ?_) (fun k _ => ?_)
    · by_cases h : k = j
      · subst h; simpa only [updV_same] using hs
      · by_cases h2 : k = i
        · subst h2; simpa only [updV_ne _ _ h, updV_same] using hr
        · simpa only [updV_ne _ _ h, updV_ne _ _ h2] using W.slot k
    · show _ = g (if k = j then i else if k = i then j else k)
      by_cases h : k = j
      · subst h; rw [updV_same, if_pos rfl]
      · rw [updV_ne _ _ h, if_neg h]
        by_cases h2 : k = i
        · subst h2; rw [updV_same, if_pos rfl]
        · rw [updV_ne _ _ h2, if_neg h2]
    · show (if k = j then i else if k = i then j else k) ≠ (if l = j then i else if l = i then j else l)
      split <;> split <;> (try split) <;> (try split) <;> omega
    · by_cases h : k = i
      · exact ⟨j, by rw [updV_same, h]⟩
      · by_cases h2 : k = j
        · refine ⟨i, ?_⟩
          have h3 : i ≠ j := fun e => h (by rw [h2, e])
          rw [updV_ne _ _ h3, updV_same, h2]
        · exact ⟨k, by rw [updV_ne _ _ h2, updV_ne _ _ h]⟩
  | @destroy i _ x hv =>
    obtain ⟨t, h', t', e1, e2, hW⟩ := W.wipe hv
    exact ⟨⟨h', updV w.var i none⟩, _, by simp only [runW, e1, Option.bind_eq_bind, Option.bind_some, e2], hW .none⟩

theorem runWs_ok {lt : K → K → Bool} (sw : StrictWeak lt) (d : V) {alloc : Nat → Heap (K × V) → Ptr} (ga : ∀ n, GoodAlloc (alloc n)) {h0 : Heap (K × V)} :
    ∀ {os : List (WOp K V)} {vs us : Vals K V} {xs : List (Option (Out K V))}, Run lt d os vs xs us → ∀ {g : Nat → Option (Tree0 × List (Elem K V))} {w : World K V} (n : Nat),
      WI lt h0 g w vs → ∃ w' g', runWs lt d alloc n os w = some (xs, w') ∧ WI lt h0 g' w' us := by
  intro os vs us xs hr
  induction hr with
  | nil => intro g w n W; exact ⟨w, g, rfl, W⟩
  | cons hs _ ih =>
    intro g w n W
    obtain ⟨w1, g1, e1, W1⟩ := step_ok sw d (ga n) W hs
    obtain ⟨w2, g2, e2, W2⟩ := ih (n + 1) W1
    exact ⟨w2, g2, by simp only [runWs, e1, Option.bind_eq_bind, Option.bind_some, e2], W2⟩

/-! ## Theorems -/

/-- **C116** A program with any number of maps — made empty, as copies, by moving, assigned to by copy and by move, swapped, destroyed, with every operation of C45 on each
— has no undefined behaviour and shows at every statement what the same program shows with lists of pairs for the maps: no map shares anything
with another, the memory the program had before is as it was, and once all maps are destroyed or moved from no element is left in memory: what remains are headers
(which the code never frees). -/
theorem c116_history {lt : K → K → Bool} (sw : StrictWeak lt) (d : V) {alloc : Nat → Heap (K × V) → Ptr} (ga : ∀ n, GoodAlloc (alloc n)) {h0 : Heap (K × V)} (hb : Bounded h0)
    (hn : h0 0 = none) {os : List (WOp K V)} {us : Vals K V} {xs : List (Option (Out K V))} (hr : Run lt d os (fun _ => none) xs us) :
    ∃ w, runWs lt d alloc 0 os ⟨h0, fun _ => none⟩ = some (xs, w) ∧ (∀ q, h0 q ≠ none → w.heap q = h0 q) ∧ (∀ i, w.var i = none ↔ us i = none) ∧
      ((∀ i M, us i ≠ some (some M)) → ∀ q c, h0 q = none → w.heap q = some c → c.val = none) := by
  have W : WI lt h0 (fun _ => none) ⟨h0, fun _ => none⟩ (fun _ => none : Vals K V) :=
    ⟨hb, hn, fun _ => .none, fun _ _ _ e => by simp at e, fun _ _ _ q hq => by simp [foot] at hq, fun _ _ => rfl, fun _ q hq => by simp [foot] at hq, fun q c h1 h2 => absurd (h1.symm.trans h2) (by simp)⟩
  obtain ⟨w, g, e, W'⟩ := runWs_ok sw d ga hr 0 W
  refine ⟨w, e, W'.base, fun i => ?_, fun hu q c hq hc => ?_⟩
  · have hs := W'.slot i
    generalize w.var i = a at hs ⊢
    generalize us i = b at hs ⊢
    generalize g i = c at hs
    cases hs <;> simp
  · refine (W'.left q c hq hc).resolve_left ?_
    rintro ⟨i, hi⟩
    have hs := W'.slot i
    have hn := hu i
    generalize w.var i = a at hs
    generalize us i = b at hs hn
    generalize g i = k at hs hi
    cases hs with
    | none => simp [foot] at hi
    | hollow => simp [foot] at hi
    | map t L => exact hn _ rfl

/-- **C116** Copy assignment: the target then shows the pairs of the source, and the source, like every other map, what it showed before. -/
theorem c116_assign {lt : K → K → Bool} {alloc : Heap (K × V) → Ptr} (ga : GoodAlloc alloc) {h : Heap (K × V)} {t s : Tree0} {L R : List (Elem K V)}
    (hb : Bounded h) (hL : MapAt lt h t L) (hR : MapAt lt h s R) (hdis : ∀ q ∈ owned t.hd L, q ∉ owned s.hd R) :
    ∃ h' t' L', copyAssign alloc h t s = some (h', t') ∧ MapAt lt h' t' L' ∧ vals L' = vals R ∧ MapAt lt h' s R ∧ (∀ q ∈ owned t'.hd L', q ∉ owned s.hd R) ∧
      ∀ q, h q ≠ none → q ∉ owned t.hd L → h' q = h q := by
  obtain ⟨h', t', L', e, T1, hhd, hv, hnew, hoff, _⟩ := copyAssign_ok ga hL.1 hR.1 hb hdis
  have hvv : vals L' = vals R := hv
  have hd2 : ∀ q ∈ owned t'.hd L', q ∉ owned s.hd R := fun q hq hq' => by
    rcases hnew q hq with h1 | h1
    · exact hdis q h1 hq'
    · exact hR.1.alloc q hq' h1
  have hM : MapAt lt h' t' L' := ⟨T1, asc_vals hvv hR.2⟩
  refine ⟨h', t', L', e, hM, hvv, ⟨hR.1.congr (fun q hq => hoff q ?_) (by rw [T1.null, hL.1.null]), hR.2⟩, hd2, ?_⟩
  · rw [List.mem_append, not_or]; exact ⟨fun e => hdis q e hq, fun e => hd2 q e hq⟩
  · exact fun q hq hq2 => hoff q (by
      rw [List.mem_append, not_or]
      exact ⟨hq2, fun e => (hnew q e).elim hq2 hq⟩)

/-- **C116 (defect)** Move assignment of a map to itself loses everything: the variable is left without a header. -/
theorem c116_self_move {lt : K → K → Bool} (d : V) (alloc : Heap (K × V) → Ptr) {w : World K V} {i : Nat} {t : Tree0} {L : List (Elem K V)} (hv : w.var i = some t)
    (hM : MapAt lt w.heap t L) : ∃ w', runW lt d alloc (.moveAssign i i) w = some (none, w') ∧ w'.var i = some hollow ∧ ∀ q ∈ addrs L, w'.heap q = none := by
  obtain ⟨h', e1, _, _, f1⟩ := clear_ok hM.1
  refine ⟨⟨h', updV (updV w.var i (some { t with count := 0 })) i (some hollow)⟩, ?_, updV_same _ _ _, f1⟩
  simp only [runW, hv, Option.bind_eq_bind, Option.bind_some, e1, updV_same]

example : ∃ us, Run natLt 0 [.new 0, .run 0 (.insert (1, 10)), .copyNew 1 0, .run 1 (.insert (2, 20)), .run 0 .items, .swap 0 1, .run 0 .items, .moveNew 2 0, .run 2 (.insert (3, 30)),
    .assign 1 2, .run 2 (.erase 2), .run 1 .items, .moveAssign 0 1, .destroy 1, .run 0 .items] (fun _ => none)
    [none, some (.flag true), none, some (.flag true), some (.items [(1, 10)]), none, some (.items [(1, 10), (2, 20)]), none, some (.flag true),
      none, some (.num 1), some (.items [(1, 10), (2, 20), (3, 30)]), none, none, some (.items [(1, 10), (2, 20), (3, 30)])] us :=
  ⟨_, .cons (.new rfl) <|
    .cons (.run (M := []) rfl) <|
    .cons (.copyNew rfl rfl) <|
    .cons (.run (M := [(1, 10)]) rfl) <|
    .cons (.run (M := [(1, 10)]) rfl) <|
    .cons (.swap rfl rfl) <|
    .cons (.run (M := [(1, 10), (2, 20)]) rfl) <|
    .cons (.moveNew rfl rfl) <|
    .cons (.run (M := [(1, 10), (2, 20)]) rfl) <|
    .cons (.assign (M := [(1, 10), (2, 20), (3, 30)]) (N := [(1, 10)]) rfl rfl) <|
    .cons (.run (M := [(1, 10), (2, 20), (3, 30)]) rfl) <|
    .cons (.run (M := [(1, 10), (2, 20), (3, 30)]) rfl) <|
    .cons (.moveAssign (x := some [(1, 10), (2, 20), (3, 30)]) (y := none) (by decide) rfl rfl) <|
    .cons (.destroy (x := none) rfl) <|
    .cons (.run (M := [(1, 10), (2, 20), (3, 30)]) rfl) .nil⟩

end Verif.Rb
