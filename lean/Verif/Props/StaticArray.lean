import Verif.StaticArray
import Verif.Props.Heap
import Mathlib.Data.List.GetD

/-!
# C87 `static_array` objects are independent values of `N` elements — except for the iterators of copies
-/

namespace Verif.StaticArray

open Verif.Sort

variable {α : Type}

/-! ## Specification: each live object means a function from indexes to elements -/

abbrev Vals (α : Type) := Nat → Option (Nat → α)

def setVal (s : Vals α) (i : Nat) (f : Nat → α) : Vals α := fun k => if k = i then some f else s k

/-- what a call does to the values; `none` when it names an object that does not exist -/
def specStep (dflt : α) (s : Vals α) : Op α → Option (Vals α)
  | .new i => some (setVal s i (fun _ => dflt))
  | .ofList i l => some (setVal s i (fun k => l.getD k dflt))
  | .copy i j => (s j).map (setVal s i)
  | .assign i j => if (s i).isSome then (s j).map (setVal s i) else none
  | .set i k x => (s i).map (fun f => setVal s i (fun m => if m = k then x else f m))
  | .fill i x => (s i).map (fun _ => setVal s i (fun _ => x))
  | .drop i => (s i).map (fun _ => fun k => if k = i then none else s k)

def specRun (dflt : α) : Vals α → List (Op α) → Option (Vals α)
  | s, [] => some s
  | s, o :: os => (specStep dflt s o).bind (fun s => specRun dflt s os)

/-- the arguments a client may use: lists of at most `n` elements, indexes below `n` -/
def InRange (n : Nat) : Op α → Prop
  | .ofList _ l => l.length ≤ n
  | .set _ k _ => k < n
  | _ => True

/-- was the object that is now at `i` built by the default or list constructor (and not as a copy)? -/
def builtHere (i : Nat) : List (Op α) → Prop
  | [] => False
  | .new j :: os => builtHere i os ∨ (i = j ∧ ∀ o ∈ os, ∀ k, o ≠ .copy i k)
  | .ofList j _ :: os => builtHere i os ∨ (i = j ∧ ∀ o ∈ os, ∀ k, o ≠ .copy i k)
  | _ :: os => builtHere i os

/-! ## The loops -/

theorem listLoop_ok : ∀ (l d : List α) (i : Nat), i + l.length ≤ d.length →
    ∃ d', listLoop l d i = some d' ∧ d'.length = d.length ∧ ∀ k, d'[k]? = if i ≤ k ∧ k < i + l.length then l[k - i]? else d[k]? := by
  intro l
  induction l with
  | nil => intro d i _; exact ⟨d, rfl, rfl, fun k => by rw [if_neg (by simp)]⟩
  | cons x l ih =>
    intro d i h
    rw [List.length_cons] at h
    have hi : i < d.length := by omega
    obtain ⟨d', h1, h2, h3⟩ := ih (d.set i x) (i + 1) (by rw [List.length_set]; omega)
    refine ⟨d', ?_, by rw [h2, List.length_set], fun k => ?_⟩
    · unfold listLoop; rw [wr_eq hi]; exact h1
    · rw [h3 k, get_set _ _ _ _ hi, List.length_cons]
      by_cases hk : i = k
      · subst hk
        rw [if_neg (by omega), if_pos rfl, if_pos (by omega)]; simp
      · rw [if_neg hk]
        by_cases h4 : i + 1 ≤ k ∧ k < i + 1 + l.length
        · rw [if_pos h4, if_pos (by omega), show k - i = (k - (i + 1)) + 1 by omega, List.getElem?_cons_succ]
        · rw [if_neg h4, if_neg (by omega)]

theorem assignLoop_ok (r : List α) : ∀ (k : Nat) (d : List α) (i : Nat), i + k ≤ d.length → i + k ≤ r.length →
    ∃ d', assignLoop r k d i = some d' ∧ d'.length = d.length ∧ ∀ m, d'[m]? = if i ≤ m ∧ m < i + k then r[m]? else d[m]? := by
  intro k
  induction k with
  | zero => intro d i _ _; exact ⟨d, rfl, rfl, fun m => by rw [if_neg (by omega)]⟩
  | succ k ih =>
    intro d i h hr
    have hi : i < d.length := by omega
    have hir : i < r.length := by omega
    obtain ⟨d', h1, h2, h3⟩ := ih (d.set i r[i]) (i + 1) (by rw [List.length_set]; omega) (by omega)
    refine ⟨d', ?_, by rw [h2, List.length_set], fun m => ?_⟩
    · unfold assignLoop; rw [List.getElem?_eq_getElem hir]
      show (wr d i r[i]).bind _ = _
      rw [wr_eq hi]; exact h1
    · rw [h3 m, get_set _ _ _ _ hi]
      by_cases hm : i = m
      · subst hm
        rw [if_neg (by omega), if_pos rfl, if_pos (by omega), List.getElem?_eq_getElem hir]
      · rw [if_neg hm]
        by_cases h4 : i + 1 ≤ m ∧ m < i + 1 + k
        · rw [if_pos h4, if_pos (by omega)]
        · rw [if_neg h4, if_neg (by omega)]

theorem fillLoop_ok (x : α) : ∀ (k : Nat) (d : List α) (i : Nat), i + k ≤ d.length →
    ∃ d', fillLoop x k d i = some d' ∧ d'.length = d.length ∧ ∀ m, d'[m]? = if i ≤ m ∧ m < i + k then some x else d[m]? := by
  intro k
  induction k with
  | zero => intro d i _; exact ⟨d, rfl, rfl, fun m => by rw [if_neg (by omega)]⟩
  | succ k ih =>
    intro d i h
    have hi : i < d.length := by omega
    obtain ⟨d', h1, h2, h3⟩ := ih (d.set i x) (i + 1) (by rw [List.length_set]; omega)
    refine ⟨d', ?_, by rw [h2, List.length_set], fun m => ?_⟩
    · unfold fillLoop; rw [wr_eq hi]; exact h1
    · rw [h3 m, get_set _ _ _ _ hi]
      by_cases hm : i = m
      · subst hm
        rw [if_neg (by omega), if_pos rfl, if_pos (by omega)]
      · rw [if_neg hm]
        by_cases h4 : i + 1 ≤ m ∧ m < i + 1 + k
        · rw [if_pos h4, if_pos (by omega)]
        · rw [if_neg h4, if_neg (by omega)]

/-! ## Histories -/

/-- the object holds the values -/
def Holds (n : Nat) (a : Arr α) (f : Nat → α) : Prop := a.data.length = n ∧ ∀ k, k < n → a.data[k]? = some (f k)

def Agree (n : Nat) (w : World α) (s : Vals α) : Prop :=
  ∀ i, (w i = none ∧ s i = none) ∨ ∃ a f, w i = some a ∧ s i = some f ∧ Holds n a f

/-- the object at `i` owns its iterators -/
def Own (n : Nat) (w : World α) (i : Nat) : Prop := ∀ a, w i = some a → a.begin = ⟨i, 0⟩ ∧ a.fin = ⟨i, n⟩

theorem agree_put {n : Nat} {w : World α} {s : Vals α} (h : Agree n w s) (i : Nat) {a : Arr α} {f : Nat → α} (ha : Holds n a f) : Agree n (put w i a) (setVal s i f) := by
  intro k
  unfold put setVal
  by_cases e : k = i
  · rw [if_pos e, if_pos e]; exact Or.inr ⟨a, f, rfl, rfl, ha⟩
  · rw [if_neg e, if_neg e]; exact h k

theorem agree_get {n : Nat} {w : World α} {s : Vals α} (h : Agree n w s) {i : Nat} {f : Nat → α} (hi : s i = some f) : ∃ a, w i = some a ∧ Holds n a f := by
  rcases h i with ⟨-, h2⟩ | ⟨a, g, h1, h2, h3⟩
  · rw [h2] at hi; cases hi
  · rw [h2] at hi; obtain rfl := Option.some.inj hi; exact ⟨a, h1, h3⟩

theorem own_put {n : Nat} {w : World α} {i j : Nat} {a : Arr α} (h : Own n w i) (ha : i = j → a.begin = ⟨i, 0⟩ ∧ a.fin = ⟨i, n⟩) : Own n (put w j a) i := by
  intro b hb
  unfold put at hb
  by_cases e : i = j
  · rw [if_pos e] at hb; obtain rfl := Option.some.inj hb; exact ha e
  · rw [if_neg e] at hb; exact h b hb

theorem own_put_new {n : Nat} {w : World α} {i : Nat} {a : Arr α} (ha : a.begin = ⟨i, 0⟩ ∧ a.fin = ⟨i, n⟩) : Own n (put w i a) i := by
  intro b hb
  unfold put at hb
  rw [if_pos rfl] at hb; obtain rfl := Option.some.inj hb; exact ha

theorem fresh_holds (n : Nat) (dflt : α) (i : Nat) : Holds n (fresh n dflt i) (fun _ => dflt) := by
  refine ⟨by simp [fresh], fun k hk => ?_⟩
  show (List.replicate n dflt)[k]? = _
  rw [List.getElem?_replicate, if_pos hk]

/-- what one step does to the ownership of iterators -/
def keeps (o : Op α) (i : Nat) : Prop := ∀ k, o ≠ .copy i k

def builds (o : Op α) (i : Nat) : Prop := match o with | .new j => i = j | .ofList j _ => i = j | _ => False

theorem step_ok (n : Nat) (dflt : α) {w : World α} {s s' : Vals α} (h : Agree n w s) (o : Op α) (ho : InRange n o) (hs : specStep dflt s o = some s') :
    ∃ w', step n dflt w o = some w' ∧ Agree n w' s' ∧ ∀ i, (Own n w i ∧ keeps o i) ∨ builds o i → Own n w' i := by
  cases o with
  | new j =>
    obtain rfl := Option.some.inj hs
    refine ⟨_, rfl, agree_put h j (fresh_holds n dflt j), fun i hi => ?_⟩
    rcases hi with ⟨h1, -⟩ | h1
    · exact own_put h1 (fun e => by subst e; exact ⟨rfl, rfl⟩)
    · have : i = j := h1
      subst this; exact own_put_new ⟨rfl, rfl⟩
  | ofList j l =>
    obtain rfl := Option.some.inj hs
    have hl : l.length ≤ n := ho
    obtain ⟨d, h1, h2, h3⟩ := listLoop_ok l (fresh n dflt j).data 0 (by simp [fresh]; exact hl)
    refine ⟨put w j { fresh n dflt j with data := d }, by show (listLoop l (fresh n dflt j).data 0).bind _ = _; rw [h1]; rfl, agree_put h j ⟨?_, fun k hk => ?_⟩, fun i hi => ?_⟩
    · show d.length = n
      rw [h2]; simp [fresh]
    · show d[k]? = some (l.getD k dflt)
      rw [h3 k]
      by_cases hk2 : k < l.length
      · rw [if_pos (by omega), show k - 0 = k by omega, List.getElem?_eq_getElem hk2, List.getD_eq_getElem _ _ hk2]
      · rw [if_neg (by omega), List.getD_eq_default _ _ (by omega)]
        exact (fresh_holds n dflt j).2 k hk
    · rcases hi with ⟨h1, -⟩ | h1
      · exact own_put h1 (fun e => by subst e; exact ⟨rfl, rfl⟩)
      · have : i = j := h1
        subst this; exact own_put_new ⟨rfl, rfl⟩
  | copy j k =>
    obtain ⟨f, hf, rfl⟩ := Option.map_eq_some_iff.1 hs
    obtain ⟨a, ha, hh⟩ := agree_get h hf
    refine ⟨put w j a, by show (w k).bind _ = _; rw [ha]; rfl, agree_put h j hh, fun i hi => ?_⟩
    rcases hi with ⟨h1, h2⟩ | h1
    · exact own_put h1 (fun e => absurd (by rw [e]) (h2 k))
    · exact h1.elim
  | assign j k =>
    have hj : (s j).isSome := by
      by_contra hc
      have : specStep dflt s (.assign j k) = none := if_neg hc
      rw [this] at hs; cases hs
    have hs2 : (s k).map (setVal s j) = some s' := by rw [← hs]; exact (if_pos hj).symm
    obtain ⟨f, hf, rfl⟩ := Option.map_eq_some_iff.1 hs2
    obtain ⟨g, hg⟩ := Option.isSome_iff_exists.1 hj
    obtain ⟨a, ha, hha⟩ := agree_get h hg
    obtain ⟨b, hb, hhb⟩ := agree_get h hf
    obtain ⟨d, h1, h2, h3⟩ := assignLoop_ok b.data n a.data 0 (by rw [hha.1]; omega) (by rw [hhb.1]; omega)
    refine ⟨put w j { a with data := d }, ?_, agree_put h j ⟨by show d.length = n; rw [h2, hha.1], fun m hm => ?_⟩, fun i hi => ?_⟩
    · show (w j).bind _ = _
      rw [ha]; show (w k).bind _ = _
      rw [hb]; show (assignLoop b.data n a.data 0).bind _ = _
      rw [h1]; rfl
    · show d[m]? = _
      rw [h3 m, if_pos (by omega)]; exact hhb.2 m hm
    · rcases hi with ⟨h1, -⟩ | h1
      · exact own_put h1 (fun e => by subst e; exact h1 a ha)
      · exact h1.elim
  | set j k x =>
    obtain ⟨f, hf, rfl⟩ := Option.map_eq_some_iff.1 hs
    obtain ⟨a, ha, hh⟩ := agree_get h hf
    have hk : k < a.data.length := by rw [hh.1]; exact ho
    refine ⟨put w j { a with data := a.data.set k x }, ?_, agree_put h j ⟨by show (a.data.set k x).length = n; rw [List.length_set, hh.1], fun m hm => ?_⟩, fun i hi => ?_⟩
    · show (w j).bind _ = _
      rw [ha]; show (wr a.data k x).bind _ = _
      rw [wr_eq hk]; rfl
    · show (a.data.set k x)[m]? = some (if m = k then x else f m)
      rw [get_set _ _ _ _ hk]
      by_cases e : k = m
      · rw [if_pos e, if_pos e.symm]
      · rw [if_neg e, if_neg (fun e' => e e'.symm)]; exact hh.2 m hm
    · rcases hi with ⟨h1, -⟩ | h1
      · exact own_put h1 (fun e => by subst e; exact h1 a ha)
      · exact h1.elim
  | fill j x =>
    obtain ⟨f, hf, rfl⟩ := Option.map_eq_some_iff.1 hs
    obtain ⟨a, ha, hh⟩ := agree_get h hf
    obtain ⟨d, h1, h2, h3⟩ := fillLoop_ok x n a.data 0 (by rw [hh.1]; omega)
    refine ⟨put w j { a with data := d }, ?_, agree_put h j ⟨by show d.length = n; rw [h2, hh.1], fun m hm => ?_⟩, fun i hi => ?_⟩
    · show (w j).bind _ = _
      rw [ha]; show (fillLoop x n a.data 0).bind _ = _
      rw [h1]; rfl
    · show d[m]? = _
      rw [h3 m, if_pos (by omega)]
    · rcases hi with ⟨h1, -⟩ | h1
      · exact own_put h1 (fun e => by subst e; exact h1 a ha)
      · exact h1.elim
  | drop j =>
    obtain ⟨f, hf, rfl⟩ := Option.map_eq_some_iff.1 hs
    obtain ⟨a, ha, hh⟩ := agree_get h hf
    refine ⟨fun k => if k = j then none else w k, by show (w j).bind _ = _; rw [ha]; rfl, fun k => ?_, fun i hi => ?_⟩
    · by_cases e : k = j
      · exact Or.inl ⟨if_pos e, if_pos e⟩
      · have := h k
        simpa only [if_neg e] using this
    · rcases hi with ⟨h1, -⟩ | h1
      · intro b hb
        by_cases e : i = j
        · simp only [if_pos e] at hb; cases hb
        · simp only [if_neg e] at hb; exact h1 b hb
      · exact h1.elim

theorem step_set (n : Nat) (dflt : α) {w : World α} {i k : Nat} {a : Arr α} (x : α) (ha : w i = some a) (hk : k < a.data.length) :
    step n dflt w (.set i k x) = some (put w i { a with data := a.data.set k x }) := by
  show (w i).bind _ = _
  rw [ha]; show (wr a.data k x).bind _ = _
  rw [wr_eq hk]; rfl

theorem step_drop (n : Nat) (dflt : α) {w : World α} {i : Nat} {a : Arr α} (ha : w i = some a) : step n dflt w (.drop i) = some (fun k => if k = i then none else w k) := by
  show (w i).bind _ = _
  rw [ha]; rfl

theorem run_ok (n : Nat) (dflt : α) : ∀ (os : List (Op α)) (w : World α) (s s' : Vals α), Agree n w s → (∀ o ∈ os, InRange n o) → specRun dflt s os = some s' →
    ∃ w', run n dflt w os = some w' ∧ Agree n w' s' ∧ ∀ i, (Own n w i ∧ ∀ o ∈ os, ∀ k, o ≠ .copy i k) ∨ builtHere i os → Own n w' i := by
  intro os
  induction os with
  | nil =>
    intro w s s' h _ hs
    obtain rfl := Option.some.inj hs
    exact ⟨w, rfl, h, fun i hi => hi.elim (fun x => x.1) (fun x => x.elim)⟩
  | cons o os ih =>
    intro w s s' h hr hs
    obtain ⟨s1, h1, h2⟩ := Option.bind_eq_some_iff.1 (show (specStep dflt s o).bind (fun s => specRun dflt s os) = some s' from hs)
    obtain ⟨w1, k1, k2, k3⟩ := step_ok n dflt h o (hr o (List.mem_cons_self)) h1
    obtain ⟨w2, m1, m2, m3⟩ := ih w1 s1 s' k2 (fun o ho => hr o (List.mem_cons_of_mem _ ho)) h2
    refine ⟨w2, by show (step n dflt w o).bind _ = _; rw [k1]; exact m1, m2, fun i hi => m3 i ?_⟩
    rcases hi with ⟨g1, g2⟩ | g
    · exact Or.inl ⟨k3 i (Or.inl ⟨g1, g2 o (List.mem_cons_self)⟩), fun o ho => g2 o (List.mem_cons_of_mem _ ho)⟩
    · cases o with
      | new j => rcases g with g | ⟨g1, g2⟩
                 · exact Or.inr g
                 · exact Or.inl ⟨k3 i (Or.inr g1), g2⟩
      | ofList j l => rcases g with g | ⟨g1, g2⟩
                      · exact Or.inr g
                      · exact Or.inl ⟨k3 i (Or.inr g1), g2⟩
      | copy j k => exact Or.inr g
      | assign j k => exact Or.inr g
      | set j k x => exact Or.inr g
      | fill j x => exact Or.inr g
      | drop j => exact Or.inr g

theorem iterate_own {n : Nat} {w : World α} {i : Nat} {a : Arr α} {f : Nat → α} (ha : w i = some a) (hh : Holds n a f) :
    ∀ (m k : Nat), k + m = n → iterate w ⟨i, n⟩ (m + 1) ⟨i, k⟩ = some ((List.range' k m).map f) := by
  intro m
  induction m with
  | zero => intro k hk; unfold iterate; rw [if_pos (by rw [show k = n by omega])]; rfl
  | succ m ih =>
    intro k hk
    unfold iterate
    rw [if_neg (by intro e; injection e with _ e; omega)]
    show (w i).bind _ = _
    rw [ha]; show (a.data[k]?).bind _ = _
    rw [hh.2 k (by omega)]; show (iterate w ⟨i, n⟩ (m + 1) ⟨i, k + 1⟩).bind _ = _
    rw [ih (k + 1) (by omega), List.range'_succ]; rfl

/-- **C87.**  For every number of elements, every history of calls on any number of objects that names existing objects, indexes below `N` and lists of at most `N` elements: nothing outside an object
is written, and afterwards the live objects are those the calls prescribe, and `operator[]`/`get` of each returns exactly the values the calls on *that* object prescribe (copies and assignments take
the values once; later writes to either do not affect the other; a short list is filled up with default values). -/
theorem c87_history (n : Nat) (dflt : α) (os : List (Op α)) (hr : ∀ o ∈ os, InRange n o) (s : Vals α) (hs : specRun dflt (fun _ => none) os = some s) :
    ∃ w, run n dflt (fun _ => none) os = some w
      ∧ ∀ i, ((w i).isSome ↔ (s i).isSome) ∧ ∀ a f, w i = some a → s i = some f → ∀ k, k < n → get a k = some (f k) := by
  obtain ⟨w, h1, h2, -⟩ := run_ok n dflt os (fun _ => none) (fun _ => none) s (fun i => Or.inl ⟨rfl, rfl⟩) hr hs
  refine ⟨w, h1, fun i => ⟨?_, fun a f ha hf => ?_⟩⟩
  · rcases h2 i with ⟨e1, e2⟩ | ⟨a, f, e1, e2, -⟩
    · rw [e1, e2]; exact Iff.rfl
    · rw [e1, e2]; simp
  · obtain ⟨b, hb, hh⟩ := agree_get h2 hf
    rw [ha] at hb
    obtain rfl := Option.some.inj hb
    exact hh.2

/-- **C87 (iteration).**  Iterating over an object that was built by the default or list constructor visits its own `N` values in order. -/
theorem c87_iterate (n : Nat) (dflt : α) (os : List (Op α)) (hr : ∀ o ∈ os, InRange n o) (s : Vals α) (hs : specRun dflt (fun _ => none) os = some s) (i : Nat)
    (hi : builtHere i os) (f : Nat → α) (hf : s i = some f) :
    ∃ w a, run n dflt (fun _ => none) os = some w ∧ w i = some a ∧ iterate w a.fin (n + 1) a.begin = some ((List.range n).map f) := by
  obtain ⟨w, h1, h2, h3⟩ := run_ok n dflt os (fun _ => none) (fun _ => none) s (fun i => Or.inl ⟨rfl, rfl⟩) hr hs
  obtain ⟨a, ha, hh⟩ := agree_get h2 hf
  obtain ⟨e1, e2⟩ := h3 i (Or.inr hi) a ha
  refine ⟨w, a, h1, ha, ?_⟩
  rw [e1, e2, iterate_own ha hh n 0 (by omega), List.range_eq_range']

/-- **C87 (defect: the iterators of a copy).**  A copy-constructed object iterates over the object it was copied from: writes to the copy do not show, writes to the original do, and after the original
is gone the iterators dangle. -/
theorem c87_copy_iterates_source (n : Nat) (dflt : α) (l : List α) (hl : l.length ≤ n) (k : Nat) (hk : k < n) (x y : α) :
    (∃ w a, run n dflt (fun _ => none) [.ofList 0 l, .copy 1 0, .set 1 k x, .set 0 k y] = some w ∧ w 1 = some a ∧ get a k = some x
      ∧ iterate w a.fin (n + 1) a.begin = some ((List.range n).map (fun m => if m = k then y else l.getD m dflt)))
    ∧ ∃ w a, run n dflt (fun _ => none) [.ofList 0 l, .copy 1 0, .drop 0] = some w ∧ w 1 = some a ∧ get a k = some (l.getD k dflt)
      ∧ iterate w a.fin (n + 1) a.begin = none := by
  have h0 : Agree n (fun _ => none : World α) (fun _ => none) := fun i => Or.inl ⟨rfl, rfl⟩
  have a1 := step_ok n dflt h0 (.ofList 0 l) hl rfl
  obtain ⟨w1, e1, g1, o1⟩ := a1
  have own1 := o1 0 (Or.inr rfl)
  obtain ⟨a, ha, hha⟩ := agree_get g1 (i := 0) (f := fun k => l.getD k dflt) rfl
  obtain ⟨b1, b2⟩ := own1 a ha
  have hka : k < a.data.length := by rw [hha.1]; exact hk
  have e2 : step n dflt w1 (.copy 1 0) = some (put w1 1 a) := by show (w1 0).bind _ = _; rw [ha]; rfl
  constructor
  · obtain ⟨c, hc⟩ : ∃ c : Arr α, c = { a with data := a.data.set k x } := ⟨_, rfl⟩
    obtain ⟨d, hd⟩ : ∃ d : Arr α, d = { a with data := a.data.set k y } := ⟨_, rfl⟩
    have e3 : step n dflt (put w1 1 a) (.set 1 k x) = some (put (put w1 1 a) 1 c) := by
      rw [hc]; exact step_set n dflt x (if_pos rfl) hka
    have h03 : put (put w1 1 a) 1 c 0 = some a := by
      show (if (0 : ℕ) = 1 then some c else if (0 : ℕ) = 1 then some a else w1 0) = _
      rw [if_neg (by omega), if_neg (by omega), ha]
    have e4 : step n dflt (put (put w1 1 a) 1 c) (.set 0 k y) = some (put (put (put w1 1 a) 1 c) 0 d) := by
      rw [hd]; exact step_set n dflt y h03 hka
    refine ⟨put (put (put w1 1 a) 1 c) 0 d, c, ?_, ?_, ?_, ?_⟩
    · show (step n dflt _ _).bind _ = _
      rw [e1]; show (step n dflt _ _).bind _ = _
      rw [e2]; show (step n dflt _ _).bind _ = _
      rw [e3]; show (step n dflt _ _).bind _ = _
      rw [e4]; rfl
    · show (if (1 : ℕ) = 0 then some d else put (put w1 1 a) 1 c 1) = _
      rw [if_neg (by omega)]; exact if_pos rfl
    · rw [hc]; show (a.data.set k x)[k]? = _
      rw [get_set _ _ _ _ hka, if_pos rfl]
    · have hb : c.begin = ⟨0, 0⟩ := by rw [hc]; exact b1
      have he : c.fin = ⟨0, n⟩ := by rw [hc]; exact b2
      rw [hb, he, iterate_own (a := d) (f := fun m => if m = k then y else l.getD m dflt) (if_pos rfl) ?_ n 0 (by omega), List.range_eq_range']
      rw [hd]
      refine ⟨by show (a.data.set k y).length = n; rw [List.length_set, hha.1], fun m hm => ?_⟩
      show (a.data.set k y)[m]? = some (if m = k then y else l.getD m dflt)
      rw [get_set _ _ _ _ hka]
      by_cases e : k = m
      · rw [if_pos e, if_pos e.symm]
      · rw [if_neg e, if_neg (fun e' => e e'.symm)]; exact hha.2 m hm
  · have h03 : put w1 1 a 0 = some a := by
      show (if (0 : ℕ) = 1 then some a else w1 0) = _
      rw [if_neg (by omega), ha]
    have e3 : step n dflt (put w1 1 a) (.drop 0) = some (fun k => if k = 0 then none else put w1 1 a k) := by
      exact step_drop n dflt h03
    refine ⟨fun k => if k = 0 then none else put w1 1 a k, a, ?_, ?_, hha.2 k hk, ?_⟩
    · show (step n dflt _ _).bind _ = _
      rw [e1]; show (step n dflt _ _).bind _ = _
      rw [e2]; show (step n dflt _ _).bind _ = _
      rw [e3]; rfl
    · show (if (1 : ℕ) = 0 then none else put w1 1 a 1) = _
      rw [if_neg (by omega)]; exact if_pos rfl
    · rw [b1, b2]
      unfold iterate
      rw [if_neg (by intro e; injection e with _ e; omega)]
      rfl

/-- **C87 (defect: a list that is too long).**  The list constructor does not look at `N`: a longer list is written past the elements. -/
theorem c87_long_list (n : Nat) (dflt : α) (w : World α) (i : Nat) (l : List α) (hl : n < l.length) : step n dflt w (.ofList i l) = none := by
  have key : ∀ (l d : List α) (i : Nat), d.length < i + l.length → i ≤ d.length → listLoop l d i = none := by
    intro l
    induction l with
    | nil => intro d i h1 h2; simp at h1; omega
    | cons x l ih =>
      intro d i h1 h2
      unfold listLoop
      by_cases hi : i < d.length
      · rw [wr_eq hi]
        exact ih (d.set i x) (i + 1) (by rw [List.length_set]; rw [List.length_cons] at h1; omega) (by rw [List.length_set]; omega)
      · have : wr d i x = none := if_neg hi
        rw [this]; rfl
  show (listLoop l (fresh n dflt i).data 0).bind _ = _
  rw [key l _ 0 (by simp [fresh]; exact hl) (by omega)]; rfl

/-! ## A concrete history -/

example : ∃ s, specRun (0 : ℤ) (fun _ => none) [.ofList 0 [1, 2], .copy 1 0, .set 1 2 7, .new 2, .assign 2 1, .fill 0 5] = some s ∧ (s 2).map (fun f => (f 0, f 1, f 2)) = some (1, 2, 7) := by
  refine ⟨_, rfl, ?_⟩; rfl

example : ∃ w, run 3 (0 : ℤ) (fun _ => none) [.ofList 0 [1, 2], .copy 1 0, .set 1 2 7, .new 2, .assign 2 1, .fill 0 5] = some w
    ∧ (w 2).map (fun a => a.data) = some [1, 2, 7] ∧ (w 1).bind (fun a => iterate w a.fin 4 a.begin) = some [5, 5, 5] := by
  refine ⟨_, rfl, ?_, ?_⟩ <;> rfl

example : builtHere 2 [.ofList 0 [1, 2], .copy 1 0, .set 1 2 7, .new 2, .assign 2 1, .fill 0 (5 : ℤ)] := by
  refine Or.inl (Or.inr ⟨rfl, fun o ho k => ?_⟩)
  simp at ho
  rcases ho with rfl | rfl <;> simp

end Verif.StaticArray
