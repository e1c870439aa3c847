import Verif.DequeMove
import Verif.DequeMoveSpec
import Verif.Props.DequeBulk
/-!
# C110: several deques: copies, moves, assignments and swaps
-/
namespace Verif.Deque
open Verif.DequeSpec

variable {α : Type}

/-- One step on the program's variables. -/
def runW (triv : Bool) (B : ℕ) (w : World α) : WOp α → Option (World α)
  | .make h l => do
    let t ← ofList B l
    some (setVar w h (some (.full t)))
  | .copy h g => copyCon B w h g
  | .move h g => moveCon w h g
  | .assign h g => copyAssign triv B w h g
  | .moveAssign h g => moveAssign B w h g
  | .listAssign h l => listAssign B w h l
  | .swap h g => swapVars w h g
  | .destroy h => do
    let v ← w.var h
    drop B (setVar w h none) v
  | .on h op => do
    let s ← full w h
    let t ← runBulk triv B s op
    some (setVar w h (some (.full t)))

def runWs (triv : Bool) (B : ℕ) (os : List (WOp α)) (w : World α) : Option (World α) :=
  os.foldlM (fun w o => runW triv B w o) w

theorem readFrom_ok {B : ℕ} {s : St α} {l : List α} (h : Inv B s l) (k : ℕ) : ∀ {i : ℕ} {x : It}, i + k = l.length →
    At B s (pos B s.b + i) x → readFrom B s x k = some (l.drop i) := by
  induction k with
  | zero =>
    intro i x hi _
    rw [List.drop_eq_nil_of_le (by omega)]; rfl
  | succ k ih =>
    intro i x hi hx
    have hl := h.len
    have hlt : i < l.length := by omega
    obtain ⟨y, hy⟩ := h.exists_at (p := pos B s.b + (i + 1)) (by omega) (by omega)
    show (read B s x >>= _) = _
    rw [bind_some ((read_ok h hx).trans (List.getElem?_eq_getElem hlt)), bind_some (inc_ok h hx (by rw [Nat.add_assoc]; exact hy)),
      bind_some (ih (i := i + 1) (by omega) hy), List.drop_eq_getElem_cons hlt]

/-- what a copy reads: all the elements -/
theorem elements_ok {B : ℕ} {s : St α} {l : List α} (h : Inv B s l) : elements B s = some l := by
  unfold elements
  have d2 : (size B s).toNat = l.length := by rw [size_ok h]; rfl
  rw [d2, readFrom_ok h l.length (i := 0) (by omega) h.at_b, List.drop_zero]

/-- The variable has the value. -/
def Has1 (B : ℕ) : Option (Var α) → Option (Option (List α)) → Prop
  | none, none => True
  | some .hollow, some none => True
  | some (.full s), some (some l) => Inv B s l
  | _, _ => False

/-- All the variables have the values. -/
def WInv (B : ℕ) (w : World α) (d : Vals α) : Prop := ∀ h, Has1 B (w.var h) (d h)

theorem WInv.full {B : ℕ} {w : World α} {d : Vals α} (hi : WInv B w d) {h : ℕ} {l : List α} (hd : d h = some (some l)) :
    ∃ s, w.var h = some (.full s) ∧ full w h = some s ∧ Inv B s l := by
  have := hi h
  rw [hd] at this
  unfold Deque.full
  cases hv : w.var h with
  | none => rw [hv] at this; exact this.elim
  | some v =>
    rw [hv] at this
    cases v with
    | hollow => exact this.elim
    | full s => exact ⟨s, rfl, rfl, this⟩

theorem WInv.some {B : ℕ} {w : World α} {d : Vals α} (hi : WInv B w d) {h : ℕ} {v : Option (List α)} (hd : d h = some v) :
    ∃ u, w.var h = some u ∧ Has1 B (some u) (some v) := by
  have := hi h
  rw [hd] at this
  cases hv : w.var h with
  | none => rw [hv] at this; exact this.elim
  | some u => rw [hv] at this; exact ⟨u, rfl, this⟩

theorem WInv.put {B : ℕ} {w : World α} {d : Vals α} (hi : WInv B w d) (h : ℕ) {v : Option (Var α)} {x : Option (Option (List α))}
    (hv : Has1 B v x) : WInv B (setVar w h v) (put d h x) := by
  intro k
  show Has1 B (upd w.var h v k) (if k = h then x else d k)
  unfold upd
  split
  · exact hv
  · exact hi k

/-- Losing memory changes no value. -/
theorem WInv.lost {B : ℕ} {w : World α} {d : Vals α} (hi : WInv B w d) (x y : ℕ) : WInv B { w with lostBuffers := x, lostMaps := y } d := hi

theorem drop_ok {B : ℕ} {w : World α} {d : Vals α} (hi : WInv B w d) {v : Var α} {x : Option (List α)} (hv : Has1 B (some v) (some x)) :
    ∃ w', drop B w v = some w' ∧ WInv B w' d ∧ w'.lostMaps = w.lostMaps ∧ w.lostBuffers ≤ w'.lostBuffers := by
  cases v with
  | hollow => exact ⟨w, rfl, hi, rfl, Nat.le_refl _⟩
  | full s =>
    cases x with
    | none => exact hv.elim
    | some l =>
      obtain ⟨left, c1, -⟩ := destructor_ok (show Inv B s l from hv)
      exact ⟨_, bind_some c1, hi.lost _ _, rfl, Nat.le_add_right _ _⟩

/-- 1 for a move assignment -/
def WOp.moves : WOp α → ℕ
  | .moveAssign _ _ => 1
  | _ => 0

theorem runW_ok {B : ℕ} (hB : 2 ≤ B) {triv : Bool} {o : WOp α} {d e : Vals α} (ho : Step triv o d e) :
    ∀ {w : World α}, WInv B w d → ∃ w', runW triv B w o = some w' ∧ WInv B w' e ∧ w'.lostMaps = w.lostMaps + WOp.moves o ∧ w.lostBuffers + WOp.moves o ≤ w'.lostBuffers := by
  intro w hi
  cases ho with
  | make _ h l hd =>
    obtain ⟨t, a1, a2, -, -⟩ := ofList_ok (B := B) (by omega) l
    exact ⟨_, bind_some a1, hi.put h (v := some (.full t)) (x := some (some l)) a2, rfl, Nat.le_refl _⟩
  | copy _ h g l hd hg =>
    obtain ⟨s, -, b2, b3⟩ := hi.full hg
    obtain ⟨t, a1, a2, -, -⟩ := ofList_ok (B := B) (by omega) l
    exact ⟨_, (bind_some b2).trans ((bind_some (elements_ok b3)).trans (bind_some a1)), hi.put h (v := some (.full t)) (x := some (some l)) a2, rfl, Nat.le_refl _⟩
  | move _ h g v hd hg =>
    obtain ⟨u, b1, b2⟩ := hi.some hg
    exact ⟨_, bind_some b1, (hi.put h b2).put g (v := some .hollow) (x := some none) trivial, rfl, Nat.le_refl _⟩
  | assign _ h g l m hne hd hg ht =>
    obtain ⟨s, -, b2, b3⟩ := hi.full hg
    obtain ⟨t, -, a2, a3⟩ := hi.full hd
    obtain ⟨t', c1, c2⟩ := assignList_ok a3 l triv ht
    refine ⟨_, (if_pos hne).trans ((bind_some a2).trans ((bind_some b2).trans ((bind_some (elements_ok b3)).trans (bind_some c1)))), ?_, rfl, Nat.le_refl _⟩
    exact hi.put h (v := some (.full t')) (x := some (some l)) c2
  | selfAssign _ h => exact ⟨w, if_neg (fun h => h rfl), hi, rfl, Nat.le_refl _⟩
  | moveAssign _ h g v m hne hd hg =>
    obtain ⟨t, -, a2, a3⟩ := hi.full hd
    obtain ⟨u, b1, b2⟩ := hi.some hg
    obtain ⟨t', c1, c2, -, -⟩ := clear_ok a3
    have hpos : 1 ≤ t'.live.length := List.length_pos_of_mem (c2.livemap _ _ c2.bbuf)
    refine ⟨_, (bind_some a2).trans ((bind_some c1).trans (bind_some ((if_neg hne).trans (bind_some b1)))), ?_, rfl, Nat.add_le_add_left hpos _⟩
    exact ((hi.lost (w.lostBuffers + t'.live.length) (w.lostMaps + 1)).put h b2).put g (v := some .hollow) (x := some none) trivial
  | selfMove _ h m hd =>
    obtain ⟨t, -, a2, a3⟩ := hi.full hd
    obtain ⟨t', c1, c2, -, -⟩ := clear_ok a3
    have hpos : 1 ≤ t'.live.length := List.length_pos_of_mem (c2.livemap _ _ c2.bbuf)
    refine ⟨_, (bind_some a2).trans ((bind_some c1).trans (bind_some (if_pos rfl))), ?_, rfl, Nat.add_le_add_left hpos _⟩
    exact (hi.lost (w.lostBuffers + t'.live.length) (w.lostMaps + 1)).put h (v := some .hollow) (x := some none) trivial
  | listAssign _ h l v hd =>
    obtain ⟨u, b1, b2⟩ := hi.some hd
    obtain ⟨t, a1, a2, -, -⟩ := ofList_ok (B := B) (by omega) l
    obtain ⟨w', c1, c2, c3, c4⟩ := drop_ok (hi.put h (v := some (.full t)) (x := some (some l)) a2) b2
    exact ⟨w', (bind_some a1).trans ((bind_some b1).trans c1), c2, c3, c4⟩
  | swap _ h g v u hne hd hg =>
    obtain ⟨x, a1, a2⟩ := hi.some hd
    obtain ⟨y, b1, b2⟩ := hi.some hg
    exact ⟨_, (if_pos hne).trans ((bind_some a1).trans (bind_some b1)), (hi.put h b2).put g a2, rfl, Nat.le_refl _⟩
  | selfSwap _ h => exact ⟨w, if_neg (fun h => h rfl), hi, rfl, Nat.le_refl _⟩
  | destroy _ h v hd =>
    obtain ⟨u, b1, b2⟩ := hi.some hd
    obtain ⟨w', c1, c2, c3, c4⟩ := drop_ok (hi.put h (v := none) (x := none) trivial) b2
    exact ⟨w', (bind_some b1).trans c1, c2, c3, c4⟩
  | on _ h op l m hd ha hk =>
    obtain ⟨t, -, a2, a3⟩ := hi.full hd
    obtain ⟨t', c1, c2⟩ := runBulk_ok hB a3 triv op ha hk
    exact ⟨_, (bind_some a2).trans (bind_some c1), hi.put h (v := some (.full t')) (x := some (some m)) c2, rfl, Nat.le_refl _⟩

theorem runWs_ok {B : ℕ} (hB : 2 ≤ B) {triv : Bool} {os : List (WOp α)} {d e : Vals α} (hr : Run triv os d e) :
    ∀ {w : World α}, WInv B w d → ∃ w', runWs triv B os w = some w' ∧ WInv B w' e ∧ w'.lostMaps = w.lostMaps + (os.map WOp.moves).sum ∧
      w.lostBuffers + (os.map WOp.moves).sum ≤ w'.lostBuffers := by
  induction hr with
  | nil d => intro w h; exact ⟨w, rfl, h, rfl, Nat.le_refl _⟩
  | cons h1 _ ih =>
    intro w h
    obtain ⟨w1, a1, a2, a3, a4⟩ := runW_ok hB h1 h
    obtain ⟨w2, b1, b2, b3, b4⟩ := ih a2
    refine ⟨w2, (bind_some a1).trans b1, b2, ?_, ?_⟩ <;> rw [List.map_cons, List.sum_cons] <;> omega

/-- No variables, nothing lost. -/
def World.start : World α := ⟨fun _ => none, 0, 0⟩

/-- **C110.** Any program with any number of deques — made, copied, moved, assigned, swapped, destroyed and changed in any order — never
does anything undefined, and after it every deque shows exactly the sequence it should: copies are equal and independent, moves and
swaps pass the sequences on. -/
theorem c110_history {sz : ℕ} (hsz : 1 ≤ sz) (triv : Bool) (os : List (WOp α)) (d : Vals α) (ho : Run triv os (fun _ => none) d) :
    ∃ w, runWs triv (bufSize sz) os World.start = some w ∧
      (∀ h l, d h = some (some l) → ∃ s, w.var h = some (.full s) ∧ Shows (bufSize sz) s l ∧ elements (bufSize sz) s = some l) ∧
      (∀ h, d h = some none ↔ w.var h = some .hollow) ∧ (∀ h, d h = none ↔ w.var h = none) := by
  have hB := bufSize_ge hsz
  obtain ⟨w, a1, a2, -, -⟩ := runWs_ok (B := bufSize sz) (by omega) ho (w := World.start) (fun _ => trivial)
  refine ⟨w, a1, fun h l hd => ?_, fun h => ?_, fun h => ?_⟩
  · obtain ⟨s, b1, -, b3⟩ := a2.full hd
    exact ⟨s, b1, b3.shows, elements_ok b3⟩
  all_goals
    have := a2 h
    revert this
    generalize w.var h = x
    generalize d h = y
    rcases x with _ | (_ | _) <;> rcases y with _ | (_ | _) <;> simp [Has1]

/-- The hypothesis is met: a copy, a move, a swap with the variable moved from, a list for it, and the end of one. -/
example : Run true [.make 0 [1, 2], .copy 1 0, .on 1 (.one (.pushBack 3)), .move 2 0, .swap 0 1, .listAssign 1 [5], .moveAssign 2 0,
    .destroy 0] (fun _ => none)
    (put (put (put (put (put (put (put (put (put (put (put (fun _ => none) 0 (some (some [1, 2]))) 1 (some (some [1, 2]))) 1 (some (some [1, 2, 3])))
      2 (some (some [1, 2]))) 0 (some none)) 0 (some (some [1, 2, 3]))) 1 (some none)) 1 (some (some [5]))) 2 (some (some [1, 2, 3]))) 0
      (some none)) 0 none) :=
  .cons (.make _ 0 _ rfl) (.cons (.copy _ 1 0 _ rfl rfl) (.cons (.on _ 1 _ _ _ rfl rfl (Or.inl rfl)) (.cons (.move _ 2 0 (some [1, 2]) rfl rfl)
    (.cons (.swap _ 0 1 none (some [1, 2, 3]) (by decide) rfl rfl) (.cons (.listAssign _ 1 [5] none rfl)
      (.cons (.moveAssign _ 2 0 (some [1, 2, 3]) [1, 2] (by decide) rfl rfl) (.cons (.destroy _ 0 none rfl) (.nil _))))))))

/-- **C110, defect.** In every program, every move assignment loses a map, and as many buffers are lost at least: nobody releases them. -/
theorem c110_move_leak {sz : ℕ} (hsz : 1 ≤ sz) (triv : Bool) (os : List (WOp α)) (d : Vals α) (ho : Run triv os (fun _ => none) d) :
    ∃ w, runWs triv (bufSize sz) os World.start = some w ∧ w.lostMaps = (os.map WOp.moves).sum ∧ (os.map WOp.moves).sum ≤ w.lostBuffers := by
  have hB := bufSize_ge hsz
  obtain ⟨w, a1, -, a3, a4⟩ := runWs_ok (B := bufSize sz) (by omega) ho (w := World.start) (fun _ => trivial)
  exact ⟨w, a1, by rw [a3]; exact Nat.zero_add _, by rw [show World.start.lostBuffers = 0 from rfl] at a4; omega⟩

/-- **C110, defect.** A deque moved from still has the size and the iterators it had: assigning to it another deque with as many elements
writes into the buffers of the new owner, whose elements are all replaced. -/
theorem c110_moved_assign {sz : ℕ} (hsz : 1 ≤ sz) (triv : Bool) (l vs : List α) (hv : vs.length = l.length) (hl : 0 < l.length) :
    ∃ owner s, ofList (bufSize sz) l = some owner ∧ hollowAssign triv (bufSize sz) owner vs = some s ∧ Shows (bufSize sz) s vs ∧
      hollowAssign triv (bufSize sz) owner [] = none := by
  have hB := bufSize_ge hsz
  obtain ⟨owner, o1, h, -, -⟩ := ofList_ok (B := bufSize sz) (by omega) l
  have d2 : (size (bufSize sz) owner).toNat = l.length := by rw [size_ok h]; rfl
  obtain ⟨s, a1, a2⟩ := assignList_ok h vs triv (Or.inr (Or.inl (by omega)))
  exact ⟨owner, s, o1, (if_pos ⟨by omega, by omega⟩).trans a1, a2.shows, if_neg (fun h => absurd h.2 (Nat.lt_irrefl 0))⟩

end Verif.Deque
