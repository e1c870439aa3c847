import Verif.AutoPtrSpec
import Mathlib.Tactic.Common
import Mathlib.Data.List.Induction
/-!
# C106 — `auto_ptr`: one owner for every object, one deletion
-/

namespace Verif.AutoPtr

/-- `get()` of the variables and the living objects are as the owners say -/
structure Inv (w : World) (s : Own) : Prop where
  next : w.next = s.made
  live : ∀ p, w.live p = true ↔ s.owner p ≠ .gone
  held : ∀ h p, w.ptr h = some (some p) ↔ s.owner p = .var h
  vars : ∀ h, (w.ptr h).isSome = s.vars h
  new : ∀ p, s.made ≤ p → s.owner p = .gone

theorem bs {β γ : Type} {x : Option β} {b : β} {f : β → Option γ} (h : x = some b) : (x >>= f) = f b := by rw [h]; rfl

theorem upd_same {β : Type} (f : ℕ → β) (i : ℕ) (v : β) : upd f i v i = v := if_pos rfl

theorem upd_ne {β : Type} (f : ℕ → β) {i j : ℕ} (v : β) (h : j ≠ i) : upd f i v j = f j := if_neg h

theorem Inv.get {w s} (hi : Inv w s) {h : ℕ} (hv : s.vars h = true) : ∃ m, w.ptr h = some m := by
  have := hi.vars h
  rw [hv] at this
  exact Option.isSome_iff_exists.1 this

/-- deleting what `h` holds -/
theorem Inv.del {w s} (hi : Inv w s) {h : ℕ} {m : Option ℕ} (hm : w.ptr h = some m) :
    ∃ w', del w m = some w' ∧ w'.ptr = w.ptr ∧ w'.next = w.next ∧ ∀ p, w'.live p = true ↔ pass s.owner h .gone p ≠ .gone := by
  cases m with
  | none =>
    refine ⟨w, rfl, rfl, rfl, fun p => (hi.live p).trans ?_⟩
    unfold pass
    split
    · rename_i hp
      have := (hi.held h p).2 hp
      rw [hm] at this; cases this
    · exact Iff.rfl
  | some q =>
    have hq := (hi.held h q).1 hm
    have hl : w.live q = true := (hi.live q).2 (by rw [hq]; exact fun h => by cases h)
    refine ⟨{ w with live := upd w.live q false }, if_pos hl, rfl, rfl, fun p => ?_⟩
    show upd w.live q false p = true ↔ _
    unfold pass
    by_cases e : p = q
    · rw [e, upd_same, if_pos hq]; simp
    · rw [upd_ne _ _ e]
      split
      · rename_i hp
        have := (hi.held h p).2 hp
        rw [hm] at this
        exact absurd (by injection this with this; injection this with this; exact this.symm) e
      · exact hi.live p

theorem Inv.take {w s} (hi : Inv w s) {h g : ℕ} (hh : s.vars h = true) (hg : s.vars g = true) (hne : h ≠ g) :
    ∃ w', take w h g = some w' ∧ Inv w' { s with owner := pass (pass s.owner h .gone) g (.var h) } := by
  obtain ⟨m, hm⟩ := hi.get hh
  obtain ⟨q, hq⟩ := hi.get hg
  obtain ⟨w1, e1, e2, e3, e4⟩ := hi.del hm
  have hq1 : w1.ptr g = some q := by rw [e2]; exact hq
  have er : release w1 g = some ({ w1 with ptr := upd w1.ptr g (some none) }, q) := by
    unfold release; rw [bs hq1]
  refine ⟨{ w1 with ptr := upd (upd w1.ptr g (some none)) h (some q) }, ?_, ⟨e3.trans hi.next, fun p => (e4 p).trans ?_, fun k p => ?_, fun k => ?_, fun p hp => ?_⟩⟩
  · unfold AutoPtr.take
    rw [bs hm, bs e1, bs er]
  · have h1 := hi.live p
    show _ ↔ pass (pass s.owner h .gone) g (.var h) p ≠ .gone
    unfold pass
    grind
  · show upd (upd w1.ptr g (some none)) h (some q) k = some (some p) ↔ pass (pass s.owner h .gone) g (.var h) p = .var k
    rw [e2]
    have h1 := hi.held k p
    have h2 := hi.held h p
    have h3 := hi.held g p
    unfold pass upd
    grind
  · show (upd (upd w1.ptr g (some none)) h (some q) k).isSome = s.vars k
    rw [e2]
    have h1 := hi.vars k
    unfold upd
    grind
  · have h1 := hi.new p hp
    show pass (pass s.owner h .gone) g (.var h) p = .gone
    unfold pass
    grind

theorem Inv.newObj {w s} (hi : Inv w s) : Inv (newObj w).1 ⟨upd s.owner s.made .program, s.vars, s.made + 1⟩ := by
  refine ⟨?_, fun p => ?_, fun k p => ?_, hi.vars, fun p hp => ?_⟩
  · show w.next + 1 = s.made + 1; rw [hi.next]
  · show upd w.live w.next true p = true ↔ upd s.owner s.made .program p ≠ .gone
    have h1 := hi.live p
    have h2 := hi.next
    unfold upd; grind
  · show w.ptr k = some (some p) ↔ upd s.owner s.made .program p = .var k
    have h1 := hi.held k p
    have h2 := hi.new s.made (Nat.le_refl _)
    unfold upd; grind
  · show upd s.owner s.made .program p = .gone
    have h1 := hi.new p
    have h2 : s.made + 1 ≤ p := hp
    unfold upd; grind

/-- handing a pointer owned by the program to a new variable -/
theorem Inv.construct {w s} (hi : Inv w s) {h : ℕ} (hh : s.vars h = false) (p : ℕ) (hp : s.owner p = .program) :
    Inv (construct w h (some p)) { s with owner := upd s.owner p (.var h), vars := upd s.vars h true } := by
  have hn : w.ptr h = none := by
    have := hi.vars h
    rw [hh] at this
    simpa using this
  refine ⟨hi.next, fun q => ?_, fun k q => ?_, fun k => ?_, fun q hq => ?_⟩
  · show w.live q = true ↔ upd s.owner p (.var h) q ≠ .gone
    have h1 := hi.live q
    unfold upd; grind
  · show upd w.ptr h (some (some p)) k = some (some q) ↔ upd s.owner p (.var h) q = .var k
    have h1 := hi.held k q
    have h2 := hi.held k p
    have h3 := hi.held h q
    unfold upd; grind
  · show (upd w.ptr h (some (some p)) k).isSome = upd s.vars h true k
    have h1 := hi.vars k
    unfold upd; grind
  · show upd s.owner p (.var h) q = .gone
    have h1 := hi.new q hq
    unfold upd; grind

/-- `reset` to a pointer owned by the program -/
theorem Inv.resetRaw {w s} (hi : Inv w s) {h : ℕ} (hh : s.vars h = true) (p : ℕ) (hp : s.owner p = .program) :
    ∃ w', reset w h (some p) = some w' ∧ Inv w' { s with owner := upd (pass s.owner h .gone) p (.var h) } := by
  obtain ⟨m, hm⟩ := hi.get hh
  obtain ⟨w1, e1, e2, e3, e4⟩ := hi.del hm
  have hne : m ≠ some p := by
    intro e
    rw [e] at hm
    have := (hi.held h p).1 hm
    rw [hp] at this; cases this
  refine ⟨{ w1 with ptr := upd w1.ptr h (some (some p)) }, ?_, ⟨e3.trans hi.next, fun q => (e4 q).trans ?_, fun k q => ?_, fun k => ?_, fun q hq => ?_⟩⟩
  · unfold AutoPtr.reset
    rw [bs hm, if_pos hne, bs e1]
  · show pass s.owner h .gone q ≠ .gone ↔ upd (pass s.owner h .gone) p (.var h) q ≠ .gone
    unfold pass upd; grind
  · show upd w1.ptr h (some (some p)) k = some (some q) ↔ upd (pass s.owner h .gone) p (.var h) q = .var k
    rw [e2]
    have h1 := hi.held k q
    have h2 := hi.held h q
    unfold pass upd; grind
  · show (upd w1.ptr h (some (some p)) k).isSome = s.vars k
    rw [e2]
    have h1 := hi.vars k
    unfold upd; grind
  · show upd (pass s.owner h .gone) p (.var h) q = .gone
    have h1 := hi.new q hq
    unfold pass upd; grind

theorem step_ok {w s} (hi : Inv w s) (op : Op) (hl : Legal s op) : ∃ w', step w op = some w' ∧ Inv w' (eff s op) := by
  cases op with
  | make h =>
    have h1 := hi.newObj.construct (h := h) hl s.made (upd_same _ _ _)
    refine ⟨_, rfl, ?_⟩
    have e : upd (upd s.owner s.made .program) s.made (.var h) = upd s.owner s.made (.var h) := by
      funext p; unfold upd; split <;> rfl
    have e2 : (AutoPtr.newObj w).2 = s.made := hi.next
    rw [e2]
    rw [e] at h1
    exact h1
  | null h =>
    have hn : w.ptr h = none := by
      have := hi.vars h
      rw [show s.vars h = false from hl] at this
      simpa using this
    refine ⟨_, rfl, hi.next, hi.live, fun k p => ?_, fun k => ?_, hi.new⟩
    · show upd w.ptr h (some none) k = some (some p) ↔ s.owner p = .var k
      have h1 := hi.held k p
      unfold upd; grind
    · show (upd w.ptr h (some none) k).isSome = upd s.vars h true k
      have h1 := hi.vars k
      unfold upd; grind
  | wrap h p => exact ⟨_, rfl, hi.construct hl.1 p hl.2⟩
  | copy h g =>
    obtain ⟨q, hq⟩ := hi.get hl.2
    have hn : w.ptr h = none := by
      have := hi.vars h
      rw [hl.1] at this
      simpa using this
    have er : AutoPtr.release w g = some ({ w with ptr := upd w.ptr g (some none) }, q) := by unfold AutoPtr.release; rw [bs hq]
    refine ⟨AutoPtr.construct { w with ptr := upd w.ptr g (some none) } h q, ?_, hi.next, fun p => ?_, fun k p => ?_, fun k => ?_, fun p hp => ?_⟩
    · show AutoPtr.copy w h g = _
      unfold AutoPtr.copy; rw [bs er]
    · show w.live p = true ↔ pass s.owner g (.var h) p ≠ .gone
      have h1 := hi.live p
      unfold pass; grind
    · show upd (upd w.ptr g (some none)) h (some q) k = some (some p) ↔ pass s.owner g (.var h) p = .var k
      have h1 := hi.held k p
      have h2 := hi.held g p
      have h3 := hi.held h p
      unfold pass upd; grind
    · show (upd (upd w.ptr g (some none)) h (some q) k).isSome = upd s.vars h true k
      have h1 := hi.vars k
      unfold upd; grind
    · show pass s.owner g (.var h) p = .gone
      have h1 := hi.new p hp
      unfold pass; grind
  | assign h g =>
    by_cases e : h = g
    · refine ⟨w, ?_, ?_⟩
      · show AutoPtr.assign w h g = some w
        unfold AutoPtr.assign; rw [if_neg (by simp [e])]
      · show Inv w (if h = g then s else _)
        rw [if_pos e]; exact hi
    · obtain ⟨w', h1, h2⟩ := hi.take hl.1 hl.2 e
      refine ⟨w', ?_, ?_⟩
      · show AutoPtr.assign w h g = some w'
        unfold AutoPtr.assign; rw [if_pos e]; exact h1
      · show Inv w' (if h = g then s else _)
        rw [if_neg e]; exact h2
  | assignU h g =>
    obtain ⟨m, hm⟩ := hi.get hl.1
    obtain ⟨q, hq⟩ := hi.get hl.2
    have es : step w (.assignU h g) = if m ≠ q then AutoPtr.take w h g else some w := by
      show AutoPtr.assignU w h g = _
      unfold AutoPtr.assignU
      rw [bs hm, bs hq]
    rw [es]
    by_cases e : h = g
    · subst e
      rw [hm] at hq; cases hq
      refine ⟨w, if_neg (by simp), ?_⟩
      show Inv w (if h = h then s else _)
      rw [if_pos rfl]; exact hi
    · obtain ⟨w', h1, h2⟩ := hi.take hl.1 hl.2 e
      have heff : eff s (.assignU h g) = { s with owner := pass (pass s.owner h .gone) g (.var h) } := if_neg e
      rw [heff]
      by_cases e2 : m = q
      · subst e2
        refine ⟨w, if_neg (by simp), hi.next, fun p => ?_, fun k p => ?_, hi.vars, fun p hp => ?_⟩
        · show w.live p = true ↔ pass (pass s.owner h .gone) g (.var h) p ≠ .gone
          have g1 := hi.live p
          have g2 := hi.held h p
          have g3 := hi.held g p
          unfold pass; grind
        · show w.ptr k = some (some p) ↔ pass (pass s.owner h .gone) g (.var h) p = .var k
          have g1 := hi.held k p
          have g2 := hi.held h p
          have g3 := hi.held g p
          unfold pass; grind
        · show pass (pass s.owner h .gone) g (.var h) p = .gone
          have g1 := hi.new p hp
          unfold pass; grind
      · exact ⟨w', (if_pos e2).trans h1, h2⟩
  | release h =>
    obtain ⟨m, hm⟩ := hi.get (show s.vars h = true from hl)
    refine ⟨{ w with ptr := upd w.ptr h (some none) }, ?_, hi.next, fun p => ?_, fun k p => ?_, fun k => ?_, fun p hp => ?_⟩
    · show (AutoPtr.release w h).map Prod.fst = _
      unfold AutoPtr.release; rw [bs hm]; rfl
    · show w.live p = true ↔ pass s.owner h .program p ≠ .gone
      have h1 := hi.live p
      unfold pass; grind
    · show upd w.ptr h (some none) k = some (some p) ↔ pass s.owner h .program p = .var k
      have h1 := hi.held k p
      have h2 := hi.held h p
      unfold pass upd; grind
    · show (upd w.ptr h (some none) k).isSome = s.vars k
      have h1 := hi.vars k
      unfold upd; grind
    · show pass s.owner h .program p = .gone
      have h1 := hi.new p hp
      unfold pass; grind
  | reset h p =>
    cases p with
    | none =>
      obtain ⟨m, hm⟩ := hi.get (show s.vars h = true from hl)
      obtain ⟨w1, e1, e2, e3, e4⟩ := hi.del hm
      have fin : Inv { w1 with ptr := upd w1.ptr h (some none) } { s with owner := pass s.owner h .gone } := by
        refine ⟨e3.trans hi.next, fun q => e4 q, fun k q => ?_, fun k => ?_, fun q hq => ?_⟩
        · show upd w1.ptr h (some none) k = some (some q) ↔ pass s.owner h .gone q = .var k
          rw [e2]
          have h1 := hi.held k q
          have h2 := hi.held h q
          unfold pass upd; grind
        · show (upd w1.ptr h (some none) k).isSome = s.vars k
          rw [e2]
          have h1 := hi.vars k
          unfold upd; grind
        · show pass s.owner h .gone q = .gone
          have h1 := hi.new q hq
          unfold pass; grind
      by_cases e : m = none
      · subst e
        refine ⟨w, ?_, ?_⟩
        · show AutoPtr.reset w h none = some w
          unfold AutoPtr.reset; rw [bs hm, if_neg (by simp)]
        · cases e1
          have : upd w.ptr h (some none) = w.ptr := by
            funext k; unfold upd; split
            · rename_i hk; rw [hk, hm]
            · rfl
          rw [this] at fin
          exact fin
      · refine ⟨_, ?_, fin⟩
        show AutoPtr.reset w h none = _
        unfold AutoPtr.reset; rw [bs hm, if_pos e, bs e1]
    | some p =>
      rcases hl.2 with hp | hp
      · have heff : eff s (.reset h (some p)) = { s with owner := upd (pass s.owner h .gone) p (.var h) } :=
          if_neg (by rw [hp]; exact fun h => by cases h)
        rw [heff]
        exact hi.resetRaw hl.1 p hp
      · refine ⟨w, ?_, ?_⟩
        · show AutoPtr.reset w h (some p) = some w
          unfold AutoPtr.reset
          rw [bs ((hi.held h p).2 hp), if_neg (by simp)]
        · show Inv w (if s.owner p = .var h then s else _)
          rw [if_pos hp]; exact hi
  | resetNew h =>
    obtain ⟨w', h1, h2⟩ := hi.newObj.resetRaw (h := h) hl s.made (upd_same _ _ _)
    refine ⟨w', ?_, ?_⟩
    · show AutoPtr.reset (AutoPtr.newObj w).1 h (some (AutoPtr.newObj w).2) = some w'
      rw [show (AutoPtr.newObj w).2 = s.made from hi.next]; exact h1
    · have e : upd (pass (upd s.owner s.made .program) h .gone) s.made (.var h) = upd (pass s.owner h .gone) s.made (.var h) := by
        funext p
        show (if p = s.made then _ else _) = (if p = s.made then _ else _)
        by_cases hp : p = s.made
        · rw [if_pos hp, if_pos hp]
        · rw [if_neg hp, if_neg hp]
          unfold pass
          rw [upd_ne _ _ hp]
      simp only [e] at h2
      exact h2
  | destroy h =>
    obtain ⟨m, hm⟩ := hi.get (show s.vars h = true from hl)
    obtain ⟨w1, e1, e2, e3, e4⟩ := hi.del hm
    refine ⟨{ w1 with ptr := upd w1.ptr h none }, ?_, e3.trans hi.next, fun q => e4 q, fun k q => ?_, fun k => ?_, fun q hq => ?_⟩
    · show AutoPtr.destroy w h = _
      unfold AutoPtr.destroy; rw [bs hm, bs e1]
    · show upd w1.ptr h none k = some (some q) ↔ pass s.owner h .gone q = .var k
      rw [e2]
      have h1 := hi.held k q
      have h2 := hi.held h q
      unfold pass upd; grind
    · show (upd w1.ptr h none k).isSome = upd s.vars h false k
      rw [e2]
      have h1 := hi.vars k
      unfold upd; grind
    · show pass s.owner h .gone q = .gone
      have h1 := hi.new q hq
      unfold pass; grind
  | free p =>
    have hp : s.owner p = .program := hl
    have hlv : w.live p = true := (hi.live p).2 (by rw [hp]; exact fun h => by cases h)
    refine ⟨{ w with live := upd w.live p false }, if_pos hlv, hi.next, fun q => ?_, fun k q => ?_, hi.vars, fun q hq => ?_⟩
    · show upd w.live p false q = true ↔ upd s.owner p .gone q ≠ .gone
      have h1 := hi.live q
      unfold upd; grind
    · show w.ptr k = some (some q) ↔ upd s.owner p .gone q = .var k
      have h1 := hi.held k q
      unfold upd; grind
    · show upd s.owner p .gone q = .gone
      have h1 := hi.new q hq
      unfold upd; grind

/-- a whole program -/
def run (w : World) (ops : List Op) : Option World := ops.foldl (fun r op => r.bind fun w => step w op) (some w)

/-- no objects, no variables -/
def init : World := ⟨fun _ => false, 0, fun _ => none⟩

/-- **C106.** Whatever a program legally does with its `auto_ptr` variables, nothing is deleted twice or after its deletion; every
object not yet deleted has exactly one owner, `get()` of a variable is the object it owns, or null if it owns none, and the objects
deleted are those whose owner was destroyed, reset or assigned to. -/
theorem c106_history (ops : List Op) (s : Own) (hh : History ops s) :
    ∃ w, run init ops = some w ∧
      (∀ h, w.ptr h = none ↔ s.vars h = false) ∧
      (∀ h p, w.ptr h = some (some p) ↔ s.owner p = .var h) ∧
      (∀ p, w.live p = true ↔ s.owner p = .program ∨ ∃ h, w.ptr h = some (some p)) ∧
      (∀ p, w.live p = false ↔ s.owner p = .gone) := by
  have key : ∃ w, run init ops = some w ∧ Inv w s := by
    induction hh with
    | nil => exact ⟨init, rfl, rfl, fun p => by simp [init, start], fun h p => by simp [init, start], fun _ => rfl, fun _ _ => rfl⟩
    | snoc _ hl ih =>
      obtain ⟨w, e, hi⟩ := ih
      obtain ⟨w', e', hi'⟩ := step_ok hi _ hl
      refine ⟨w', ?_, hi'⟩
      unfold run at e ⊢
      rw [List.foldl_append, e]
      exact e'
  obtain ⟨w, e, hi⟩ := key
  refine ⟨w, e, fun h => ?_, hi.held, fun p => (hi.live p).trans ⟨fun hp => ?_, fun hp => ?_⟩, fun p => ?_⟩
  · rw [← hi.vars h]
    cases w.ptr h <;> simp
  · cases ho : s.owner p with
    | gone => exact absurd ho hp
    | program => exact Or.inl rfl
    | var h => exact Or.inr ⟨h, (hi.held h p).2 ho⟩
  · rcases hp with hp | ⟨h, hp⟩
    · rw [hp]; exact fun h => by cases h
    · rw [(hi.held h p).1 hp]; exact fun h => by cases h
  · have := hi.live p
    cases hl : w.live p with
    | false =>
      rw [hl] at this
      refine ⟨fun _ => ?_, fun _ => rfl⟩
      by_contra hc
      exact absurd (this.2 hc) (by simp)
    | true => exact ⟨fun h => (by cases h), fun h => absurd h (this.1 hl)⟩

/-- **C106.** When no variable exists any more, everything has been deleted except what was handed to the program by `release()`. -/
theorem c106_no_leak (ops : List Op) (s : Own) (hh : History ops s) (he : ∀ h, s.vars h = false) :
    ∃ w, run init ops = some w ∧ ∀ p, w.live p = true ↔ s.owner p = .program := by
  obtain ⟨w, e, h1, h2, h3, h4⟩ := c106_history ops s hh
  refine ⟨w, e, fun p => (h3 p).trans ⟨fun h => ?_, Or.inl⟩⟩
  rcases h with h | ⟨k, h⟩
  · exact h
  · rw [(h1 k).2 (he k)] at h; cases h

theorem gone_stays (ops more : List Op) (s s' : Own) (p : ℕ) (hh : History ops s) (hp : p < s.made) (hg : s.owner p = .gone)
    (hh' : History (ops ++ more) s') : s'.owner p = .gone := by
  have det : ∀ (o : List Op) (a b : Own), History o a → History o b → a = b := by
    intro o a b ha
    induction ha generalizing b with
    | nil =>
      intro hb
      cases hb' : ([] : List Op) with
      | nil =>
        generalize ho : ([] : List Op) = o at hb
        cases hb with
        | nil => rfl
        | snoc => simp at ho
      | cons => cases hb'
    | snoc _ _ ih =>
      intro hb
      rename_i ops' _ op _ _
      generalize ho : ops' ++ [op] = o at hb
      cases hb with
      | nil => simp at ho
      | snoc h1 h2 =>
        obtain ⟨e1, e2⟩ := List.append_inj' ho rfl
        subst e1
        cases e2
        rw [ih _ h1]
  induction more using List.reverseRecOn generalizing s' with
  | nil =>
    rw [List.append_nil] at hh'
    rw [← det _ _ _ hh hh']; exact hg
  | append_singleton more op ih =>
    rw [← List.append_assoc] at hh'
    generalize ho : ops ++ more ++ [op] = o at hh'
    have made : ∀ (o : List Op) (t : Own), History (ops ++ o) t → s.made ≤ t.made := by
      intro o
      induction o using List.reverseRecOn with
      | nil => intro t ht; rw [List.append_nil] at ht; exact Nat.le_of_eq (congrArg _ (det _ _ _ hh ht))
      | append_singleton o op ih2 =>
        intro t ht
        rw [← List.append_assoc] at ht
        generalize ho : ops ++ o ++ [op] = o' at ht
        cases ht with
        | nil => simp at ho
        | snoc h1 h2 =>
          obtain ⟨e1, e2⟩ := List.append_inj' ho rfl
          subst e1
          cases e2
          have := ih2 _ h1
          refine Nat.le_trans this ?_
          rcases op with h | h | ⟨h, q⟩ | ⟨h, g⟩ | ⟨h, g⟩ | ⟨h, g⟩ | h | ⟨h, _ | q⟩ | h | h | q <;> simp only [eff] <;> (try split) <;> simp only [Nat.le_refl, Nat.le_succ]
    cases hh' with
    | nil => simp at ho
    | snoc h1 h2 =>
      obtain ⟨e1, e2⟩ := List.append_inj' ho rfl
      subst e1
      cases e2
      rename_i t
      have g1 := ih t h1
      have g2 := made more t h1
      have hlt : p < t.made := Nat.lt_of_lt_of_le hp g2
      rcases op with h | h | ⟨h, q⟩ | ⟨h, g⟩ | ⟨h, g⟩ | ⟨h, g⟩ | h | ⟨h, _ | q⟩ | h | h | q <;> simp only [Legal] at h2 <;> simp only [eff] <;>
        (try split) <;> (try simp only [pass, upd]) <;> grind

/-- **C106.** An object that has been deleted stays deleted: whatever follows, it is never alive, held or deleted again. -/
theorem c106_deleted_once (ops more : List Op) (s s' : Own) (p : ℕ) (hh : History ops s) (hp : p < s.made) (hg : s.owner p = .gone)
    (hh' : History (ops ++ more) s') : ∃ w, run init (ops ++ more) = some w ∧ w.live p = false ∧ ∀ h, w.ptr h ≠ some (some p) := by
  have g := gone_stays ops more s s' p hh hp hg hh'
  obtain ⟨w, e, h1, h2, h3, h4⟩ := c106_history _ _ hh'
  refine ⟨w, e, (h4 p).2 g, fun h hc => ?_⟩
  rw [(h2 h p).1 hc] at g
  cases g

/-! ## concrete cases -/

example : ∃ s, History [.make 0, .make 1, .assign 0 1, .copy 2 0, .release 2, .destroy 0] s ∧ s.owner 0 = .gone ∧ s.owner 1 = .program ∧ s.vars 1 = true := by
  refine ⟨_, History.snoc (ops := [_, _, _, _, _]) (History.snoc (ops := [_, _, _, _]) (History.snoc (ops := [_, _, _]) (History.snoc (ops := [_, _])
    (History.snoc (ops := [_]) (History.snoc (ops := []) History.nil ?_) ?_) ?_) ?_) ?_) ?_, ?_, ?_, ?_⟩ <;> first | exact rfl | exact ⟨rfl, rfl⟩

example : (run init [.make 0, .make 1, .assign 0 1, .copy 2 0]).map (fun w => (w.live 0, w.live 1, w.ptr 0, w.ptr 1, w.ptr 2)) =
    some (false, true, some none, some none, some (some 1)) := rfl

end Verif.AutoPtr
