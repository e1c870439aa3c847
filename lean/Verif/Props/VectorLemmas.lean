import Verif.Vector
import Mathlib.Data.List.Basic
import Mathlib.Tactic.Common

/-! # Memory primitives of `vector` on decomposed memory (for C44) -/

namespace Verif.Vector

variable {α : Type}

@[simp] theorem ok_bind {β γ : Type} (x : β) (f : β → M γ) : (Except.ok x >>= f) = f x := rfl
@[simp] theorem pure_ok {β : Type} (x : β) : (pure x : M β) = .ok x := rfl
@[simp] theorem err_bind {β γ : Type} (e : Err) (f : β → M γ) : ((Except.error e : M β) >>= f) = .error e := rfl

/-- cells holding the values `l` -/
def L (l : List α) : Mem α := l.map .live

@[simp] theorem L_nil : L ([] : List α) = [] := rfl
@[simp] theorem L_cons (v : α) (l : List α) : L (v :: l) = .live v :: L l := rfl
@[simp] theorem L_append (a b : List α) : L (a ++ b) = L a ++ L b := List.map_append ..
@[simp] theorem L_length (l : List α) : (L l).length = l.length := List.length_map ..

/-- no raw cell -/
def NoRaw (x : Mem α) : Prop := ∀ c ∈ x, c ≠ .raw

theorem noRaw_L (l : List α) : NoRaw (L l) := by
  intro c hc
  obtain ⟨v, _, rfl⟩ := List.mem_map.mp hc
  simp

theorem noRaw_cons {c : Cell α} {x : Mem α} : NoRaw (c :: x) ↔ c ≠ .raw ∧ NoRaw x := by simp [NoRaw]
theorem noRaw_append {x y : Mem α} : NoRaw (x ++ y) ↔ NoRaw x ∧ NoRaw y := by
  constructor
  · intro h; exact ⟨fun c hc => h c (by simp [hc]), fun c hc => h c (by simp [hc])⟩
  · rintro ⟨h1, h2⟩ c hc
    rcases List.mem_append.mp hc with h | h
    · exact h1 c h
    · exact h2 c h

theorem get_mid (pre : Mem α) (c : Cell α) (post : Mem α) (i : ℕ) (hi : i = pre.length) : (pre ++ c :: post)[i]? = some c := by
  subst hi; rw [List.getElem?_append_right (Nat.le_refl _)]; simp

theorem set_mid (pre : Mem α) (c d : Cell α) (post : Mem α) (i : ℕ) (hi : i = pre.length) : (pre ++ c :: post).set i d = pre ++ d :: post := by
  subst hi; rw [List.set_append_right _ _ (Nat.le_refl _)]; simp

theorem rd_at (pre : Mem α) (v : α) (post : Mem α) (i : ℕ) (hi : i = pre.length) : rd (pre ++ .live v :: post) i = .ok v := by
  unfold rd; rw [get_mid _ _ _ _ hi]

theorem construct_at (pre : Mem α) (c : Cell α) (v : α) (post : Mem α) (i : ℕ) (hi : i = pre.length) :
    construct (pre ++ c :: post) i v = .ok (pre ++ .live v :: post) := by
  unfold construct; rw [if_pos (by subst hi; simp), set_mid _ _ _ _ _ hi]

theorem assign_at (pre : Mem α) (c : Cell α) (v : α) (post : Mem α) (i : ℕ) (hi : i = pre.length) (hc : c ≠ .raw) :
    assign (pre ++ c :: post) i v = .ok (pre ++ .live v :: post) := by
  unfold assign; rw [get_mid _ _ _ _ hi, set_mid _ _ _ _ _ hi]
  cases c <;> simp_all

theorem destroy_at (pre : Mem α) (c : Cell α) (post : Mem α) (i : ℕ) (hi : i = pre.length) (hc : c ≠ .raw) :
    destroy (pre ++ c :: post) i = .ok (pre ++ .raw :: post) := by
  unfold destroy; rw [get_mid _ _ _ _ hi, set_mid _ _ _ _ _ hi]
  cases c <;> simp_all

theorem moveOut_at (triv : Bool) (pre : Mem α) (v : α) (post : Mem α) (i : ℕ) (hi : i = pre.length) :
    ∃ c, moveOut triv (pre ++ .live v :: post) i = .ok (v, pre ++ c :: post) ∧ c ≠ .raw ∧ (triv = true → c = .live v) := by
  unfold moveOut
  rw [rd_at _ _ _ _ hi, ok_bind]
  cases triv
  · exact ⟨.moved, by simp [set_mid _ _ _ _ _ hi], by simp, by simp⟩
  · exact ⟨.live v, by simp, by simp, by simp⟩

theorem destroyN_ok : ∀ (x pre post : Mem α) (n i : ℕ), x.length = n → i = pre.length → NoRaw x →
    destroyN n i (pre ++ x ++ post) = .ok (pre ++ List.replicate n .raw ++ post) := by
  intro x
  induction x with
  | nil => intro pre post n i h1 h2 h3; subst h1; simp [destroyN]
  | cons c x ih =>
    intro pre post n i h1 h2 h3
    obtain ⟨h4, h5⟩ := noRaw_cons.mp h3
    subst h1
    rw [List.length_cons, destroyN, show pre ++ c :: x ++ post = pre ++ c :: (x ++ post) by simp, destroy_at _ _ _ _ h2 h4, ok_bind,
      show pre ++ Cell.raw :: (x ++ post) = (pre ++ [.raw]) ++ x ++ post by simp, ih _ _ _ _ rfl (by simp [h2]) h5]
    simp [List.replicate_succ]

theorem uninitFill_ok (v : α) : ∀ (x pre post : Mem α) (n i : ℕ), x.length = n → i = pre.length →
    uninitFill v n i (pre ++ x ++ post) = .ok (pre ++ L (List.replicate n v) ++ post) := by
  intro x
  induction x with
  | nil => intro pre post n i h1 h2; subst h1; simp [uninitFill]
  | cons c x ih =>
    intro pre post n i h1 h2
    subst h1
    rw [List.length_cons, uninitFill, show pre ++ c :: x ++ post = pre ++ c :: (x ++ post) by simp, construct_at _ _ _ _ _ h2, ok_bind,
      show pre ++ Cell.live v :: (x ++ post) = (pre ++ [.live v]) ++ x ++ post by simp, ih _ _ _ _ rfl (by simp [h2])]
    simp [List.replicate_succ]

theorem uninitCopy_ok : ∀ (l : List α) (x pre post : Mem α) (i : ℕ), x.length = l.length → i = pre.length →
    uninitCopy l i (pre ++ x ++ post) = .ok (pre ++ L l ++ post) := by
  intro l
  induction l with
  | nil => intro x pre post i h1 h2; obtain rfl := List.length_eq_zero_iff.mp h1; simp [uninitCopy]
  | cons v l ih =>
    intro x pre post i h1 h2
    obtain ⟨c, x, rfl⟩ := List.exists_cons_of_length_eq_add_one h1
    rw [uninitCopy, show pre ++ c :: x ++ post = pre ++ c :: (x ++ post) by simp, construct_at _ _ _ _ _ h2, ok_bind,
      show pre ++ Cell.live v :: (x ++ post) = (pre ++ [.live v]) ++ x ++ post by simp, ih _ _ _ _ (by simpa using h1) (by simp [h2])]
    simp

theorem copyOver_ok : ∀ (l : List α) (x pre post : Mem α) (i : ℕ), x.length = l.length → i = pre.length → NoRaw x →
    copyOver l i (pre ++ x ++ post) = .ok (pre ++ L l ++ post) := by
  intro l
  induction l with
  | nil => intro x pre post i h1 h2 _; obtain rfl := List.length_eq_zero_iff.mp h1; simp [copyOver]
  | cons v l ih =>
    intro x pre post i h1 h2 h3
    obtain ⟨c, x, rfl⟩ := List.exists_cons_of_length_eq_add_one h1
    obtain ⟨h4, h5⟩ := noRaw_cons.mp h3
    rw [copyOver, show pre ++ c :: x ++ post = pre ++ c :: (x ++ post) by simp, assign_at _ _ _ _ _ h2 h4, ok_bind,
      show pre ++ Cell.live v :: (x ++ post) = (pre ++ [.live v]) ++ x ++ post by simp, ih _ _ _ _ (by simpa using h1) (by simp [h2]) h5]
    simp

theorem uninitCopyIn_ok : ∀ (l : List α) (pre mid x post : Mem α) (n s d : ℕ), l.length = n → x.length = n → s = pre.length →
    d = pre.length + n + mid.length →
    uninitCopyIn n s d (pre ++ L l ++ mid ++ x ++ post) = .ok (pre ++ L l ++ mid ++ L l ++ post) := by
  intro l
  induction l with
  | nil => intro pre mid x post n s d h1 h2 _ _; subst h1; obtain rfl := List.length_eq_zero_iff.mp h2; simp [uninitCopyIn]
  | cons v l ih =>
    intro pre mid x post n s d h1 h2 h3 h4
    subst h1
    obtain ⟨c, x, rfl⟩ := List.exists_cons_of_length_eq_add_one h2
    rw [List.length_cons, uninitCopyIn,
      show pre ++ L (v :: l) ++ mid ++ c :: x ++ post = pre ++ .live v :: (L l ++ mid ++ c :: x ++ post) by simp, rd_at _ _ _ _ h3, ok_bind,
      show pre ++ .live v :: (L l ++ mid ++ c :: x ++ post) = (pre ++ .live v :: (L l ++ mid)) ++ c :: (x ++ post) by simp,
      construct_at _ _ _ _ _ (by simp at *; omega), ok_bind,
      show (pre ++ .live v :: (L l ++ mid)) ++ .live v :: (x ++ post) = (pre ++ [.live v]) ++ L l ++ (mid ++ [.live v]) ++ x ++ post by simp,
      ih _ _ _ _ _ _ _ rfl (by simpa using h2) (by simp [h3]) (by simp at *; omega)]
    simp

theorem moveBackward_ok (triv : Bool) (pre : Mem α) (k s d : ℕ) (hs : s = pre.length) (hd : d = pre.length + k) :
    ∀ (n : ℕ) (t : List α) (y post : Mem α), t.length = n → y.length = k → NoRaw y →
    ∃ z, moveBackward triv s d n (pre ++ L t ++ y ++ post) = .ok (pre ++ z ++ L t ++ post) ∧ z.length = k ∧ NoRaw z := by
  intro n
  induction n with
  | zero =>
    intro t y post h1 h2 h3
    obtain rfl := List.length_eq_zero_iff.mp h1
    exact ⟨y, by simp [moveBackward], h2, h3⟩
  | succ n ih =>
    intro t y post h1 h2 h3
    have hne : t ≠ [] := by rintro rfl; simp at h1
    obtain ⟨t0, v, rfl⟩ : ∃ t0 v, t = t0 ++ [v] := ⟨t.dropLast, t.getLast hne, (List.dropLast_append_getLast hne).symm⟩
    have hn : t0.length = n := by simpa using h1
    obtain ⟨c, e1, c1, _⟩ := moveOut_at triv (pre ++ L t0) v (y ++ post) (s + n) (by simp [hs, hn])
    obtain ⟨y', w, hyw⟩ : ∃ y' w, c :: y = y' ++ [w] :=
      ⟨(c :: y).dropLast, (c :: y).getLast (by simp), (List.dropLast_append_getLast (by simp)).symm⟩
    have hy' : y'.length = k := by have := congrArg List.length hyw; simp at this; omega
    have hraw : NoRaw (y' ++ [w]) := by rw [← hyw]; exact noRaw_cons.mpr ⟨c1, h3⟩
    obtain ⟨r1, r2⟩ := noRaw_append.mp hraw
    obtain ⟨z, e2, z1, z2⟩ := ih t0 y' (.live v :: post) hn hy' r1
    refine ⟨z, ?_, z1, z2⟩
    rw [moveBackward, show pre ++ L (t0 ++ [v]) ++ y ++ post = (pre ++ L t0) ++ .live v :: (y ++ post) by simp, e1]
    simp only [ok_bind]
    rw [show (pre ++ L t0) ++ c :: (y ++ post) = (pre ++ L t0 ++ y') ++ w :: post by
      rw [← List.cons_append, hyw]; simp, assign_at _ _ _ _ _ (by simp [hd, hy', hn]; omega) (r2 w (by simp)), ok_bind, e2]
    simp

theorem copyBackward_eq (s d : ℕ) : ∀ (n : ℕ) (m : Mem α), copyBackward s d n m = moveBackward true s d n m := by
  intro n
  induction n with
  | zero => intro m; rfl
  | succ n ih =>
    intro m
    rw [copyBackward, moveBackward, moveOut]
    rcases rd m (s + n) with e | v
    · rfl
    · simp only [ok_bind, if_true, pure_ok]
      rcases assign m (d + n) v with e | m'
      · rfl
      · simp [ih]

theorem moveForward_ok (triv : Bool) (k : ℕ) : ∀ (t : List α) (pre y post : Mem α) (n s d : ℕ), t.length = n → y.length = k → NoRaw y →
    s = pre.length + k → d = pre.length →
    ∃ z, moveForward triv n s d (pre ++ y ++ L t ++ post) = .ok (pre ++ L t ++ z ++ post) ∧ z.length = k ∧ NoRaw z := by
  intro t
  induction t with
  | nil => intro pre y post n s d h1 h2 h3 _ _; subst h1; exact ⟨y, by simp [moveForward], h2, h3⟩
  | cons v t ih =>
    intro pre y post n s d h1 h2 h3 hs hd
    subst h1
    obtain ⟨c, e1, c1, _⟩ := moveOut_at triv (pre ++ y) v (L t ++ post) s (by simp [hs, h2])
    obtain ⟨w, y', hyw⟩ : ∃ w y', y ++ [c] = w :: y' := by
      cases y with
      | nil => exact ⟨c, [], rfl⟩
      | cons a y => exact ⟨a, y ++ [c], rfl⟩
    have hy' : y'.length = k := by have := congrArg List.length hyw; simp at this; omega
    have hraw : NoRaw (w :: y') := by rw [← hyw]; exact noRaw_append.mpr ⟨h3, by intro x hx; simp at hx; subst hx; exact c1⟩
    obtain ⟨r1, r2⟩ := noRaw_cons.mp hraw
    obtain ⟨z, e2, z1, z2⟩ := ih (pre ++ [.live v]) y' post _ (s + 1) (d + 1) rfl hy' r2 (by simp [hs]; omega) (by simp [hd])
    refine ⟨z, ?_, z1, z2⟩
    rw [List.length_cons, moveForward, show pre ++ y ++ L (v :: t) ++ post = (pre ++ y) ++ .live v :: (L t ++ post) by simp, e1]
    simp only [ok_bind]
    rw [show (pre ++ y) ++ c :: (L t ++ post) = pre ++ w :: (y' ++ (L t ++ post)) by
      have h : w :: (y' ++ (L t ++ post)) = (w :: y') ++ (L t ++ post) := rfl
      rw [h, ← hyw]; simp, assign_at _ _ _ _ _ hd r1, ok_bind,
      show pre ++ .live v :: (y' ++ (L t ++ post)) = (pre ++ [.live v]) ++ y' ++ L t ++ post by simp, e2]
    simp

theorem uninitMoveIn_ok (triv : Bool) : ∀ (l : List α) (pre mid x post : Mem α) (n s d : ℕ), l.length = n → x.length = n → s = pre.length →
    d = pre.length + n + mid.length →
    ∃ z, uninitMoveIn triv n s d (pre ++ L l ++ mid ++ x ++ post) = .ok (pre ++ z ++ mid ++ L l ++ post) ∧ z.length = n := by
  intro l
  induction l with
  | nil => intro pre mid x post n s d h1 h2 _ _; subst h1; obtain rfl := List.length_eq_zero_iff.mp h2; exact ⟨[], by simp [uninitMoveIn], rfl⟩
  | cons v l ih =>
    intro pre mid x post n s d h1 h2 h3 h4
    subst h1
    obtain ⟨c, x, rfl⟩ := List.exists_cons_of_length_eq_add_one h2
    obtain ⟨b, e1, _, _⟩ := moveOut_at triv pre v (L l ++ mid ++ c :: x ++ post) s h3
    obtain ⟨z, e2, z1⟩ := ih (pre ++ [b]) (mid ++ [.live v]) x post _ (s + 1) (d + 1) rfl (by simpa using h2) (by simp [h3])
      (by simp at *; omega)
    refine ⟨b :: z, ?_, by simp [z1]⟩
    rw [List.length_cons, uninitMoveIn,
      show pre ++ L (v :: l) ++ mid ++ c :: x ++ post = pre ++ .live v :: (L l ++ mid ++ c :: x ++ post) by simp, e1]
    simp only [ok_bind]
    rw [show pre ++ b :: (L l ++ mid ++ c :: x ++ post) = (pre ++ b :: (L l ++ mid)) ++ c :: (x ++ post) by simp,
      construct_at _ _ _ _ _ (by simp at *; omega), ok_bind,
      show (pre ++ b :: (L l ++ mid)) ++ .live v :: (x ++ post) = (pre ++ [b]) ++ L l ++ (mid ++ [.live v]) ++ x ++ post by simp, e2]
    simp

theorem uninitMoveTo_ok (triv : Bool) : ∀ (l : List α) (pre post qpre x qpost : Mem α) (n s d : ℕ), l.length = n → x.length = n →
    s = pre.length → d = qpre.length →
    ∃ z, uninitMoveTo triv n s d (pre ++ L l ++ post) (qpre ++ x ++ qpost) = .ok (pre ++ z ++ post, qpre ++ L l ++ qpost) ∧
      z.length = n ∧ NoRaw z ∧ (triv = true → z = L l) := by
  intro l
  induction l with
  | nil =>
    intro pre post qpre x qpost n s d h1 h2 _ _
    subst h1; obtain rfl := List.length_eq_zero_iff.mp h2
    exact ⟨[], by simp [uninitMoveTo], rfl, by simp [NoRaw], fun _ => rfl⟩
  | cons v l ih =>
    intro pre post qpre x qpost n s d h1 h2 h3 h4
    subst h1
    obtain ⟨c, x, rfl⟩ := List.exists_cons_of_length_eq_add_one h2
    obtain ⟨b, e1, b1, b2⟩ := moveOut_at triv pre v (L l ++ post) s h3
    obtain ⟨z, e2, z1, z2, z3⟩ := ih (pre ++ [b]) post (qpre ++ [.live v]) x qpost _ (s + 1) (d + 1) rfl (by simpa using h2)
      (by simp [h3]) (by simp [h4])
    refine ⟨b :: z, ?_, by simp [z1], noRaw_cons.mpr ⟨b1, z2⟩, fun h => by rw [b2 h, z3 h]; rfl⟩
    rw [List.length_cons, uninitMoveTo, show pre ++ L (v :: l) ++ post = pre ++ .live v :: (L l ++ post) by simp, e1]
    simp only [ok_bind]
    rw [show qpre ++ c :: x ++ qpost = qpre ++ c :: (x ++ qpost) by simp, construct_at _ _ _ _ _ h4, ok_bind,
      show pre ++ b :: (L l ++ post) = (pre ++ [b]) ++ L l ++ post by simp,
      show qpre ++ .live v :: (x ++ qpost) = (qpre ++ [.live v]) ++ x ++ qpost by simp, e2]
    simp

theorem contents_ok : ∀ (l : List α) (pre post : Mem α) (n i : ℕ), l.length = n → i = pre.length →
    contents n i (pre ++ L l ++ post) = .ok l := by
  intro l
  induction l with
  | nil => intro pre post n i h1 _; subst h1; rfl
  | cons v l ih =>
    intro pre post n i h1 h2
    subst h1
    rw [List.length_cons, contents, show pre ++ L (v :: l) ++ post = pre ++ .live v :: (L l ++ post) by simp, rd_at _ _ _ _ h2, ok_bind,
      show pre ++ .live v :: (L l ++ post) = (pre ++ [.live v]) ++ L l ++ post by simp, ih _ _ _ _ rfl (by simp [h2])]
    rfl

end Verif.Vector
