import Verif.DequeBulk
import Verif.DequeInit
/-!
# Lemmas on `DequeBulk.lean`: states described by the content of all cells
-/
namespace Verif.Deque

variable {α : Type}

/-- The cells of the allocated slots hold `f`. -/
structure G (B : ℕ) (s : St α) (f : ℕ → Option α) : Prop where
  outside : ∀ n, s.mapSize ≤ n → s.map n = none
  livemap : ∀ n id, s.map n = some id → id ∈ s.live
  inj : ∀ n m id, s.map n = some id → s.map m = some id → n = m
  nodup : s.live.Nodup
  fresh : ∀ id ∈ s.live, id < s.next
  cells : ∀ n id o, s.map n = some id → o < B → s.mem id o = f (n * B + o)

theorem Inv.g {B : ℕ} {s : St α} {l : List α} (h : Inv B s l) : G B s (cell l (pos B s.b)) :=
  ⟨h.outside, h.livemap, h.inj, h.nodup, h.fresh, h.cells⟩

/-- Only memory, `begin_` and `end_` differ. -/
def Fix (s s' : St α) : Prop := s'.map = s.map ∧ s'.live = s.live ∧ s'.mapSize = s.mapSize ∧ s'.next = s.next

theorem Fix.refl (s : St α) : Fix s s := ⟨rfl, rfl, rfl, rfl⟩
theorem Fix.trans {s t u : St α} (h : Fix s t) (g : Fix t u) : Fix s u := by
  obtain ⟨h1, h2, h3, h4⟩ := h
  obtain ⟨g1, g2, g3, g4⟩ := g
  exact ⟨g1.trans h1, g2.trans h2, g3.trans h3, g4.trans h4⟩
theorem Fix.at {B : ℕ} {s s' : St α} (h : Fix s s') {p : ℕ} {x : It} (t : At B s p x) : At B s' p x := by
  unfold At; rw [h.1]; exact t

/-- Every cell from `p` to `q` lies in an allocated slot. -/
def Has (B : ℕ) (s : St α) (p q : ℕ) : Prop := ∀ r, p ≤ r → r ≤ q → ∃ x, At B s r x

theorem Fix.has {B : ℕ} {s s' : St α} (h : Fix s s') {p q : ℕ} (t : Has B s p q) : Has B s' p q := fun r h1 h2 => by
  obtain ⟨x, hx⟩ := t r h1 h2
  exact ⟨x, h.at hx⟩
theorem Has.mono {B : ℕ} {s : St α} {p q p' q' : ℕ} (h : Has B s p q) (h1 : p ≤ p') (h2 : q' ≤ q) : Has B s p' q' := fun r a b => h r (by omega) (by omega)

theorem G.inv0 {B : ℕ} {s : St α} {f : ℕ → Option α} (g : G B s f) {p : ℕ} {x : It} (hx : At B s p x) :
    Inv (α := α) B { s with b := x, e := x, mem := fun _ _ => none } [] := by
  refine ⟨hx.1, hx.1, rfl, g.outside, fun n h1 h2 => ?_, hx.2.2, hx.2.2, g.livemap, g.inj, g.nodup, g.fresh, fun n id o _ _ => ?_⟩
  · have h1 : x.node ≤ n := h1
    have h2 : n ≤ x.node := h2
    exact ⟨x.buf, by rw [show n = x.node by omega]; exact hx.2.2⟩
  · unfold cell; split_ifs <;> simp

theorem G.inc {B : ℕ} {s : St α} {f : ℕ → Option α} (g : G B s f) {p : ℕ} {x y : It} (hx : At B s p x) (hy : At B s (p + 1) y) : inc B s x = some y :=
  inc_ok (s := { s with b := x, e := x, mem := fun _ _ => none }) (g.inv0 hx) hx hy
theorem G.add {B : ℕ} {s : St α} {f : ℕ → Option α} (g : G B s f) {p q : ℕ} {x y : It} {n : ℤ} (hx : At B s p x) (hy : At B s q y) (hq : (p : ℤ) + n = q) : add B s x n = some y :=
  add_ok (s := { s with b := x, e := x, mem := fun _ _ => none }) (g.inv0 hx) hx hy hq

theorem G.read {B : ℕ} {s : St α} {f : ℕ → Option α} (g : G B s f) {p : ℕ} {x : It} (hx : At B s p x) : read B s x = f p := by
  unfold Deque.read
  rw [if_pos ⟨g.livemap _ _ hx.2.2, hx.1⟩, g.cells _ _ _ hx.2.2 hx.1]
  exact congrArg f hx.2.1

theorem G.store {B : ℕ} {s : St α} {f : ℕ → Option α} (g : G B s f) {p : ℕ} {x : It} (hx : At B s p x) (v : Option α) :
    G B { s with mem := upd s.mem x.buf (upd (s.mem x.buf) x.off v) } (upd f p v) := by
  refine ⟨g.outside, g.livemap, g.inj, g.nodup, g.fresh, fun n id o hn ho => ?_⟩
  by_cases h : id = x.buf ∧ o = x.off
  · obtain ⟨h1, h2⟩ := h
    subst h1 h2
    have e : n = x.node := g.inj _ _ _ hn hx.2.2
    subst e
    have : x.node * B + x.off = p := hx.2.1
    rw [this, upd_same]
    exact upd2_same _ _ _ _
  · have hp : n * B + o ≠ p := by
      intro hp
      obtain ⟨e1, e2⟩ := pos_inj ho hx.1 (hp.trans hx.2.1.symm)
      subst e1
      have hn : s.map x.node = some id := hn
      rw [hx.2.2] at hn
      exact h ⟨(Option.some.inj hn).symm, e2⟩
    rw [upd_ne _ _ hp, ← g.cells n id o hn ho]
    exact upd2_ne _ _ (by tauto)

theorem G.construct {B : ℕ} {s : St α} {f : ℕ → Option α} (g : G B s f) {p : ℕ} {x : It} (hx : At B s p x) (hf : f p = none) (v : α) :
    ∃ s', construct B s x.buf x.off v = some s' ∧ G B s' (upd f p (some v)) ∧ Fix s s' ∧ s'.b = s.b ∧ s'.e = s.e := by
  have hr : s.mem x.buf x.off = none := by
    rw [g.cells _ _ _ hx.2.2 hx.1, ← hf]; exact congrArg f hx.2.1
  exact ⟨_, if_pos ⟨g.livemap _ _ hx.2.2, hx.1, by rw [hr]; rfl⟩, g.store hx _, Fix.refl _, rfl, rfl⟩

theorem G.write {B : ℕ} {s : St α} {f : ℕ → Option α} (g : G B s f) {p : ℕ} {x : It} (hx : At B s p x) (hf : (f p).isSome) (v : α) :
    ∃ s', write B s x v = some s' ∧ G B s' (upd f p (some v)) ∧ Fix s s' ∧ s'.b = s.b ∧ s'.e = s.e := by
  have hr : (s.mem x.buf x.off).isSome := by
    rw [g.cells _ _ _ hx.2.2 hx.1, show x.node * B + x.off = p from hx.2.1]; exact hf
  exact ⟨_, if_pos ⟨g.livemap _ _ hx.2.2, hx.1, hr⟩, g.store hx _, Fix.refl _, rfl, rfl⟩

theorem G.congr {B : ℕ} {s : St α} {f f' : ℕ → Option α} (g : G B s f) (h : ∀ p, f' p = f p) : G B s f' := by
  have : f' = f := funext h
  rw [this]; exact g

/-- the cells from `q` on get the `k` values of `g` -/
def ovr (f : ℕ → Option α) (q k : ℕ) (g : ℕ → Option α) : ℕ → Option α := fun p => if q ≤ p ∧ p < q + k then g (p - q) else f p

theorem uninitCopy_ok {B : ℕ} (k : ℕ) : ∀ {s : St α} {f : ℕ → Option α} {P Q : ℕ} {x y : It}, G B s f → At B s P x → At B s Q y → Has B s P (P + k) → Has B s Q (Q + k) →
    (∀ i < k, (f (P + i)).isSome) → (∀ i < k, f (Q + i) = none) →
    ∃ s' y', uninitCopy B s x y k = some (s', y') ∧ At B s' (Q + k) y' ∧ G B s' (ovr f Q k (fun i => f (P + i))) ∧ Fix s s' ∧ s'.b = s.b ∧ s'.e = s.e := by
  induction k with
  | zero =>
    intro s f P Q x y g hx hy _ _ _ _
    refine ⟨s, y, rfl, hy, g.congr fun p => ?_, Fix.refl s, rfl, rfl⟩
    unfold ovr; rw [if_neg (by omega)]
  | succ k ih =>
    intro s f P Q x y g hx hy hP hQ hs hn
    obtain ⟨v, hv⟩ := Option.isSome_iff_exists.1 (hs 0 (by omega))
    rw [Nat.add_zero] at hv
    have hPQ : ∀ i < k + 1, ∀ j < k + 1, P + i ≠ Q + j := by
      intro i hi j hj he
      have a := hs i hi
      rw [he, hn j hj] at a
      simp at a
    obtain ⟨s1, a1, a2, a3, a4, a5⟩ := g.construct hy (hn 0 (by omega)) v
    obtain ⟨x', hx'⟩ := hP (P + 1) (by omega) (by omega)
    obtain ⟨y', hy'⟩ := hQ (Q + 1) (by omega) (by omega)
    obtain ⟨s2, z, b1, b2, b3, b4, b5, b6⟩ := ih (P := P + 1) (Q := Q + 1) (x := x') (y := y') a2 (a3.at hx') (a3.at hy') (a3.has (hP.mono (by omega) (by omega))) (a3.has (hQ.mono (by omega) (by omega)))
      (by
        intro i hi
        have := hs (i + 1) (by omega)
        rw [upd_ne _ _ (by have := hPQ (i + 1) (by omega) 0 (by omega); omega), show P + 1 + i = P + (i + 1) by omega]
        exact this)
      (by
        intro i hi
        rw [upd_ne _ _ (by omega), show Q + 1 + i = Q + (i + 1) by omega]
        exact hn (i + 1) (by omega))
    refine ⟨s2, z, ?_, by rw [show Q + (k + 1) = Q + 1 + k by omega]; exact b2, b3.congr fun p => ?_, a3.trans b4, b5.trans a4, b6.trans a5⟩
    · show (read B s x >>= _) = _
      rw [bind_some ((g.read hx).trans hv), bind_some a1, bind_some (a2.inc (a3.at hx) (a3.at hx')), bind_some (a2.inc (a3.at hy) (a3.at hy'))]
      exact b1
    · unfold ovr
      simp only
      by_cases h1 : Q + 1 ≤ p ∧ p < Q + 1 + k
      · rw [if_pos (by omega), if_pos h1, upd_ne _ _ (by have := hPQ (p - Q) (by omega) 0 (by omega); omega)]
        congr 1; omega
      · rw [if_neg h1]
        by_cases h2 : p = Q
        · subst h2
          rw [if_pos (by omega), upd_same, Nat.sub_self, Nat.add_zero, hv]
        · rw [if_neg (by omega), upd_ne _ _ h2]

theorem uninitList_ok {B : ℕ} (vs : List α) : ∀ {s : St α} {f : ℕ → Option α} {Q : ℕ} {y : It}, G B s f → At B s Q y → Has B s Q (Q + vs.length) → (∀ i < vs.length, f (Q + i) = none) →
    ∃ s' y', uninitList B s y vs = some (s', y') ∧ At B s' (Q + vs.length) y' ∧ G B s' (ovr f Q vs.length (fun i => vs[i]?)) ∧ Fix s s' ∧ s'.b = s.b ∧ s'.e = s.e := by
  induction vs with
  | nil =>
    intro s f Q y g hy _ _
    refine ⟨s, y, rfl, hy, g.congr fun p => ?_, Fix.refl s, rfl, rfl⟩
    unfold ovr; rw [if_neg (by rw [List.length_nil]; omega)]
  | cons v vs ih =>
    intro s f Q y g hy hQ hn
    rw [List.length_cons] at hQ hn ⊢
    obtain ⟨s1, a1, a2, a3, a4, a5⟩ := g.construct hy (hn 0 (by omega)) v
    obtain ⟨y', hy'⟩ := hQ (Q + 1) (by omega) (by omega)
    obtain ⟨s2, z, b1, b2, b3, b4, b5, b6⟩ := ih (Q := Q + 1) (y := y') a2 (a3.at hy') (a3.has (hQ.mono (by omega) (by omega)))
      (by
        intro i hi
        rw [upd_ne _ _ (by omega), show Q + 1 + i = Q + (i + 1) by omega]
        exact hn (i + 1) (by omega))
    refine ⟨s2, z, ?_, by rw [show Q + (vs.length + 1) = Q + 1 + vs.length by omega]; exact b2, b3.congr fun p => ?_, a3.trans b4, b5.trans a4, b6.trans a5⟩
    · show (construct B s y.buf y.off v >>= _) = _
      rw [bind_some a1, bind_some (a2.inc (a3.at hy) (a3.at hy'))]
      exact b1
    · unfold ovr
      simp only
      by_cases h1 : Q + 1 ≤ p ∧ p < Q + 1 + vs.length
      · rw [if_pos (by omega), if_pos h1, show p - Q = p - (Q + 1) + 1 by omega, List.getElem?_cons_succ]
      · rw [if_neg h1]
        by_cases h2 : p = Q
        · subst h2
          rw [if_pos (by omega), upd_same, Nat.sub_self, List.getElem?_cons_zero]
        · rw [if_neg (by omega), upd_ne _ _ h2]

theorem uninitFill_eq {B : ℕ} (v : α) (k : ℕ) : ∀ (s : St α) (y : It), uninitFill B s y v k = uninitList B s y (List.replicate k v) := by
  induction k with
  | zero => intro s y; rfl
  | succ k ih =>
    intro s y
    rw [List.replicate_succ]
    unfold uninitFill uninitList
    congr 1; funext t; congr 1; funext z
    exact ih t z

theorem writeList_ok {B : ℕ} (vs : List α) : ∀ {s : St α} {f : ℕ → Option α} {Q : ℕ} {y : It}, G B s f → At B s Q y → Has B s Q (Q + vs.length) → (∀ i < vs.length, (f (Q + i)).isSome) →
    ∃ s' y', writeList B s y vs = some (s', y') ∧ At B s' (Q + vs.length) y' ∧ G B s' (ovr f Q vs.length (fun i => vs[i]?)) ∧ Fix s s' ∧ s'.b = s.b ∧ s'.e = s.e := by
  induction vs with
  | nil =>
    intro s f Q y g hy _ _
    refine ⟨s, y, rfl, hy, g.congr fun p => ?_, Fix.refl s, rfl, rfl⟩
    unfold ovr; rw [if_neg (by rw [List.length_nil]; omega)]
  | cons v vs ih =>
    intro s f Q y g hy hQ hn
    rw [List.length_cons] at hQ hn ⊢
    obtain ⟨s1, a1, a2, a3, a4, a5⟩ := g.write hy (hn 0 (by omega)) v
    obtain ⟨y', hy'⟩ := hQ (Q + 1) (by omega) (by omega)
    obtain ⟨s2, z, b1, b2, b3, b4, b5, b6⟩ := ih (Q := Q + 1) (y := y') a2 (a3.at hy') (a3.has (hQ.mono (by omega) (by omega)))
      (by
        intro i hi
        rw [upd_ne _ _ (by omega), show Q + 1 + i = Q + (i + 1) by omega]
        exact hn (i + 1) (by omega))
    refine ⟨s2, z, ?_, by rw [show Q + (vs.length + 1) = Q + 1 + vs.length by omega]; exact b2, b3.congr fun p => ?_, a3.trans b4, b5.trans a4, b6.trans a5⟩
    · show (write B s y v >>= _) = _
      rw [bind_some a1, bind_some (a2.inc (a3.at hy) (a3.at hy'))]
      exact b1
    · unfold ovr
      simp only
      by_cases h1 : Q + 1 ≤ p ∧ p < Q + 1 + vs.length
      · rw [if_pos (by omega), if_pos h1, show p - Q = p - (Q + 1) + 1 by omega, List.getElem?_cons_succ]
      · rw [if_neg h1]
        by_cases h2 : p = Q
        · subst h2
          rw [if_pos (by omega), upd_same, Nat.sub_self, List.getElem?_cons_zero]
        · rw [if_neg (by omega), upd_ne _ _ h2]

theorem fillUp_eq {B : ℕ} (v : α) (k : ℕ) : ∀ (s : St α) (y : It), fillUp B s y v k = (writeList B s y (List.replicate k v)).map Prod.fst := by
  induction k with
  | zero => intro s y; rfl
  | succ k ih =>
    intro s y
    rw [List.replicate_succ]
    unfold fillUp writeList
    cases write B s y v with
    | none => rfl
    | some t =>
      show (inc B t y >>= _) = ((inc B t y >>= _) : Option _).map _
      cases inc B t y with
      | none => rfl
      | some z => exact ih t z

theorem copyUp_G {B : ℕ} (k : ℕ) : ∀ {s : St α} {f : ℕ → Option α} {P Q : ℕ} {x y : It}, G B s f → At B s P x → At B s Q y → Q ≤ P → Has B s Q (P + k) →
    (∀ i, Q ≤ i → i < P + k → (f i).isSome) →
    ∃ s', copyUp B s x y k = some s' ∧ G B s' (ovr f Q k (fun i => f (P + i))) ∧ Fix s s' ∧ s'.b = s.b ∧ s'.e = s.e := by
  induction k with
  | zero =>
    intro s f P Q x y g hx hy _ _ _
    refine ⟨s, rfl, g.congr fun p => ?_, Fix.refl s, rfl, rfl⟩
    unfold ovr; rw [if_neg (by omega)]
  | succ k ih =>
    intro s f P Q x y g hx hy hPQ hH hs
    obtain ⟨v, hv⟩ := Option.isSome_iff_exists.1 (hs P (by omega) (by omega))
    obtain ⟨s1, a1, a2, a3, a4, a5⟩ := g.write hy (hs Q (by omega) (by omega)) v
    obtain ⟨x', hx'⟩ := hH (P + 1) (by omega) (by omega)
    obtain ⟨y', hy'⟩ := hH (Q + 1) (by omega) (by omega)
    obtain ⟨s2, b1, b3, b4, b5, b6⟩ := ih (P := P + 1) (Q := Q + 1) (x := x') (y := y') a2 (a3.at hx') (a3.at hy') (by omega) (a3.has (hH.mono (by omega) (by omega)))
      (by
        intro i h1 h2
        rw [upd_ne _ _ (by omega)]
        exact hs i (by omega) (by omega))
    refine ⟨s2, ?_, b3.congr fun p => ?_, a3.trans b4, b5.trans a4, b6.trans a5⟩
    · show (read B s x >>= _) = _
      rw [bind_some ((g.read hx).trans hv), bind_some a1, bind_some (a2.inc (a3.at hx) (a3.at hx')), bind_some (a2.inc (a3.at hy) (a3.at hy'))]
      exact b1
    · unfold ovr
      simp only
      by_cases h1 : Q + 1 ≤ p ∧ p < Q + 1 + k
      · have h3 : P + 1 + (p - (Q + 1)) ≠ Q := by omega
        rw [if_pos (by omega), if_pos h1, upd_ne _ _ h3]
        congr 1; omega
      · rw [if_neg h1]
        by_cases h2 : p = Q
        · subst h2
          rw [if_pos (by omega), upd_same, Nat.sub_self, Nat.add_zero, hv]
        · rw [if_neg (by omega), upd_ne _ _ h2]

theorem G.dec {B : ℕ} {s : St α} {f : ℕ → Option α} (g : G B s f) {p : ℕ} {x y : It} (hx : At B s (p + 1) x) (hy : At B s p y) : dec B s x = some y :=
  dec_ok (s := { s with b := x, e := x, mem := fun _ _ => none }) (g.inv0 hx) hx hy

theorem copyDown_G {B : ℕ} (k : ℕ) : ∀ {s : St α} {f : ℕ → Option α} {P Q : ℕ} {x y : It}, G B s f → At B s (P + k) x → At B s (Q + k) y → P ≤ Q → Has B s P (Q + k) →
    (∀ i, P ≤ i → i < Q + k → (f i).isSome) →
    ∃ s', copyDown B s x y k = some s' ∧ G B s' (ovr f Q k (fun i => f (P + i))) ∧ Fix s s' ∧ s'.b = s.b ∧ s'.e = s.e := by
  induction k with
  | zero =>
    intro s f P Q x y g hx hy _ _ _
    refine ⟨s, rfl, g.congr fun p => ?_, Fix.refl s, rfl, rfl⟩
    unfold ovr; rw [if_neg (by omega)]
  | succ k ih =>
    intro s f P Q x y g hx hy hPQ hH hs
    obtain ⟨v, hv⟩ := Option.isSome_iff_exists.1 (hs (P + k) (by omega) (by omega))
    obtain ⟨x', hx'⟩ := hH (P + k) (by omega) (by omega)
    obtain ⟨y', hy'⟩ := hH (Q + k) (by omega) (by omega)
    obtain ⟨s1, a1, a2, a3, a4, a5⟩ := g.write hy' (hs (Q + k) (by omega) (by omega)) v
    obtain ⟨s2, b1, b3, b4, b5, b6⟩ := ih (P := P) (Q := Q) (x := x') (y := y') a2 (a3.at hx') (a3.at hy') (by omega) (a3.has (hH.mono (by omega) (by omega)))
      (by
        intro i h1 h2
        rw [upd_ne _ _ (by omega)]
        exact hs i (by omega) (by omega))
    refine ⟨s2, ?_, b3.congr fun p => ?_, a3.trans b4, b5.trans a4, b6.trans a5⟩
    · show (dec B s x >>= _) = _
      rw [bind_some (g.dec hx hx'), bind_some (g.dec hy hy'), bind_some ((g.read hx').trans hv), bind_some a1]
      exact b1
    · unfold ovr
      simp only
      by_cases h1 : Q ≤ p ∧ p < Q + k
      · have h3 : P + (p - Q) ≠ Q + k := by omega
        rw [if_pos (by omega), if_pos h1, upd_ne _ _ h3]
      · rw [if_neg h1]
        by_cases h2 : p = Q + k
        · subst h2
          rw [if_pos (by omega), upd_same, Nat.add_sub_cancel_left, hv]
        · rw [if_neg (by omega), upd_ne _ _ h2]

/-- Back to the invariant. -/
theorem Inv.ofG {B : ℕ} {s : St α} {l : List α} {P : ℕ} (g : G B s (cell l P)) (hb : At B s P s.b) (he : At B s (P + l.length) s.e) (hH : Has B s P (P + l.length)) : Inv B s l := by
  refine ⟨hb.1, he.1, by rw [hb.2.1, he.2.1], g.outside, fun n h1 h2 => ?_, hb.2.2, he.2.2, g.livemap, g.inj, g.nodup, g.fresh, by rw [hb.2.1]; exact g.cells⟩
  by_cases h : n = s.b.node
  · exact ⟨_, h ▸ hb.2.2⟩
  · have hB : 0 < B := by have := hb.1; omega
    have e1 := hb.2.1
    have e2 := he.2.1
    have h3 : (s.b.node + 1) * B ≤ n * B := Nat.mul_le_mul_right _ (by omega)
    have h4 : n * B ≤ s.e.node * B := Nat.mul_le_mul_right _ h2
    rw [Nat.succ_mul] at h3
    have := hb.1
    unfold pos at e1 e2
    obtain ⟨x, x1, x2, x3⟩ := hH (n * B) (by omega) (by omega)
    obtain ⟨e3, e4⟩ := pos_inj (B := B) (n := x.node) (m := n) (o := x.off) (o' := 0) x1 hB (by unfold pos at x2; omega)
    exact ⟨x.buf, e3 ▸ x3⟩

theorem Inv.has {B : ℕ} {s : St α} {l : List α} (h : Inv B s l) : Has B s (pos B s.b) (pos B s.b + l.length) := fun r h1 h2 => h.exists_at h1 (by rw [← h.len]; exact h2)

/-! ### making room -/

theorem requireFront_has {B : ℕ} {s : St α} {l : List α} (h : Inv B s l) (n : ℕ) :
    ∃ s', requireFront B s n = some s' ∧ Inv B s' l ∧ n ≤ pos B s'.b ∧ Has B s' (pos B s'.b - n) (pos B s'.b + l.length) := by
  obtain ⟨s', a1, a2, a3, a4, a5, a6, a7⟩ := requireFront_ok h n
  have hB : 0 < B := by have := h.boff; omega
  refine ⟨s', a1, a2, ?_⟩
  by_cases h1 : s.b.off < n
  · obtain ⟨b1, b2, _, _⟩ := a6 h1
    have hd : n - s.b.off < ((n - s.b.off) / B + 1) * B := by
      have := Nat.div_add_mod' (n - s.b.off) B
      have := Nat.mod_lt (n - s.b.off) hB
      rw [Nat.succ_mul]; omega
    generalize (n - s.b.off) / B + 1 = need at *
    have hm : need * B ≤ s'.b.node * B := Nat.mul_le_mul_right _ b1
    have hle : n ≤ pos B s'.b := by unfold pos; rw [a3]; omega
    refine ⟨hle, fun r h2 h3 => ?_⟩
    by_cases h4 : pos B s'.b ≤ r
    · exact a2.has r h4 h3
    · have hp : r / B * B + r % B = r := Nat.div_add_mod' r B
      have hm' : r % B < B := Nat.mod_lt _ hB
      by_cases h5 : s'.b.node ≤ r / B
      · have : r / B ≤ s'.b.node := by
          refine node_le (B := B) (o := s'.b.off) (o' := r % B) a2.boff ?_
          unfold pos at h4; omega
        have e : r / B = s'.b.node := by omega
        exact ⟨⟨s'.b.node, s'.b.buf, r % B⟩, hm', by rw [← e]; exact hp, a2.bbuf⟩
      · have : s'.b.node ≤ r / B + need := by
          refine node_le (B := B) (o := r % B) (o' := 0) hm' ?_
          rw [Nat.add_mul]
          unfold pos at h2; rw [a3] at h2; omega
        obtain ⟨id, hid⟩ := b2 (r / B) this (by omega)
        exact ⟨⟨r / B, id, r % B⟩, hm', hp, hid⟩
  · have e := a7 (by omega)
    subst e
    refine ⟨by unfold pos; omega, fun r h2 h3 => ?_⟩
    by_cases h4 : pos B s'.b ≤ r
    · exact a2.has r h4 h3
    · refine ⟨⟨s'.b.node, s'.b.buf, r - s'.b.node * B⟩, ?_, ?_, h.bbuf⟩
      · show r - s'.b.node * B < B
        have := h.boff
        unfold pos at h4; omega
      · unfold pos at h2 ⊢
        show s'.b.node * B + (r - s'.b.node * B) = r
        omega

theorem requireBack_has {B : ℕ} {s : St α} {l : List α} (h : Inv B s l) (n : ℕ) :
    ∃ s', requireBack B s n = some s' ∧ Inv B s' l ∧ Has B s' (pos B s'.b) (pos B s'.b + l.length + n) := by
  obtain ⟨s', a1, a2, a3, a4, a5, a6, a7⟩ := requireBack_ok h n
  have hB : 0 < B := by have := h.boff; omega
  have hlen := a2.len
  refine ⟨s', a1, a2, fun r h2 h3 => ?_⟩
  by_cases h4 : r ≤ pos B s'.e
  · exact a2.exists_at h2 h4
  have hp : r / B * B + r % B = r := Nat.div_add_mod' r B
  have hm' : r % B < B := Nat.mod_lt _ hB
  by_cases h5 : r / B ≤ s'.e.node
  · have : s'.e.node ≤ r / B := by
      refine node_le (B := B) (o := r % B) (o' := s'.e.off) hm' ?_
      unfold pos at h4; omega
    have e : r / B = s'.e.node := by omega
    exact ⟨⟨s'.e.node, s'.e.buf, r % B⟩, hm', by rw [← e]; exact hp, a2.ebuf⟩
  · by_cases h1 : B - s.e.off - 1 < n
    · obtain ⟨b2, _, _⟩ := a6 h1
      have hd : n - (B - s.e.off - 1) < ((n - (B - s.e.off - 1)) / B + 1) * B := by
        have := Nat.div_add_mod' (n - (B - s.e.off - 1)) B
        have := Nat.mod_lt (n - (B - s.e.off - 1)) hB
        rw [Nat.succ_mul]; omega
      generalize (n - (B - s.e.off - 1)) / B + 1 = need at *
      have heo := h.eoff
      have : r / B ≤ s'.e.node + need := by
        refine node_le (B := B) (o := B - 1) (o' := r % B) (by omega) ?_
        rw [Nat.add_mul]
        unfold pos at h3 hlen; rw [a4] at hlen; omega
      obtain ⟨id, hid⟩ := b2 (r / B) (by omega) this
      exact ⟨⟨r / B, id, r % B⟩, hm', hp, hid⟩
    · exfalso
      have e := a7 (by omega)
      subst e
      apply h5
      refine node_le (B := B) (o := B - 1) (o' := r % B) (by omega) ?_
      have heo := h.eoff
      unfold pos at h3 hlen; omega

end Verif.Deque
