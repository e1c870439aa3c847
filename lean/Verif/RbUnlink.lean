import Verif.RbErase

/-!
# Taking a node out of the tree, `rb_tree_erase_rebalance`
-/

namespace Verif.Rb

variable {α : Type}

theorem plug_append (s s' : List (Frame α)) : ∀ t : Shape α, plug (s ++ s') t = plug s' (plug s t) := by
  induction s with
  | nil => intro t; rfl
  | cons f s ih => intro t; exact ih _

theorem parOf_append (hd : Ptr) (s s' : List (Frame α)) : parOf hd (s ++ s') = parOf (parOf hd s') s := by cases s <;> rfl

theorem S.sub {h : Heap α} {hd lm rm : Ptr} (s : List (Frame α)) {ctx : List (Frame α)} {t : Shape α} : S h hd lm rm (s ++ ctx) t ↔ S h hd lm rm ctx (plug s t) := by
  rw [S.whole, plug_append, ← S.whole]

/-- frames below a node -/
def Seg (h : Heap α) (par : Ptr) : List (Frame α) → Ptr → Prop
  | [], _ => True
  | f :: s, p => h f.a = some ⟨parOf par s, if f.isL then p else f.sib.ptr, if f.isL then f.sib.ptr else p, f.red, some f.v⟩ ∧ Rep h f.a f.sib ∧ Seg h par s f.a

theorem rep_plug {h : Heap α} {par : Ptr} : ∀ {s : List (Frame α)} {t : Shape α}, Rep h par (plug s t) ↔ Rep h (parOf par s) t ∧ Seg h par s t.ptr := by
  intro s
  induction s with
  | nil => intro t; simp [plug, Seg, parOf]
  | cons f s ih =>
    intro t
    rw [plug, ih, fill_ptr]
    show _ ↔ Rep h f.a t ∧ (h f.a = _ ∧ Rep h f.a f.sib ∧ Seg h par s f.a)
    cases hf : f.isL
    · rw [fill_isR hf]
      show ((h f.a = _ ∧ Rep h f.a f.sib ∧ Rep h f.a t) ∧ _) ↔ _
      simp only [Bool.false_eq_true, if_false]
      tauto
    · rw [fill_isL hf]
      show ((h f.a = _ ∧ Rep h f.a t ∧ Rep h f.a f.sib) ∧ _) ↔ _
      simp only [if_true]
      tauto

theorem Seg.congr {h h' : Heap α} {par : Ptr} : ∀ {s : List (Frame α)} {p : Ptr}, (∀ a ∈ ctxAddrs s, h' a = h a) → Seg h par s p → Seg h' par s p := by
  intro s
  induction s with
  | nil => intro p _ _; trivial
  | cons f s ih =>
    intro p he hr
    obtain ⟨h1, h2, h3⟩ := hr
    refine ⟨?_, h2.congr (fun a ha => he a ?_), ih (fun a ha => he a ?_) h3⟩
    · rw [he f.a (by simp [ctxAddrs])]; exact h1
    · simp [ctxAddrs, ha]
    · simp [ctxAddrs, ha]

/-- changing the pointer in the place below the innermost frame, which goes to the left -/
theorem Seg.setPtr {h h' : Heap α} {par : Ptr} {f : Frame α} {s : List (Frame α)} {p p' : Ptr} (hr : Seg h par (f :: s) p) (hnd : (ctxAddrs (f :: s)).Nodup) (hf : f.isL = true)
    (h1 : ∀ a ∈ ctxAddrs (f :: s), a ≠ f.a → h' a = h a) (h2 : h' f.a = (h f.a).map (fun c => { c with left := p' })) : Seg h' par (f :: s) p' := by
  obtain ⟨a1, a2, a3⟩ := hr
  simp only [ctxAddrs, List.mem_cons, List.mem_append, List.nodup_cons, not_or] at hnd h1
  refine ⟨?_, a2.congr (fun a ha => h1 a (Or.inr (Or.inl ha)) (fun e => hnd.1.1 (e ▸ ha))), a3.congr (fun a ha => h1 a (Or.inr (Or.inr ha)) (fun e => hnd.1.2 (e ▸ ha)))⟩
  rw [h2, a1, hf]; rfl

theorem S.congr {h h' : Heap α} {hd lm rm : Ptr} {ctx : List (Frame α)} {t : Shape α} (s : S h hd lm rm ctx t) (he : ∀ q ∈ owned hd (plug ctx t).items, h' q = h q) (h0 : h' 0 = h 0) : S h' hd lm rm ctx t := by
  have hm : ∀ q, q ∈ addrs (plug ctx t).items ↔ q ∈ addrs t.items ++ ctxAddrs ctx := fun q => (addrs_perm ctx t).mem_iff
  refine ⟨s.tree.congr (fun a ha => he a ?_), s.place.congr (he hd (by simp [owned])) (fun a ha => he a ?_), s.nodup, by rw [h0]; exact s.null⟩
  · exact List.mem_cons_of_mem _ ((hm a).2 (List.mem_append.2 (Or.inl ha)))
  · exact List.mem_cons_of_mem _ ((hm a).2 (List.mem_append.2 (Or.inr ha)))

/-! ## the first and the last element -/

/-- the address of the first element, the header if there is none -/
def firstP (hd : Ptr) : List (Ptr × α) → Ptr
  | [] => hd
  | x :: _ => x.1

/-- the address of the last element -/
def lastP (hd : Ptr) (l : List (Ptr × α)) : Ptr := firstP hd l.reverse

theorem firstP_append {hd : Ptr} {X Y : List (Ptr × α)} (hX : X ≠ []) : firstP hd (X ++ Y) = firstP hd X := by
  cases X with
  | nil => exact absurd rfl hX
  | cons x X => rfl

theorem firstP_is {hd z : Ptr} {v : α} {X Y : List (Ptr × α)} (hn : (addrs (X ++ (z, v) :: Y)).Nodup) (h : firstP hd (X ++ (z, v) :: Y) = z) : X = [] := by
  cases X with
  | nil => rfl
  | cons x X =>
    exfalso
    simp only [List.cons_append, firstP] at h
    simp only [addrs, List.cons_append, List.map_cons, List.nodup_cons, List.map_append] at hn
    exact hn.1 (by rw [h]; simp)

theorem firstP_isnt {hd z : Ptr} {v : α} {X Y : List (Ptr × α)} (h : firstP hd (X ++ (z, v) :: Y) ≠ z) : firstP hd (X ++ (z, v) :: Y) = firstP hd (X ++ Y) := by
  cases X with
  | nil => exact absurd rfl h
  | cons x X => rfl

/-- the way to the first element -/
theorem treeMin_ok {h : Heap α} : ∀ (r : Shape α) {par : Ptr} (fuel : Nat), Rep h par r → r ≠ .nil → 0 ∉ addrs r.items → r.items.length ≤ fuel →
    ∃ s y cy vy yr, r = plug s (.node y cy .nil vy yr) ∧ (∀ f ∈ s, f.isL = true) ∧ treeMin h fuel r.ptr = some y := by
  intro r
  induction r with
  | nil => intro par fuel _ h; exact absurd rfl h
  | node a c l w rr ihl _ =>
    intro par fuel hr _ h0 hf
    simp only [Shape.items, List.length_append, List.length_cons] at hf
    obtain ⟨k, rfl⟩ : ∃ k, fuel = k + 1 := ⟨fuel - 1, by omega⟩
    have l0 : 0 ∉ addrs l.items := fun e => h0 (by simp only [Shape.items, addrs, List.map_append, List.mem_append]; exact Or.inl e)
    by_cases hl : l = .nil
    · subst hl
      refine ⟨[], a, c, w, rr, rfl, by simp, ?_⟩
      show treeMin h (k + 1) a = _
      rw [treeMin, hr.1]
      simp [Shape.ptr]
    · obtain ⟨s, y, cy, vy, yr, e1, e2, e3⟩ := ihl k hr.2.1 hl l0 (by omega)
      refine ⟨s ++ [⟨true, a, c, w, rr⟩], y, cy, vy, yr, ?_, ?_, ?_⟩
      · rw [plug_append, ← e1]; rfl
      · intro f hf
        rcases List.mem_append.1 hf with hf | hf
        · exact e2 f hf
        · rw [List.mem_singleton.1 hf]
      · show treeMin h (k + 1) a = _
        rw [treeMin, hr.1]
        simp only [Option.bind_eq_bind, Option.bind_some]
        rw [if_pos (fun e => hl ((ptr_zero l0).1 e)), e3]

theorem treeMax_ok {h : Heap α} : ∀ (r : Shape α) {par : Ptr} (fuel : Nat), Rep h par r → r ≠ .nil → 0 ∉ addrs r.items → r.items.length ≤ fuel →
    ∃ s y cy vy yl, r = plug s (.node y cy yl vy .nil) ∧ (∀ f ∈ s, f.isL = false) ∧ treeMax h fuel r.ptr = some y := by
  intro r
  induction r with
  | nil => intro par fuel _ h; exact absurd rfl h
  | node a c ll w r _ ihr =>
    intro par fuel hr _ h0 hf
    simp only [Shape.items, List.length_append, List.length_cons] at hf
    obtain ⟨k, rfl⟩ : ∃ k, fuel = k + 1 := ⟨fuel - 1, by omega⟩
    have l0 : 0 ∉ addrs r.items := fun e => h0 (by simp only [Shape.items, addrs, List.map_append, List.mem_append, List.map_cons, List.mem_cons]; exact Or.inr (Or.inr e))
    by_cases hl : r = .nil
    · subst hl
      refine ⟨[], a, c, w, ll, rfl, by simp, ?_⟩
      show treeMax h (k + 1) a = _
      rw [treeMax, hr.1]
      simp [Shape.ptr]
    · obtain ⟨s, y, cy, vy, yr, e1, e2, e3⟩ := ihr k hr.2.2 hl l0 (by omega)
      refine ⟨s ++ [⟨false, a, c, w, ll⟩], y, cy, vy, yr, ?_, ?_, ?_⟩
      · rw [plug_append, ← e1]; rfl
      · intro f hf
        rcases List.mem_append.1 hf with hf | hf
        · exact e2 f hf
        · rw [List.mem_singleton.1 hf]
      · show treeMax h (k + 1) a = _
        rw [treeMax, hr.1]
        simp only [Option.bind_eq_bind, Option.bind_some]
        rw [if_pos (fun e => hl ((ptr_zero l0).1 e)), e3]

theorem before_L {s : List (Frame α)} (h : ∀ f ∈ s, f.isL = true) : before s = [] := by
  induction s with
  | nil => rfl
  | cons f s ih => rw [before, ih (fun g hg => h g (List.mem_cons_of_mem _ hg)), h f (by simp)]; rfl

theorem after_R {s : List (Frame α)} (h : ∀ f ∈ s, f.isL = false) : after s = [] := by
  induction s with
  | nil => rfl
  | cons f s ih => rw [after, ih (fun g hg => h g (List.mem_cons_of_mem _ hg)), h f (by simp)]; rfl

theorem first_items {h : Heap α} {r : Shape α} {par hd : Ptr} (fuel : Nat) (hr : Rep h par r) (hne : r ≠ .nil) (h0 : 0 ∉ addrs r.items) (hf : r.items.length ≤ fuel) : treeMin h fuel r.ptr = some (firstP hd r.items) := by
  obtain ⟨s, y, cy, vy, yr, e1, e2, e3⟩ := treeMin_ok r fuel hr hne h0 hf
  rw [e3]
  conv_rhs => rw [e1, plug_items, before_L e2]
  simp [Shape.items, firstP]

theorem last_items {h : Heap α} {r : Shape α} {par hd : Ptr} (fuel : Nat) (hr : Rep h par r) (hne : r ≠ .nil) (h0 : 0 ∉ addrs r.items) (hf : r.items.length ≤ fuel) : treeMax h fuel r.ptr = some (lastP hd r.items) := by
  obtain ⟨s, y, cy, vy, yr, e1, e2, e3⟩ := treeMax_ok r fuel hr hne h0 hf
  rw [e3]
  conv_rhs => rw [e1, plug_items, after_R e2]
  simp [Shape.items, lastP, firstP]

/-- the place is the first of all: the element after it belongs to the parent -/
theorem before_nil {hd : Ptr} {ctx : List (Frame α)} (h : before ctx = []) : firstP hd (after ctx) = parOf hd ctx := by
  cases ctx with
  | nil => rfl
  | cons f ctx =>
    cases hf : f.isL
    · simp [before, hf] at h
    · simp [after, hf, firstP, parOf]

theorem after_nil {hd : Ptr} {ctx : List (Frame α)} (h : after ctx = []) : lastP hd (before ctx) = parOf hd ctx := by
  cases ctx with
  | nil => rfl
  | cons f ctx =>
    cases hf : f.isL
    · simp [before, hf, lastP, firstP, parOf]
    · simp [after, hf] at h

theorem ctx_length (ctx : List (Frame α)) : ∀ t : Shape α, ctx.length + t.items.length ≤ (plug ctx t).items.length := by
  induction ctx with
  | nil => intro t; simp [plug]
  | cons f ctx ih =>
    intro t
    have := ih (f.fill t)
    rw [plug]
    have h2 : t.items.length + 1 ≤ (f.fill t).items.length := by
      cases hf : f.isL <;> simp [Frame.fill, hf, Shape.items] <;> omega
    simp only [List.length_cons]
    omega

/-! ## writing the header -/

theorem RepC.setHd {h h' : Heap α} {hd lm rm lm' rm' : Ptr} : ∀ {ctx : List (Frame α)} {p : Ptr}, RepC h hd lm rm ctx p → hd ∉ ctxAddrs ctx → (∀ q, q ≠ hd → h' q = h q) →
    h' hd = some ⟨rootP ctx p, lm', rm', true, none⟩ → RepC h' hd lm' rm' ctx p := by
  intro ctx
  induction ctx with
  | nil => intro p _ _ _ h1; exact h1
  | cons f ctx ih =>
    intro p hr hn he h1
    simp only [ctxAddrs, List.mem_cons, List.mem_append, not_or] at hn
    obtain ⟨a1, a2, a3⟩ := hr
    exact ⟨by rw [he _ (Ne.symm hn.1)]; exact a1, a2.congr (fun a ha => he a (fun e => hn.2.1 (e ▸ ha))), ih a3 hn.2.2 he h1⟩

theorem S.setHd {h h' : Heap α} {hd lm rm lm' rm' : Ptr} {ctx : List (Frame α)} {t : Shape α} (s : S h hd lm rm ctx t) (he : ∀ q, q ≠ hd → h' q = h q)
    (h1 : h' hd = some ⟨rootP ctx t.ptr, lm', rm', true, none⟩) : S h' hd lm' rm' ctx t := by
  have sp := s.sep'
  exact ⟨s.tree.congr (fun a ha => he a (fun e => sp.hdA (e ▸ ha))), s.place.setHd sp.hdC he h1, s.nodup, by rw [he 0 (Ne.symm sp.hd0)]; exact s.null⟩

theorem S.setLm {h : Heap α} {hd lm rm : Ptr} {ctx : List (Frame α)} {t : Shape α} (s : S h hd lm rm ctx t) (m : Ptr) : ∃ h', setLeft h hd m = some h' ∧ S h' hd m rm ctx t ∧ Off [hd] h h' := by
  have hh := s.place.header
  refine ⟨put h hd (some ⟨rootP ctx t.ptr, m, rm, true, none⟩), by rw [setLeft, hh]; rfl, s.setHd (fun q hq => put_ne _ _ hq) (put_same _ _ _), fun q hq => put_ne _ _ (by simpa using hq)⟩

theorem S.setRm {h : Heap α} {hd lm rm : Ptr} {ctx : List (Frame α)} {t : Shape α} (s : S h hd lm rm ctx t) (m : Ptr) : ∃ h', setRight h hd m = some h' ∧ S h' hd lm m ctx t ∧ Off [hd] h h' := by
  have hh := s.place.header
  refine ⟨put h hd (some ⟨rootP ctx t.ptr, lm, m, true, none⟩), by rw [setRight, hh]; rfl, s.setHd (fun q hq => put_ne _ _ hq) (put_same _ _ _), fun q hq => put_ne _ _ (by simpa using hq)⟩

/-! ## colours after a node has been taken out -/

theorem RB.black_zero {t : Shape α} (h : RB t 0) (hr : t.isRed = false) : t = .nil := by
  cases h with
  | nil => rfl
  | red _ _ _ _ => simp [Shape.isRed] at hr

theorem Short.of {t : Shape α} {n : Nat} (h : RB t n) : Short t n := by
  cases hr : t.isRed
  · exact Or.inl ⟨hr, h⟩
  · right
    cases h with
    | nil => simp [Shape.isRed] at hr
    | red a b c d => exact ⟨_, _, _, _, rfl, a, b⟩
    | black _ _ => simp [Shape.isRed] at hr

/-- a node with at most one child is taken out of a red-black tree -/
theorem RB.takeOut {ctx : List (Frame α)} {y : Ptr} {cy : Bool} {l r t : Shape α} {v : α} {m : Nat} (h : RB (Verif.Rb.plug ctx (.node y cy l v r)) m) (hr : (Verif.Rb.plug ctx (.node y cy l v r)).isRed = false)
    (ht : (l = .nil ∧ t = r) ∨ (r = .nil ∧ t = l)) :
    (cy = true → ∃ m, RB (Verif.Rb.plug ctx t) m ∧ (Verif.Rb.plug ctx t).isRed = false) ∧ (cy = false → ∃ n, Short t n ∧ RBC ctx (n + 1)) := by
  obtain ⟨n, hC, hn, hp⟩ := RB.unplug h hr
  constructor
  · rintro rfl
    cases hn with
    | red a b c d =>
      rcases ht with ⟨rfl, rfl⟩ | ⟨rfl, rfl⟩
      · cases a
        exact RB.plug hC b (by rw [d]; simp)
      · cases b
        exact RB.plug hC a (by rw [c]; simp)
  · rintro rfl
    cases hn with
    | black a b =>
      rename_i k
      refine ⟨k, ?_, hC⟩
      rcases ht with ⟨rfl, rfl⟩ | ⟨rfl, rfl⟩
      · exact Short.of b
      · exact Short.of a

theorem RBC.swap {d c : Bool} {a a' : Ptr} {v v' : α} {u : Shape α} {ctx : List (Frame α)} : ∀ (s : List (Frame α)) (k : Nat), RBC (s ++ ⟨d, a, c, v, u⟩ :: ctx) k → RBC (s ++ ⟨d, a', c, v', u⟩ :: ctx) k := by
  intro s
  induction s with
  | nil => intro k h; exact h
  | cons f s ih =>
    intro k h
    obtain ⟨h1, h2, h3⟩ := h
    refine ⟨h1, fun e => ⟨(h2 e).1, ?_⟩, ih _ h3⟩
    have := (h2 e).2
    cases s with
    | nil => exact this
    | cons g s => exact this

/-! ## unlinking -/

/-- what `unlink` achieves -/
structure Unlinked (h h' : Heap α) (hd : Ptr) (L L' : List (Ptr × α)) (z x xp : Ptr) (b : Bool) : Prop where
  ok : ∃ ctx' t', S h' hd (firstP hd L') (lastP hd L') ctx' t' ∧ (plug ctx' t').items = L' ∧ x = t'.ptr ∧ xp = parOf hd ctx' ∧
    (b = true → ∃ m, RB (plug ctx' t') m ∧ (plug ctx' t').isRed = false) ∧ (b = false → ∃ n, Short t' n ∧ RBC ctx' (n + 1))
  off : Off (owned hd L) h h'
  z : ∃ c, h' z = some c

/-- a node with at most one child -/
theorem unlinkA {h : Heap α} {hd lm rm : Ptr} {ctx : List (Frame α)} {z : Ptr} {cz : Bool} {l r t : Shape α} {v : α} {m fuel : Nat} {X Y : List (Ptr × α)}
    (s : S h hd lm rm ctx (.node z cz l v r)) (ht : (l = .nil ∧ t = r) ∨ (l ≠ .nil ∧ r = .nil ∧ t = l)) (hX : X = before ctx ++ l.items) (hY : Y = r.items ++ after ctx)
    (hlm : lm = firstP hd (X ++ (z, v) :: Y)) (hrm : rm = lastP hd (X ++ (z, v) :: Y)) (hB : RB (plug ctx (.node z cz l v r)) m) (hBr : (plug ctx (.node z cz l v r)).isRed = false)
    (hfuel : (X ++ (z, v) :: Y).length ≤ fuel) :
    ∃ h' x xp b, unlink hd fuel z h = some (x, xp, b, h') ∧ Unlinked h h' hd (X ++ (z, v) :: Y) (X ++ Y) z x xp b := by
  have hL : (plug ctx (Shape.node z cz l v r)).items = X ++ (z, v) :: Y := by rw [plug_items, hX, hY]; simp [Shape.items]
  have sp := s.sep'
  obtain ⟨tz, tl, tr⟩ := s.tree
  have hA : ∀ q, q ∈ addrs (Shape.node z cz l v r).items ↔ q ∈ addrs l.items ∨ q = z ∨ q ∈ addrs r.items := by intro q; simp [Shape.items, addrs]
  have hn := sp.nodA
  simp only [Shape.items, addrs, List.map_append, List.map_cons, List.nodup_append, List.nodup_cons, List.mem_cons] at hn
  have zl : z ∉ addrs l.items := fun e => hn.2.2 z e z (Or.inl rfl) rfl
  have zr : z ∉ addrs r.items := hn.2.1.1
  have z0 : z ≠ 0 := s.node0
  have l0 : 0 ∉ addrs l.items := fun e => sp.zero ((hA 0).2 (Or.inl e))
  have r0 : 0 ∉ addrs r.items := fun e => sp.zero ((hA 0).2 (Or.inr (Or.inr e)))
  -- the subtree
  have tt : Rep h z t := by rcases ht with ⟨_, rfl⟩ | ⟨_, _, rfl⟩ <;> assumption
  have zt : z ∉ addrs t.items := by rcases ht with ⟨_, rfl⟩ | ⟨_, _, rfl⟩ <;> assumption
  have t0 : 0 ∉ addrs t.items := by rcases ht with ⟨_, rfl⟩ | ⟨_, _, rfl⟩ <;> assumption
  have nt : (addrs t.items).Nodup := by
    rcases ht with ⟨_, rfl⟩ | ⟨_, _, rfl⟩
    · exact hn.2.1.2
    · exact hn.1
  have htA : ∀ q ∈ addrs t.items, q ∈ addrs (Shape.node z cz l v r).items := by
    intro q hq
    rw [hA]
    rcases ht with ⟨_, rfl⟩ | ⟨_, _, rfl⟩
    · exact Or.inr (Or.inr hq)
    · exact Or.inl hq
  have ti : X ++ Y = before ctx ++ t.items ++ after ctx := by
    rw [hX, hY]
    rcases ht with ⟨rfl, rfl⟩ | ⟨_, rfl, rfl⟩ <;> simp [Shape.items]
  have tp : t.ptr ≠ z := fun e => zt (e ▸ ptr_mem (by rw [e]; exact z0))
  have Pz := sp.par z ((hA z).2 (by simp))
  have Pt : ∀ q ∈ addrs t.items, q ≠ parOf hd ctx := fun q hq => sp.par q (htA q hq)
  have tpP : t.ptr ≠ parOf hd ctx := by
    intro e
    exact Pt _ (ptr_mem (by rw [e]; exact sp.par0)) e
  have tph : t.ptr ≠ hd := fun e => sp.hdA (htA hd (e ▸ ptr_mem (by rw [e]; exact sp.hd0)))
  -- the steps
  obtain ⟨h1, e1, h1o, h1t⟩ := setParent_opt (x := parOf hd ctx) tt t0
  have h1z : h1 z = some ⟨parOf hd ctx, l.ptr, r.ptr, cz, some v⟩ := by rw [h1o z (Or.inl (Ne.symm tp)), tz]
  obtain ⟨cp, hcp⟩ := s.place.par
  have hcp1 : h1 (parOf hd ctx) = some cp := by rw [h1o _ (Or.inl (Ne.symm tpP)), hcp]
  have tout : ∀ q ∈ hd :: ctxAddrs ctx, q ≠ t.ptr ∨ q = 0 := by
    intro q hq
    by_cases q0 : q = 0
    · exact Or.inr q0
    · left
      rintro rfl
      rcases List.mem_cons.1 hq with e | e
      · exact tph e
      · exact sp.disj _ (htA _ (ptr_mem q0)) e
  have hr1 : RepC h1 hd lm rm ctx z := s.place.congr (h1o hd (tout hd (by simp))) (fun q hq => h1o q (tout q (List.mem_cons_of_mem _ hq)))
  have e2 := replace_eq t.ptr hr1 h1z rfl (fun e => sp.disj z ((hA z).2 (by simp)) e) z0 hcp1
  obtain ⟨h2, h2e⟩ : ∃ h2, h2 = put h1 (parOf hd ctx) (some (newPar ctx t.ptr cp)) := ⟨_, rfl⟩
  have s2 : S h2 hd lm rm ctx t := by
    refine ⟨?_, ?_, ?_, ?_⟩
    · refine tt.reparent nt (fun q hq hne => ?_) (fun hne => ?_) t0
      · rw [h2e, put_ne _ _ (Pt q hq), h1o q (Or.inl hne)]
      · rw [h2e, put_ne _ _ (Pt _ (ptr_mem hne)), h1t hne]
    · refine hr1.setPtr' sp hcp1 (fun q hq hne => ?_) ?_
      · rw [h2e, put_ne _ _ hne]
      · rw [h2e, put_same]
    · have := s.nodup
      rw [plug_items, ← ti]
      rw [hL] at this
      refine this.sublist ?_
      refine List.Sublist.cons_cons _ (List.Sublist.cons_cons _ ?_)
      simp only [addrs, List.map_append, List.map_cons]
      exact List.Sublist.append_left (List.sublist_cons_self _ _) _
    · rw [h2e, put_ne _ _ (Ne.symm sp.par0), h1o 0 (Or.inr rfl)]; exact s.null
  have h2z : h2 z = some ⟨parOf hd ctx, l.ptr, r.ptr, cz, some v⟩ := by rw [h2e, put_ne _ _ Pz, h1z]
  have nodL : (addrs (X ++ (z, v) :: Y)).Nodup := by
    have := s.nodup
    rw [hL] at this
    exact (List.nodup_cons.1 (List.nodup_cons.1 this).2).2
  have hlen : t.items.length ≤ fuel := by
    have : (X ++ Y).length ≤ (X ++ (z, v) :: Y).length := by simp
    rw [ti] at this
    simp only [List.length_append] at this hfuel
    omega
  -- leftmost
  have left : ∃ h3, (if lm = z then (if t.ptr = 0 then some (parOf hd ctx) else treeMin h2 fuel t.ptr).bind (fun m => setLeft h2 hd m) else some h2) = some h3 ∧ S h3 hd (firstP hd (X ++ Y)) rm ctx t ∧ Off [hd] h2 h3 := by
    by_cases hz : lm = z
    · rw [if_pos hz]
      have hXn : X = [] := firstP_is nodL (hlm.symm.trans hz)
      have hbn : before ctx = [] ∧ l.items = [] := List.append_eq_nil_iff.1 (hX.symm.trans hXn)
      by_cases htn : t = .nil
      · subst htn
        obtain ⟨h3, a1, a2, a3⟩ := s2.setLm (parOf hd ctx)
        refine ⟨h3, by simpa [Shape.ptr] using a1, ?_, a3⟩
        rw [ti, hbn.1]
        simp only [Shape.items, List.append_nil, List.nil_append]
        rw [before_nil hbn.1]
        exact a2
      · have hm := first_items (hd := hd) fuel s2.tree htn t0 hlen
        obtain ⟨h3, a1, a2, a3⟩ := s2.setLm (firstP hd t.items)
        refine ⟨h3, ?_, ?_, a3⟩
        · rw [if_neg (fun e => htn ((ptr_zero t0).1 e)), hm]; exact a1
        · rw [ti, hbn.1, List.nil_append, firstP_append]
          · exact a2
          · intro e
            apply htn
            cases t with
            | nil => rfl
            | node => simp [Shape.items] at e
    · rw [if_neg hz]
      refine ⟨h2, rfl, ?_, Off.refl _ _⟩
      rw [← firstP_isnt (z := z) (v := v) (by rw [← hlm]; exact hz), ← hlm]
      exact s2
  obtain ⟨h3, e3, s3, o3⟩ := left
  have hrev : ∀ A B : List (Ptr × α), (A ++ (z, v) :: B).reverse = B.reverse ++ (z, v) :: A.reverse := by intro A B; simp
  have right : ∃ h4, (if rm = z then (if t.ptr = 0 then some (parOf hd ctx) else treeMax h3 fuel t.ptr).bind (fun m => setRight h3 hd m) else some h3) = some h4 ∧
      S h4 hd (firstP hd (X ++ Y)) (lastP hd (X ++ Y)) ctx t ∧ Off [hd] h3 h4 := by
    rw [lastP, hrev] at hrm
    by_cases hz : rm = z
    · rw [if_pos hz]
      have hYn : Y = [] := by
        have := firstP_is (by
          rw [← hrev]
          have : (addrs (X ++ (z, v) :: Y).reverse) = (addrs (X ++ (z, v) :: Y)).reverse := by simp [addrs]
          rw [this]; exact List.nodup_reverse.2 nodL) (hrm.symm.trans hz)
        simpa using this
      have hbn : r.items = [] ∧ after ctx = [] := List.append_eq_nil_iff.1 (hY.symm.trans hYn)
      by_cases htn : t = .nil
      · subst htn
        obtain ⟨h4, a1, a2, a3⟩ := s3.setRm (parOf hd ctx)
        refine ⟨h4, by simpa [Shape.ptr] using a1, ?_, a3⟩
        have hq : lastP hd (X ++ Y) = parOf hd ctx := by
          rw [ti, hbn.2]
          simp only [Shape.items, List.append_nil]
          exact after_nil hbn.2
        rw [hq]
        exact a2
      · have hm := last_items (hd := hd) fuel s3.tree htn t0 hlen
        obtain ⟨h4, a1, a2, a3⟩ := s3.setRm (lastP hd t.items)
        refine ⟨h4, ?_, ?_, a3⟩
        · rw [if_neg (fun e => htn ((ptr_zero t0).1 e)), hm]; exact a1
        · have hq : lastP hd (X ++ Y) = lastP hd t.items := by
            rw [ti, hbn.2, List.append_nil, lastP, List.reverse_append, firstP_append]
            · rfl
            · intro e
              apply htn
              cases t with
              | nil => rfl
              | node => simp [Shape.items] at e
          rw [hq]
          exact a2
    · rw [if_neg hz]
      refine ⟨h3, rfl, ?_, Off.refl _ _⟩
      have hq : lastP hd (X ++ Y) = rm := by
        rw [hrm, lastP, List.reverse_append]
        exact (firstP_isnt (by rw [← hrm]; exact hz)).symm
      rw [hq]
      exact s3
  obtain ⟨h4, e4, s4, o4⟩ := right
  have zhd : z ≠ hd := s.nodeHd
  have h4z : h4 z = some ⟨parOf hd ctx, l.ptr, r.ptr, cz, some v⟩ := by rw [o4 z (by simpa using zhd), o3 z (by simpa using zhd), h2z]
  refine ⟨h4, t.ptr, parOf hd ctx, cz, ?_, ⟨⟨ctx, t, s4, by rw [plug_items, ← ti], rfl, rfl, ?_, ?_⟩, ?_, ⟨_, h4z⟩⟩⟩
  · have hy : (l.ptr = 0 ∨ r.ptr = 0) := by
      rcases ht with ⟨rfl, rfl⟩ | ⟨_, rfl, rfl⟩
      · exact Or.inl rfl
      · exact Or.inr rfl
    have hx : (if l.ptr ≠ 0 then l.ptr else r.ptr) = t.ptr := by
      rcases ht with ⟨rfl, rfl⟩ | ⟨hl, rfl, rfl⟩
      · simp [Shape.ptr]
      · rw [if_pos (fun e => hl ((ptr_zero l0).1 e))]
    have g2 : h2 hd = some ⟨rootP ctx t.ptr, lm, rm, true, none⟩ := s2.place.header
    have g3 : h3 hd = some ⟨rootP ctx t.ptr, firstP hd (X ++ Y), rm, true, none⟩ := s3.place.header
    unfold unlink
    simp only [tz, Option.bind_eq_bind, Option.bind_some, if_pos hy, ne_eq, not_true_eq_false, if_false]
    simp only [ne_eq] at hx e1
    rw [hx, e1]
    simp only [Option.bind_some, e2, ← h2e, g2, e3, g3, e4]
    rw [isRed, h4z]; rfl
  · intro e
    exact (RB.takeOut hB hBr (t := t) (by
      rcases ht with ⟨a, b⟩ | ⟨_, a, b⟩
      · exact Or.inl ⟨a, b⟩
      · exact Or.inr ⟨a, b⟩)).1 e
  · intro e
    exact (RB.takeOut hB hBr (t := t) (by
      rcases ht with ⟨a, b⟩ | ⟨_, a, b⟩
      · exact Or.inl ⟨a, b⟩
      · exact Or.inr ⟨a, b⟩)).2 e
  · intro q hq
    rw [← hL] at hq
    have hm : ∀ q, q ∈ addrs (plug ctx (Shape.node z cz l v r)).items ↔ q ∈ addrs (Shape.node z cz l v r).items ++ ctxAddrs ctx := fun q => (addrs_perm ctx _).mem_iff
    simp only [owned, List.mem_cons, hm, List.mem_append, not_or] at hq
    rw [o4 q (by simpa using hq.1), o3 q (by simpa using hq.1), h2e, put_ne _ _ (fun e => ?_), h1o q (?_)]
    · by_cases q0 : q = 0
      · exact Or.inr q0
      · left; rintro rfl; exact hq.2.1 (htA _ (ptr_mem q0))
    · have := parOf_mem hd ctx
      rw [← e] at this
      rcases List.mem_cons.1 this with h | h
      · exact hq.1 h
      · exact hq.2.2 h

end Verif.Rb
