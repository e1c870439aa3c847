import Verif.RbRep

/-!
# The writes of rb_tree.h on trees in the heap: colours and rotations
-/

namespace Verif.Rb

variable {α : Type}

theorem put_same (h : Heap α) (p : Ptr) (c : Option (Cell α)) : put h p c p = c := by simp [put]
theorem put_ne (h : Heap α) {p q : Ptr} (c : Option (Cell α)) (hn : q ≠ p) : put h p c q = h q := by simp [put, hn]

theorem parOf_mem (hd : Ptr) (ctx : List (Frame α)) : parOf hd ctx ∈ hd :: ctxAddrs ctx := by
  cases ctx with
  | nil => simp [parOf]
  | cons f ctx => simp [parOf, ctxAddrs]

/-- the addresses of the parts of a place and a tree are different -/
structure Sep (hd : Ptr) (A : List Ptr) (ctx : List (Frame α)) : Prop where
  zero : 0 ∉ A
  zero' : 0 ∉ ctxAddrs ctx
  hd0 : hd ≠ 0
  hdA : hd ∉ A
  hdC : hd ∉ ctxAddrs ctx
  nodA : A.Nodup
  nodC : (ctxAddrs ctx).Nodup
  disj : ∀ a ∈ A, a ∉ ctxAddrs ctx

theorem S.sep' {h : Heap α} {hd lm rm : Ptr} {ctx : List (Frame α)} {t : Shape α} (s : S h hd lm rm ctx t) : Sep hd (addrs t.items) ctx := by
  have := s.sep
  simp only [List.nodup_cons, List.mem_cons, List.mem_append, not_or, List.nodup_append] at this
  obtain ⟨⟨z1, z2, z3⟩, ⟨d1, d2⟩, n1, n2, n3⟩ := this
  exact ⟨z2, z3, Ne.symm z1, d1, d2, n1, n2, fun a ha hc => n3 a ha a hc rfl⟩

theorem Sep.par {hd : Ptr} {A : List Ptr} {ctx : List (Frame α)} (s : Sep hd A ctx) : ∀ a ∈ A, a ≠ parOf hd ctx := by
  intro a ha e
  have := parOf_mem hd ctx
  rw [← e] at this
  rcases List.mem_cons.1 this with rfl | h
  · exact s.hdA ha
  · exact s.disj a ha h

theorem Sep.par0 {hd : Ptr} {A : List Ptr} {ctx : List (Frame α)} (s : Sep hd A ctx) : parOf hd ctx ≠ 0 := by
  intro e
  have := parOf_mem hd ctx
  rw [e] at this
  rcases List.mem_cons.1 this with h | h
  · exact s.hd0 h.symm
  · exact s.zero' h

theorem ptr_mem {t : Shape α} (h : t.ptr ≠ 0) : t.ptr ∈ addrs t.items := by
  cases t with
  | nil => exact absurd rfl h
  | node a c l v r => simp [Shape.ptr, Shape.items, addrs]

theorem ptr_zero {t : Shape α} (h : 0 ∉ addrs t.items) : t.ptr = 0 ↔ t = .nil := by
  cases t with
  | nil => simp [Shape.ptr]
  | node a c l v r =>
    simp only [Shape.ptr, reduceCtorEq, iff_false]
    rintro rfl
    simp [Shape.items, addrs] at h

/-- changing the colour of the node in focus -/
theorem S.setRed {h : Heap α} {hd lm rm : Ptr} {ctx : List (Frame α)} {a : Ptr} {c : Bool} {l r : Shape α} {v : α} (s : S h hd lm rm ctx (.node a c l v r)) (c' : Bool) :
    ∃ h', setRed h a c' = some h' ∧ S h' hd lm rm ctx (.node a c' l v r) ∧ Off [a] h h' := by
  have sp := s.sep'
  obtain ⟨t1, t2, t3⟩ := s.tree
  have hA : ∀ x, x ∈ addrs (Shape.node a c l v r).items ↔ x ∈ addrs l.items ∨ x = a ∨ x ∈ addrs r.items := by intro x; simp [Shape.items, addrs]
  have hn := sp.nodA
  simp only [Shape.items, addrs, List.map_append, List.map_cons, List.nodup_append, List.nodup_cons, List.mem_cons] at hn
  refine ⟨put h a (some ⟨parOf hd ctx, l.ptr, r.ptr, c', some v⟩), by simp [Verif.Rb.setRed, t1], ?_, fun q hq => put_ne _ _ (by simpa using hq)⟩
  refine s.change rfl ⟨put_same _ _ _, t2.congr (fun x hx => put_ne _ _ ?_), t3.congr (fun x hx => put_ne _ _ ?_)⟩ ?_ (put_ne _ _ ?_)
  · rintro rfl; exact hn.2.2 x hx x (Or.inl rfl) rfl
  · rintro rfl; exact hn.2.1.1 hx
  · exact s.place.congr (put_ne _ _ (fun e => sp.hdA ((hA _).2 (Or.inr (Or.inl e))))) (fun x hx => put_ne _ _ (fun e => sp.disj a ((hA _).2 (Or.inr (Or.inl rfl))) (e ▸ hx)))
  · intro e; exact sp.zero ((hA _).2 (Or.inr (Or.inl e)))

/-- the cell of the parent after `y` has been put into the place -/
def newPar (ctx : List (Frame α)) (y : Ptr) (c : Cell α) : Cell α :=
  match ctx with
  | [] => { c with parent := y }
  | f :: _ => if f.isL then { c with left := y } else { c with right := y }

theorem RepC.par {h : Heap α} {hd lm rm : Ptr} {ctx : List (Frame α)} {p : Ptr} (hr : RepC h hd lm rm ctx p) : ∃ c, h (parOf hd ctx) = some c := by
  cases ctx with
  | nil => exact ⟨_, hr⟩
  | cons f ctx => exact ⟨_, hr.1⟩

/-- the root pointer is the pointer in the place only at the root -/
theorem rootP_ne {ctx : List (Frame α)} {p : Ptr} (hp : p ∉ ctxAddrs ctx) : rootP ctx p = p ↔ ctx = [] := by
  cases ctx with
  | nil => simp [rootP]
  | cons f ctx =>
    simp only [reduceCtorEq, iff_false]
    intro e
    have := rootP_mem ctx f p
    rw [e] at this
    exact hp this

/-- `replace` writes the parent -/
theorem replace_eq {h : Heap α} {hd lm rm : Ptr} {ctx : List (Frame α)} {x : Ptr} (y : Ptr) (hr : RepC h hd lm rm ctx x) {cx : Cell α} (hx : h x = some cx) (hp : cx.parent = parOf hd ctx)
    (hn : x ∉ ctxAddrs ctx) (h0 : x ≠ 0) {c : Cell α} (hc : h (parOf hd ctx) = some c) : replace hd x y h = some (put h (parOf hd ctx) (some (newPar ctx y c))) := by
  unfold replace root
  rw [hr.header]
  simp only [Option.bind_eq_bind, Option.bind_some, Option.pure_def]
  by_cases hx0 : ctx = []
  · subst hx0
    simp only [parOf] at hc
    rw [if_pos (show x = rootP [] x from rfl)]
    simp [setParent, hc, newPar, parOf]
  · rw [if_neg (fun e => hx0 ((rootP_ne hn).1 e.symm))]
    obtain ⟨f, ctx, rfl⟩ := List.exists_cons_of_ne_nil hx0
    simp only [parOf] at hp hc ⊢
    have h1 := hr.1
    have hl : decide (x = (if f.isL = true then x else f.sib.ptr)) = f.isL := by
      cases hf : f.isL
      · simp only [Bool.false_eq_true, if_false, decide_eq_false_iff_not]
        intro e
        by_cases e0 : f.sib.ptr = 0
        · exact h0 (e.trans e0)
        · exact hn (by rw [e, ctxAddrs]; simp [ptr_mem e0])
      · simp
    rw [isLeft, hx]
    simp only [Option.bind_eq_bind, Option.bind_some, Option.pure_def]
    rw [hp, hc]
    have hcl : c.left = if f.isL then x else f.sib.ptr := by rw [h1] at hc; rw [← Option.some.inj hc]
    simp only [Option.bind_some]
    rw [hcl, hl]
    cases hf : f.isL <;> simp [setLeft, setRight, hc, newPar, hf]

theorem RepC.setPtr' {h h' : Heap α} {hd lm rm : Ptr} {ctx : List (Frame α)} {p p' : Ptr} {A : List Ptr} (hr : RepC h hd lm rm ctx p) (sp : Sep hd A ctx) {c : Cell α} (hc : h (parOf hd ctx) = some c)
    (h1 : ∀ a ∈ hd :: ctxAddrs ctx, a ≠ parOf hd ctx → h' a = h a) (h3 : h' (parOf hd ctx) = some (newPar ctx p' c)) : RepC h' hd lm rm ctx p' := by
  refine hr.setPtr sp.hdC sp.nodC (fun a ha hne => h1 a (List.mem_cons_of_mem _ ha) hne) (fun hne => h1 hd (by simp) (Ne.symm hne)) ?_
  rw [h3, hc]
  cases ctx <;> rfl

/-- the subtree `b` gets the new parent `x` -/
theorem Rep.reparent {h h' : Heap α} {p x : Ptr} {b : Shape α} (hb : Rep h p b) (hn : (addrs b.items).Nodup) (h1 : ∀ a ∈ addrs b.items, a ≠ b.ptr → h' a = h a)
    (h2 : b.ptr ≠ 0 → h' b.ptr = (h b.ptr).map (fun c => { c with parent := x })) (h0 : 0 ∉ addrs b.items) : Rep h' x b := by
  cases b with
  | nil => trivial
  | node a c l v r =>
    obtain ⟨t1, t2, t3⟩ := hb
    simp only [Shape.ptr] at h1 h2
    have ha0 : a ≠ 0 := by rintro rfl; simp [Shape.items, addrs] at h0
    simp only [Shape.items, addrs, List.map_append, List.map_cons, List.nodup_append, List.nodup_cons, List.mem_cons] at hn
    refine ⟨by rw [h2 ha0, t1]; rfl, t2.congr (fun y hy => h1 y ?_ ?_), t3.congr (fun y hy => h1 y ?_ ?_)⟩
    · simp only [Shape.items, addrs, List.map_append, List.mem_append]; exact Or.inl hy
    · rintro rfl; exact hn.2.2 y hy y (Or.inl rfl) rfl
    · simp only [Shape.items, addrs, List.map_append, List.mem_append, List.map_cons, List.mem_cons]; exact Or.inr (Or.inr hy)
    · rintro rfl; exact hn.2.1.1 hy

/-- `if (p != nullptr) p->parent = x` for the root of a subtree -/
theorem setParent_opt {h : Heap α} {q x : Ptr} {b : Shape α} (hb : Rep h q b) (h0 : 0 ∉ addrs b.items) :
    ∃ h', (if b.ptr ≠ 0 then setParent h b.ptr x else some h) = some h' ∧ (∀ a, a ≠ b.ptr ∨ a = 0 → h' a = h a) ∧ (b.ptr ≠ 0 → h' b.ptr = (h b.ptr).map (fun c => { c with parent := x })) := by
  cases b with
  | nil => exact ⟨h, by simp [Shape.ptr], fun _ _ => rfl, fun e => absurd rfl e⟩
  | node a c l v r =>
    have ha0 : a ≠ 0 := by rintro rfl; simp [Shape.items, addrs] at h0
    refine ⟨put h a (some ⟨x, l.ptr, r.ptr, c, some v⟩), ?_, fun y hy => put_ne _ _ ?_, fun _ => ?_⟩
    · rw [if_pos (show (Shape.node a c l v r).ptr ≠ 0 from ha0)]
      show setParent h a x = _
      rw [setParent, hb.1]; rfl
    · rcases hy with hy | rfl
      · exact hy
      · exact Ne.symm ha0
    · simp only [Shape.ptr]; rw [put_same, hb.1]; rfl

/-- **left rotation** -/
theorem S.rotateLeft {h : Heap α} {hd lm rm : Ptr} {ctx : List (Frame α)} {x y : Ptr} {cx cy : Bool} {a b c : Shape α} {vx vy : α}
    (s : S h hd lm rm ctx (.node x cx a vx (.node y cy b vy c))) :
    ∃ h', rotateLeft hd x h = some h' ∧ S h' hd lm rm ctx (.node y cy (.node x cx a vx b) vy c) ∧ Off (hd :: addrs (plug ctx (.node x cx a vx (.node y cy b vy c))).items) h h' := by
  have sp := s.sep'
  obtain ⟨tx, ta, ty, tb, tc⟩ := s.tree
  have hA : ∀ q, q ∈ addrs (Shape.node x cx a vx (.node y cy b vy c)).items ↔ q ∈ addrs a.items ∨ q = x ∨ q ∈ addrs b.items ∨ q = y ∨ q ∈ addrs c.items := by
    intro q; simp [Shape.items, addrs]
  have hn := sp.nodA
  simp only [Shape.items, addrs, List.map_append, List.map_cons, List.nodup_append, List.nodup_cons, List.mem_cons, List.mem_append, not_or] at hn
  obtain ⟨na, ⟨⟨xb, xy, xc⟩, nb, ⟨yc, nc⟩, dbc⟩, da⟩ := hn
  change x ∉ addrs b.items at xb
  change x ∉ addrs c.items at xc
  change y ∉ addrs c.items at yc
  have yb : y ∉ addrs b.items := fun e => dbc y e y (Or.inl rfl) rfl
  have ax : x ∉ addrs a.items := fun e => da x e x (Or.inl rfl) rfl
  have ay : y ∉ addrs a.items := fun e => da y e y (Or.inr (Or.inr (Or.inl rfl))) rfl
  have b0 : 0 ∉ addrs b.items := fun e => sp.zero ((hA 0).2 (Or.inr (Or.inr (Or.inl e))))
  have x0 : x ≠ 0 := fun e => sp.zero ((hA 0).2 (Or.inr (Or.inl e.symm)))
  have y0 : y ≠ 0 := fun e => sp.zero ((hA 0).2 (Or.inr (Or.inr (Or.inr (Or.inl e.symm)))))
  have bpx : b.ptr ≠ x := by
    intro e
    exact xb (e ▸ ptr_mem (by rw [e]; exact x0))
  have bpy : b.ptr ≠ y := by
    intro e
    exact yb (e ▸ ptr_mem (by rw [e]; exact y0))
  have bp : ∀ q, q ∉ addrs b.items → q ≠ b.ptr ∨ q = 0 := by
    intro q hq
    by_cases e0 : q = 0
    · exact Or.inr e0
    · left; intro e; exact hq (e ▸ ptr_mem (by rw [← e]; exact e0))
  have Px := sp.par x ((hA x).2 (by simp))
  have Py := sp.par y ((hA y).2 (by simp))
  have P0 := sp.par0
  have Pb : ∀ q ∈ addrs b.items, q ≠ parOf hd ctx := fun q hq => sp.par q ((hA q).2 (by simp [hq]))
  have Pa : ∀ q ∈ addrs a.items, q ≠ parOf hd ctx := fun q hq => sp.par q ((hA q).2 (by simp [hq]))
  have Pc : ∀ q ∈ addrs c.items, q ≠ parOf hd ctx := fun q hq => sp.par q ((hA q).2 (by simp [hq]))
  have out : ∀ q ∈ hd :: ctxAddrs ctx, q ≠ x ∧ q ≠ y ∧ q ∉ addrs b.items := by
    intro q hq
    have key : q ∉ addrs (Shape.node x cx a vx (.node y cy b vy c)).items := by
      rcases List.mem_cons.1 hq with rfl | hq
      · exact sp.hdA
      · intro e; exact sp.disj q e hq
    rw [hA] at key
    simp only [not_or] at key
    exact ⟨key.2.1, key.2.2.2.1, key.2.2.1⟩
  -- the steps
  obtain ⟨h1, e1⟩ : ∃ h1, h1 = put h x (some ⟨parOf hd ctx, a.ptr, b.ptr, cx, some vx⟩) := ⟨_, rfl⟩
  have h1o : ∀ q, q ≠ x → h1 q = h q := fun q hq => by rw [e1, put_ne _ _ hq]
  obtain ⟨h2, e2, h2o, h2b⟩ := setParent_opt (x := x) (tb.congr (h' := h1) (fun q hq => h1o q (fun e => xb (e ▸ hq)))) b0
  have h2x : h2 x = some ⟨parOf hd ctx, a.ptr, b.ptr, cx, some vx⟩ := by rw [h2o x (Or.inl (Ne.symm bpx)), e1, put_same]
  have h2y : h2 y = some ⟨x, b.ptr, c.ptr, cy, some vy⟩ := by rw [h2o y (Or.inl (Ne.symm bpy)), h1o y (Ne.symm xy), ty]
  obtain ⟨h3, e3⟩ : ∃ h3, h3 = put h2 y (some ⟨parOf hd ctx, b.ptr, c.ptr, cy, some vy⟩) := ⟨_, rfl⟩
  have h3o : ∀ q, q ≠ x → q ≠ y → q ∉ addrs b.items → h3 q = h q := fun q q1 q2 q3 => by rw [e3, put_ne _ _ q2, h2o q (bp q q3), h1o q q1]
  have h3x : h3 x = some ⟨parOf hd ctx, a.ptr, b.ptr, cx, some vx⟩ := by rw [e3, put_ne _ _ xy, h2x]
  have hr3 : RepC h3 hd lm rm ctx x := s.place.congr (h3o hd (out hd (by simp)).1 (out hd (by simp)).2.1 (out hd (by simp)).2.2)
    (fun q hq => by have := out q (List.mem_cons_of_mem _ hq); exact h3o q this.1 this.2.1 this.2.2)
  obtain ⟨cp, hcp⟩ := s.place.par
  have hcp3 : h3 (parOf hd ctx) = some cp := by rw [h3o _ (Ne.symm Px) (Ne.symm Py) (fun e => Pb _ e rfl), hcp]
  have e4 := replace_eq y hr3 h3x rfl (fun e => sp.disj x ((hA x).2 (by simp)) e) x0 hcp3
  obtain ⟨h4, e4'⟩ : ∃ h4, h4 = put h3 (parOf hd ctx) (some (newPar ctx y cp)) := ⟨_, rfl⟩
  have h4y : h4 y = some ⟨parOf hd ctx, b.ptr, c.ptr, cy, some vy⟩ := by rw [e4', put_ne _ _ Py, e3, put_same]
  have h4x : h4 x = some ⟨parOf hd ctx, a.ptr, b.ptr, cx, some vx⟩ := by rw [e4', put_ne _ _ Px, h3x]
  obtain ⟨h5, e5⟩ : ∃ h5, h5 = put h4 y (some ⟨parOf hd ctx, x, c.ptr, cy, some vy⟩) := ⟨_, rfl⟩
  have h5x : h5 x = some ⟨parOf hd ctx, a.ptr, b.ptr, cx, some vx⟩ := by rw [e5, put_ne _ _ xy, h4x]
  obtain ⟨h6, e6⟩ : ∃ h6, h6 = put h5 x (some ⟨y, a.ptr, b.ptr, cx, some vx⟩) := ⟨_, rfl⟩
  have h6o : ∀ q, q ≠ x → q ≠ y → q ≠ parOf hd ctx → h6 q = h2 q := fun q q1 q2 q3 => by rw [e6, put_ne _ _ q1, e5, put_ne _ _ q2, e4', put_ne _ _ q3, e3, put_ne _ _ q2]
  have h6o' : ∀ q, q ≠ x → q ≠ y → q ≠ parOf hd ctx → q ∉ addrs b.items → h6 q = h q := fun q q1 q2 q3 q4 => by rw [h6o q q1 q2 q3, h2o q (bp q q4), h1o q q1]
  refine ⟨h6, ?_, ?_, ?_⟩
  · have f1 : setRight h x b.ptr = some h1 := by rw [setRight, tx, e1]; rfl
    have f3 : setParent h2 y (parOf hd ctx) = some h3 := by rw [setParent, h2y, e3]; rfl
    have f5 : setLeft h4 y x = some h5 := by rw [setLeft, h4y, e5]; rfl
    have f6 : setParent h5 x y = some h6 := by rw [setParent, h5x, e6]; rfl
    have h1y : h1 y = some ⟨x, b.ptr, c.ptr, cy, some vy⟩ := by rw [h1o y (Ne.symm xy), ty]
    have tx' : h x = some ⟨parOf hd ctx, a.ptr, y, cx, some vx⟩ := tx
    unfold Verif.Rb.rotateLeft
    simp only [tx', ty, Option.bind_eq_bind, Option.bind_some, f1, h1y]
    rw [e2]
    simp only [Option.bind_some, h2x, f3, e4, ← e4', f5, f6]
  · refine s.change ?_ ?_ ?_ ?_
    · simp [Shape.items]
    · refine ⟨?_, ⟨?_, ?_, ?_⟩, ?_⟩
      · rw [e6, put_ne _ _ (Ne.symm xy), e5, put_same]; rfl
      · rw [e6, put_same]
      · exact ta.congr (fun q hq => h6o' q (fun e => ax (e ▸ hq)) (fun e => ay (e ▸ hq)) (Pa q hq) (fun e => da q hq q (Or.inr (Or.inl e)) rfl))
      · refine tb.reparent nb (fun q hq hne => ?_) (fun hne => ?_) b0
        · rw [h6o q (fun e => xb (e ▸ hq)) (fun e => yb (e ▸ hq)) (Pb q hq), h2o q (Or.inl hne), h1o q (fun e => xb (e ▸ hq))]
        · rw [h6o _ bpx bpy (Pb _ (ptr_mem hne)), h2b hne, h1o _ bpx]
      · exact tc.congr (fun q hq => h6o' q (fun e => xc (e ▸ hq)) (fun e => yc (e ▸ hq)) (Pc q hq) (fun e => dbc q e q (Or.inr hq) rfl))
    · refine s.place.setPtr' sp hcp (fun q hq hne => ?_) ?_
      · have := out q hq; exact h6o' q this.1 this.2.1 hne this.2.2
      · rw [e6, put_ne _ _ (Ne.symm Px), e5, put_ne _ _ (Ne.symm Py), e4', put_same]; rfl
    · exact h6o' 0 (Ne.symm x0) (Ne.symm y0) (Ne.symm P0) b0
  · intro q hq
    have hm : ∀ z, z ∈ addrs (plug ctx (Shape.node x cx a vx (.node y cy b vy c))).items ↔ z ∈ addrs (Shape.node x cx a vx (.node y cy b vy c)).items ++ ctxAddrs ctx := fun z => (addrs_perm ctx _).mem_iff
    simp only [List.mem_cons, hm, List.mem_append, hA, not_or] at hq
    refine h6o' q hq.2.1.2.1 hq.2.1.2.2.2.1 (fun e => ?_) hq.2.1.2.2.1
    have := parOf_mem hd ctx
    rw [← e] at this
    rcases List.mem_cons.1 this with h | h
    · exact hq.1 h
    · exact hq.2.2 h

/-- **right rotation** -/
theorem S.rotateRight {h : Heap α} {hd lm rm : Ptr} {ctx : List (Frame α)} {x y : Ptr} {cx cy : Bool} {a b c : Shape α} {vx vy : α}
    (s : S h hd lm rm ctx (.node x cx (.node y cy c vy b) vx a)) :
    ∃ h', rotateRight hd x h = some h' ∧ S h' hd lm rm ctx (.node y cy c vy (.node x cx b vx a)) ∧ Off (hd :: addrs (plug ctx (.node x cx (.node y cy c vy b) vx a)).items) h h' := by
  have sp := s.sep'
  obtain ⟨tx, ⟨ty, tc, tb⟩, ta⟩ := s.tree
  have hA : ∀ q, q ∈ addrs (Shape.node x cx (.node y cy c vy b) vx a).items ↔ q ∈ addrs a.items ∨ q = x ∨ q ∈ addrs b.items ∨ q = y ∨ q ∈ addrs c.items := by
    intro q; simp only [Shape.items, addrs, List.map_append, List.map_cons, List.mem_append, List.mem_cons]; tauto
  have hn := sp.nodA
  simp only [Shape.items, addrs, List.map_append, List.map_cons, List.nodup_append, List.nodup_cons, List.mem_cons, List.mem_append, not_or] at hn
  obtain ⟨⟨nc, ⟨yb', nb⟩, dcb⟩, ⟨xa, na⟩, dl⟩ := hn
  have xb : x ∉ addrs b.items := fun e => dl x (Or.inr (Or.inr e)) x (Or.inl rfl) rfl
  have xc : x ∉ addrs c.items := fun e => dl x (Or.inl e) x (Or.inl rfl) rfl
  have xy : x ≠ y := fun e => dl y (Or.inr (Or.inl rfl)) x (Or.inl rfl) e.symm
  have yc : y ∉ addrs c.items := fun e => dcb y e y (Or.inl rfl) rfl
  have yb : y ∉ addrs b.items := yb'
  have ax : x ∉ addrs a.items := xa
  have ay : y ∉ addrs a.items := fun e => dl y (Or.inr (Or.inl rfl)) y (Or.inr e) rfl
  have b0 : 0 ∉ addrs b.items := fun e => sp.zero ((hA 0).2 (Or.inr (Or.inr (Or.inl e))))
  have x0 : x ≠ 0 := fun e => sp.zero ((hA 0).2 (Or.inr (Or.inl e.symm)))
  have y0 : y ≠ 0 := fun e => sp.zero ((hA 0).2 (Or.inr (Or.inr (Or.inr (Or.inl e.symm)))))
  have bpx : b.ptr ≠ x := by
    intro e
    exact xb (e ▸ ptr_mem (by rw [e]; exact x0))
  have bpy : b.ptr ≠ y := by
    intro e
    exact yb (e ▸ ptr_mem (by rw [e]; exact y0))
  have bp : ∀ q, q ∉ addrs b.items → q ≠ b.ptr ∨ q = 0 := by
    intro q hq
    by_cases e0 : q = 0
    · exact Or.inr e0
    · left; intro e; exact hq (e ▸ ptr_mem (by rw [← e]; exact e0))
  have Px := sp.par x ((hA x).2 (by simp))
  have Py := sp.par y ((hA y).2 (by simp))
  have P0 := sp.par0
  have Pb : ∀ q ∈ addrs b.items, q ≠ parOf hd ctx := fun q hq => sp.par q ((hA q).2 (by simp [hq]))
  have Pa : ∀ q ∈ addrs a.items, q ≠ parOf hd ctx := fun q hq => sp.par q ((hA q).2 (by simp [hq]))
  have Pc : ∀ q ∈ addrs c.items, q ≠ parOf hd ctx := fun q hq => sp.par q ((hA q).2 (by simp [hq]))
  have out : ∀ q ∈ hd :: ctxAddrs ctx, q ≠ x ∧ q ≠ y ∧ q ∉ addrs b.items := by
    intro q hq
    have key : q ∉ addrs (Shape.node x cx (.node y cy c vy b) vx a).items := by
      rcases List.mem_cons.1 hq with rfl | hq
      · exact sp.hdA
      · intro e; exact sp.disj q e hq
    rw [hA] at key
    simp only [not_or] at key
    exact ⟨key.2.1, key.2.2.2.1, key.2.2.1⟩
  -- the steps
  obtain ⟨h1, e1⟩ : ∃ h1, h1 = put h x (some ⟨parOf hd ctx, b.ptr, a.ptr, cx, some vx⟩) := ⟨_, rfl⟩
  have h1o : ∀ q, q ≠ x → h1 q = h q := fun q hq => by rw [e1, put_ne _ _ hq]
  obtain ⟨h2, e2, h2o, h2b⟩ := setParent_opt (x := x) (tb.congr (h' := h1) (fun q hq => h1o q (fun e => xb (e ▸ hq)))) b0
  have h2x : h2 x = some ⟨parOf hd ctx, b.ptr, a.ptr, cx, some vx⟩ := by rw [h2o x (Or.inl (Ne.symm bpx)), e1, put_same]
  have h2y : h2 y = some ⟨x, c.ptr, b.ptr, cy, some vy⟩ := by rw [h2o y (Or.inl (Ne.symm bpy)), h1o y (Ne.symm xy), ty]
  obtain ⟨h3, e3⟩ : ∃ h3, h3 = put h2 y (some ⟨parOf hd ctx, c.ptr, b.ptr, cy, some vy⟩) := ⟨_, rfl⟩
  have h3o : ∀ q, q ≠ x → q ≠ y → q ∉ addrs b.items → h3 q = h q := fun q q1 q2 q3 => by rw [e3, put_ne _ _ q2, h2o q (bp q q3), h1o q q1]
  have h3x : h3 x = some ⟨parOf hd ctx, b.ptr, a.ptr, cx, some vx⟩ := by rw [e3, put_ne _ _ xy, h2x]
  have hr3 : RepC h3 hd lm rm ctx x := s.place.congr (h3o hd (out hd (by simp)).1 (out hd (by simp)).2.1 (out hd (by simp)).2.2)
    (fun q hq => by have := out q (List.mem_cons_of_mem _ hq); exact h3o q this.1 this.2.1 this.2.2)
  obtain ⟨cp, hcp⟩ := s.place.par
  have hcp3 : h3 (parOf hd ctx) = some cp := by rw [h3o _ (Ne.symm Px) (Ne.symm Py) (fun e => Pb _ e rfl), hcp]
  have e4 := replace_eq y hr3 h3x rfl (fun e => sp.disj x ((hA x).2 (by simp)) e) x0 hcp3
  obtain ⟨h4, e4'⟩ : ∃ h4, h4 = put h3 (parOf hd ctx) (some (newPar ctx y cp)) := ⟨_, rfl⟩
  have h4y : h4 y = some ⟨parOf hd ctx, c.ptr, b.ptr, cy, some vy⟩ := by rw [e4', put_ne _ _ Py, e3, put_same]
  have h4x : h4 x = some ⟨parOf hd ctx, b.ptr, a.ptr, cx, some vx⟩ := by rw [e4', put_ne _ _ Px, h3x]
  obtain ⟨h5, e5⟩ : ∃ h5, h5 = put h4 y (some ⟨parOf hd ctx, c.ptr, x, cy, some vy⟩) := ⟨_, rfl⟩
  have h5x : h5 x = some ⟨parOf hd ctx, b.ptr, a.ptr, cx, some vx⟩ := by rw [e5, put_ne _ _ xy, h4x]
  obtain ⟨h6, e6⟩ : ∃ h6, h6 = put h5 x (some ⟨y, b.ptr, a.ptr, cx, some vx⟩) := ⟨_, rfl⟩
  have h6o : ∀ q, q ≠ x → q ≠ y → q ≠ parOf hd ctx → h6 q = h2 q := fun q q1 q2 q3 => by rw [e6, put_ne _ _ q1, e5, put_ne _ _ q2, e4', put_ne _ _ q3, e3, put_ne _ _ q2]
  have h6o' : ∀ q, q ≠ x → q ≠ y → q ≠ parOf hd ctx → q ∉ addrs b.items → h6 q = h q := fun q q1 q2 q3 q4 => by rw [h6o q q1 q2 q3, h2o q (bp q q4), h1o q q1]
  refine ⟨h6, ?_, ?_, ?_⟩
  · have f1 : setLeft h x b.ptr = some h1 := by rw [setLeft, tx, e1]; rfl
    have f3 : setParent h2 y (parOf hd ctx) = some h3 := by rw [setParent, h2y, e3]; rfl
    have f5 : setRight h4 y x = some h5 := by rw [setRight, h4y, e5]; rfl
    have f6 : setParent h5 x y = some h6 := by rw [setParent, h5x, e6]; rfl
    have h1y : h1 y = some ⟨x, c.ptr, b.ptr, cy, some vy⟩ := by rw [h1o y (Ne.symm xy), ty]
    have tx' : h x = some ⟨parOf hd ctx, y, a.ptr, cx, some vx⟩ := tx
    unfold Verif.Rb.rotateRight
    simp only [tx', ty, Option.bind_eq_bind, Option.bind_some, f1, h1y]
    rw [e2]
    simp only [Option.bind_some, h2x, f3, e4, ← e4', f5, f6]
  · refine s.change ?_ ?_ ?_ ?_
    · simp [Shape.items]
    · refine ⟨?_, ?_, ?_, ?_, ?_⟩
      · rw [e6, put_ne _ _ (Ne.symm xy), e5, put_same]; rfl
      · exact tc.congr (fun q hq => h6o' q (fun e => xc (e ▸ hq)) (fun e => yc (e ▸ hq)) (Pc q hq) (fun e => dcb q hq q (Or.inr e) rfl))
      · rw [e6, put_same]
      · refine tb.reparent nb (fun q hq hne => ?_) (fun hne => ?_) b0
        · rw [h6o q (fun e => xb (e ▸ hq)) (fun e => yb (e ▸ hq)) (Pb q hq), h2o q (Or.inl hne), h1o q (fun e => xb (e ▸ hq))]
        · rw [h6o _ bpx bpy (Pb _ (ptr_mem hne)), h2b hne, h1o _ bpx]
      · exact ta.congr (fun q hq => h6o' q (fun e => ax (e ▸ hq)) (fun e => ay (e ▸ hq)) (Pa q hq) (fun e => dl q (Or.inr (Or.inr e)) q (Or.inr hq) rfl))
    · refine s.place.setPtr' sp hcp (fun q hq hne => ?_) ?_
      · have := out q hq; exact h6o' q this.1 this.2.1 hne this.2.2
      · rw [e6, put_ne _ _ (Ne.symm Px), e5, put_ne _ _ (Ne.symm Py), e4', put_same]; rfl
    · exact h6o' 0 (Ne.symm x0) (Ne.symm y0) (Ne.symm P0) b0
  · intro q hq
    have hm : ∀ z, z ∈ addrs (plug ctx (Shape.node x cx (.node y cy c vy b) vx a)).items ↔ z ∈ addrs (Shape.node x cx (.node y cy c vy b) vx a).items ++ ctxAddrs ctx := fun z => (addrs_perm ctx _).mem_iff
    simp only [List.mem_cons, hm, List.mem_append, hA, not_or] at hq
    refine h6o' q hq.2.1.2.1 hq.2.1.2.2.2.1 (fun e => ?_) hq.2.1.2.2.1
    have := parOf_mem hd ctx
    rw [← e] at this
    rcases List.mem_cons.1 this with h | h
    · exact hq.1 h
    · exact hq.2.2 h

end Verif.Rb
