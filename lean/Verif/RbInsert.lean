import Verif.RbRotate

/-!
# Red-black invariant and rebalancing after an insertion
-/

namespace Verif.Rb

variable {α : Type}

/-- red-black trees with the given number of black nodes on every way down: no red node has a red child -/
inductive RB : Shape α → Nat → Prop
  | nil : RB .nil 0
  | red {a : Ptr} {l r : Shape α} {v : α} {n : Nat} : RB l n → RB r n → l.isRed = false → r.isRed = false → RB (.node a true l v r) n
  | black {a : Ptr} {l r : Shape α} {v : α} {n : Nat} : RB l n → RB r n → RB (.node a false l v r) (n + 1)

/-- is the parent of the place red?  (The header counts as red, so that the root must be black.) -/
def parRed : List (Frame α) → Bool
  | [] => true
  | f :: _ => f.red

/-- a place for a tree with `n` black nodes on every way down -/
def RBC : List (Frame α) → Nat → Prop
  | [], _ => True
  | f :: ctx, n => RB f.sib n ∧ (f.red = true → f.sib.isRed = false ∧ parRed ctx = false) ∧ RBC ctx (if f.red then n else n + 1)

theorem RB.fill {f : Frame α} {t : Shape α} {n : Nat} (ht : RB t n) (hs : RB f.sib n) (hc : f.red = true → f.sib.isRed = false ∧ t.isRed = false) : RB (f.fill t) (if f.red then n else n + 1) := by
  obtain ⟨fl, a, c, v, sib⟩ := f
  cases fl <;> cases c <;> simp only [Frame.fill, Bool.false_eq_true, if_false, if_true]
  · exact .black hs ht
  · exact .red hs ht (hc rfl).1 (hc rfl).2
  · exact .black ht hs
  · exact .red ht hs (hc rfl).2 (hc rfl).1

theorem fill_isRed (f : Frame α) (t : Shape α) : (f.fill t).isRed = f.red := by
  cases hf : f.isL <;> simp [Frame.fill, hf, Shape.isRed]

theorem RB.plug : ∀ {ctx : List (Frame α)} {t : Shape α} {n : Nat}, RBC ctx n → RB t n → (t.isRed = true → parRed ctx = false) → ∃ m, RB (plug ctx t) m ∧ (plug ctx t).isRed = false := by
  intro ctx
  induction ctx with
  | nil =>
    intro t n _ ht hc
    refine ⟨n, ht, ?_⟩
    cases hr : t.isRed
    · exact hr
    · exact absurd (hc hr) (by simp [parRed])
  | cons f ctx ih =>
    intro t n hC ht hc
    obtain ⟨h1, h2, h3⟩ := hC
    refine ih h3 (ht.fill h1 (fun hf => ⟨(h2 hf).1, ?_⟩)) (fun hr => ?_)
    · cases hr : t.isRed
      · rfl
      · have := hc hr
        simp only [parRed] at this
        rw [hf] at this; exact absurd this (by simp)
    · rw [fill_isRed] at hr; exact (h2 hr).2

/-- the same when only the root may be red -/
theorem RB.plug' {ctx : List (Frame α)} {t : Shape α} {n : Nat} (hC : RBC ctx n) (ht : RB t n) (hc : t.isRed = true → ctx = [] ∨ parRed ctx = false) : ∃ m, RB (Verif.Rb.plug ctx t) m := by
  cases ctx with
  | nil => exact ⟨n, ht⟩
  | cons f ctx =>
    obtain ⟨m, hm, _⟩ := RB.plug hC ht (fun hr => (hc hr).resolve_left (by simp))
    exact ⟨m, hm⟩

theorem RB.unplug : ∀ {ctx : List (Frame α)} {t : Shape α} {m : Nat}, RB (Verif.Rb.plug ctx t) m → (Verif.Rb.plug ctx t).isRed = false →
    ∃ n, RBC ctx n ∧ RB t n ∧ (t.isRed = true → parRed ctx = false) := by
  intro ctx
  induction ctx with
  | nil => intro t m h1 h2; exact ⟨m, trivial, h1, fun e => by rw [Verif.Rb.plug] at h2; rw [e] at h2; exact absurd h2 (by simp)⟩
  | cons f ctx ih =>
    intro t m h1 h2
    obtain ⟨n, hC, ht, hc⟩ := ih (t := f.fill t) h1 h2
    rw [fill_isRed] at hc
    obtain ⟨fl, a, c, v, sib⟩ := f
    cases fl <;> cases c <;> simp only [Frame.fill, Bool.false_eq_true, if_false, if_true] at ht <;> cases ht
    · rename_i n h1 h2
      exact ⟨n, ⟨h1, by simp, hC⟩, h2, fun _ => rfl⟩
    · rename_i h3 h4 h1 h2
      exact ⟨n, ⟨h1, fun _ => ⟨h3, hc rfl⟩, hC⟩, h2, fun e => by rw [h4] at e; exact absurd e (by simp)⟩
    · rename_i n h1 h2
      exact ⟨n, ⟨h2, by simp, hC⟩, h1, fun _ => rfl⟩
    · rename_i h3 h4 h1 h2
      exact ⟨n, ⟨h2, fun _ => ⟨h4, hc rfl⟩, hC⟩, h1, fun e => by rw [h3] at e; exact absurd e (by simp)⟩

/-! ## reading -/

theorem S.cell {h : Heap α} {hd lm rm : Ptr} {ctx : List (Frame α)} {a : Ptr} {c : Bool} {l r : Shape α} {v : α} (s : S h hd lm rm ctx (.node a c l v r)) :
    h a = some ⟨parOf hd ctx, l.ptr, r.ptr, c, some v⟩ := s.tree.1

theorem S.root {h : Heap α} {hd lm rm : Ptr} {ctx : List (Frame α)} {t : Shape α} (s : S h hd lm rm ctx t) : root h hd = some (rootP ctx t.ptr) := by
  rw [Verif.Rb.root, s.place.header]; rfl

theorem S.node0 {h : Heap α} {hd lm rm : Ptr} {ctx : List (Frame α)} {a : Ptr} {c : Bool} {l r : Shape α} {v : α} (s : S h hd lm rm ctx (.node a c l v r)) : a ≠ 0 := by
  rintro rfl
  exact s.sep'.zero (by simp [Shape.items, addrs])

theorem S.nodeHd {h : Heap α} {hd lm rm : Ptr} {ctx : List (Frame α)} {a : Ptr} {c : Bool} {l r : Shape α} {v : α} (s : S h hd lm rm ctx (.node a c l v r)) : a ≠ hd := by
  rintro rfl
  exact s.sep'.hdA (by simp [Shape.items, addrs])

theorem S.rootNe {h : Heap α} {hd lm rm : Ptr} {f : Frame α} {ctx : List (Frame α)} {t : Shape α} (s : S h hd lm rm (f :: ctx) t) : t.ptr ≠ rootP (f :: ctx) t.ptr := by
  have sp := s.sep'
  intro e
  by_cases h0 : t.ptr = 0
  · have := rootP_mem ctx f t.ptr
    rw [← e, h0] at this
    exact sp.zero' this
  · exact absurd ((rootP_ne (sp.disj _ (ptr_mem h0))).1 e.symm) (by simp)

theorem S.isRedOr {h : Heap α} {hd lm rm : Ptr} {ctx : List (Frame α)} {t : Shape α} (s : S h hd lm rm ctx t) : isRedOr h t.ptr = some t.isRed := by
  cases t with
  | nil => simp [Verif.Rb.isRedOr, Shape.ptr, Shape.isRed]
  | node a c l v r =>
    rw [Verif.Rb.isRedOr, if_pos (show (Shape.node a c l v r).ptr ≠ 0 from s.node0)]
    show isRed h a = _
    rw [isRed, s.cell]; rfl

/-- the frame of the place -/
theorem S.frame {h : Heap α} {hd lm rm : Ptr} {f : Frame α} {ctx : List (Frame α)} {t : Shape α} (s : S h hd lm rm (f :: ctx) t) :
    h f.a = some ⟨parOf hd ctx, if f.isL then t.ptr else f.sib.ptr, if f.isL then f.sib.ptr else t.ptr, f.red, some f.v⟩ := s.place.1

theorem S.sibNe {h : Heap α} {hd lm rm : Ptr} {f : Frame α} {ctx : List (Frame α)} {t : Shape α} (s : S h hd lm rm (f :: ctx) t) (h0 : t.ptr ≠ 0) : t.ptr ≠ f.sib.ptr := by
  intro e
  have sp := s.sep'
  have h1 : f.sib.ptr ≠ 0 := e ▸ h0
  exact sp.disj _ (ptr_mem h0) (by rw [e, ctxAddrs]; simp [ptr_mem h1])

theorem S.isLeft {h : Heap α} {hd lm rm : Ptr} {f : Frame α} {ctx : List (Frame α)} {a : Ptr} {c : Bool} {l r : Shape α} {v : α} (s : S h hd lm rm (f :: ctx) (.node a c l v r)) : isLeft h a = some f.isL := by
  have hf := s.frame
  have hc := s.cell
  have hne := s.sibNe s.node0
  simp only [Shape.ptr] at hf hne
  rw [Verif.Rb.isLeft, hc]
  simp only [parOf, Option.bind_eq_bind, Option.bind_some, hf]
  cases hfl : f.isL <;> simp [hne]

theorem Off.mono {A B : List Ptr} {h h' : Heap α} (a : Off A h h') (hs : ∀ x ∈ A, x ∈ B) : Off B h h' := fun q hq => a q (fun e => hq (hs q e))

theorem focus_mem (ctx : List (Frame α)) (t : Shape α) (hd : Ptr) {a : Ptr} (ha : a ∈ addrs t.items) : ∀ x ∈ [a], x ∈ owned hd (plug ctx t).items := by
  intro x hx
  rw [List.mem_singleton.1 hx, owned]
  exact List.mem_cons_of_mem _ ((addrs_perm ctx t).mem_iff.2 (List.mem_append.2 (Or.inl ha)))

/-- changing a colour, with the addresses of the whole tree -/
theorem S.setRed' {h : Heap α} {hd lm rm : Ptr} {ctx : List (Frame α)} {a : Ptr} {c : Bool} {l r : Shape α} {v : α} (s : S h hd lm rm ctx (.node a c l v r)) (c' : Bool) :
    ∃ h', Verif.Rb.setRed h a c' = some h' ∧ S h' hd lm rm ctx (.node a c' l v r) ∧ Off (owned hd (plug ctx (.node a c l v r)).items) h h' := by
  obtain ⟨h', h1, h2, h3⟩ := s.setRed c'
  exact ⟨h', h1, h2, h3.mono (focus_mem ctx _ hd (by simp [Shape.items, addrs]))⟩

/-! ## rebalancing after an insertion -/

/-- parent and node on the left side, uncle black: colours and one rotation -/
theorem finishL {h : Heap α} {hd lm rm : Ptr} {ctx : List (Frame α)} {z q g : Ptr} {A B C u : Shape α} {vz vq vg : α} {cz cq cg : Bool} (L : List (Ptr × α))
    (s : S h hd lm rm ctx (.node g cg (.node q cq (.node z cz A vz B) vq C) vg u)) (hL : L = (plug ctx (.node g cg (.node q cq (.node z cz A vz B) vq C) vg u)).items) :
    ∃ h', (do
      let cx ← h z
      let h ← setRed h cx.parent false
      let cx ← h z
      let cp ← h cx.parent
      let h ← setRed h cp.parent true
      let cx ← h z
      let cp ← h cx.parent
      rotateRight hd cp.parent h) = some h' ∧
      S h' hd lm rm ctx (.node q false (.node z cz A vz B) vq (.node g true C vg u)) ∧ Off (owned hd L) h h' := by
  obtain ⟨h1, e1, s1, o1⟩ := (S.left.1 s).setRed' false
  obtain ⟨h2, e2, s2, o2⟩ := (S.left.2 s1).setRed' true
  obtain ⟨h3, e3, s3, o3⟩ := s2.rotateRight
  refine ⟨h3, ?_, s3, ?_⟩
  · have c0 := (S.left.1 (S.left.1 s)).cell
    have c1 := (S.left.1 s1).cell
    have c1' := s1.cell
    have c2 := (S.left.1 (S.left.1 s2)).cell
    have c2' := (S.left.1 s2).cell
    simp only [parOf] at c0 c1 c1' c2 c2'
    simp only [c0, c1, c1', c2, c2', Option.bind_eq_bind, Option.bind_some, e1, e2, e3]
  · have i1 : ∀ t : Shape α, t.items = (Shape.node g cg (.node q cq (.node z cz A vz B) vq C) vg u).items → (plug ctx t).items = L := fun t ht => by rw [hL, plug_items, ht, ← plug_items]
    have o3' : Off (owned hd (plug ctx (Shape.node g true (.node q false (.node z cz A vz B) vq C) vg u)).items) h2 h3 := o3
    rw [i1 _ (by simp [Shape.items])] at o3'
    rw [i1 _ (by simp [Shape.items])] at o2
    rw [show plug (⟨true, g, cg, vg, u⟩ :: ctx) (Shape.node q cq (.node z cz A vz B) vq C) = plug ctx (Shape.node g cg (.node q cq (.node z cz A vz B) vq C) vg u) from rfl, i1 _ (by simp [Shape.items])] at o1
    exact (o1.trans o2).trans o3'

/-- the mirror image -/
theorem finishR {h : Heap α} {hd lm rm : Ptr} {ctx : List (Frame α)} {z q g : Ptr} {A B C u : Shape α} {vz vq vg : α} {cz cq cg : Bool} (L : List (Ptr × α))
    (s : S h hd lm rm ctx (.node g cg u vg (.node q cq C vq (.node z cz A vz B)))) (hL : L = (plug ctx (.node g cg u vg (.node q cq C vq (.node z cz A vz B)))).items) :
    ∃ h', (do
      let cx ← h z
      let h ← setRed h cx.parent false
      let cx ← h z
      let cp ← h cx.parent
      let h ← setRed h cp.parent true
      let cx ← h z
      let cp ← h cx.parent
      rotateLeft hd cp.parent h) = some h' ∧
      S h' hd lm rm ctx (.node q false (.node g true u vg C) vq (.node z cz A vz B)) ∧ Off (owned hd L) h h' := by
  obtain ⟨h1, e1, s1, o1⟩ := (S.right.1 s).setRed' false
  obtain ⟨h2, e2, s2, o2⟩ := (S.right.2 s1).setRed' true
  obtain ⟨h3, e3, s3, o3⟩ := s2.rotateLeft
  refine ⟨h3, ?_, s3, ?_⟩
  · have c0 := (S.right.1 (S.right.1 s)).cell
    have c1 := (S.right.1 s1).cell
    have c1' := s1.cell
    have c2 := (S.right.1 (S.right.1 s2)).cell
    have c2' := (S.right.1 s2).cell
    simp only [parOf] at c0 c1 c1' c2 c2'
    simp only [c0, c1, c1', c2, c2', Option.bind_eq_bind, Option.bind_some, e1, e2, e3]
  · have i1 : ∀ t : Shape α, t.items = (Shape.node g cg u vg (.node q cq C vq (.node z cz A vz B))).items → (plug ctx t).items = L := fun t ht => by rw [hL, plug_items, ht, ← plug_items]
    have o3' : Off (owned hd (plug ctx (Shape.node g true u vg (.node q false C vq (.node z cz A vz B)))).items) h2 h3 := o3
    rw [i1 _ (by simp [Shape.items])] at o3'
    rw [i1 _ (by simp [Shape.items])] at o2
    rw [show plug (⟨false, g, cg, vg, u⟩ :: ctx) (Shape.node q cq C vq (.node z cz A vz B)) = plug ctx (Shape.node g cg u vg (.node q cq C vq (.node z cz A vz B))) from rfl, i1 _ (by simp [Shape.items])] at o1
    exact (o1.trans o2).trans o3'

/-- the colours are changed when the uncle is red; `b` tells on which side the parent is -/
theorem recolour {h : Heap α} {hd lm rm : Ptr} {ctx : List (Frame α)} {x p g w : Ptr} {T : Shape α} {wl wr : Shape α} {vp vg vw : α} {b fl : Bool} {cp cg cw : Bool} {ps : Shape α} (L : List (Ptr × α))
    (s : S h hd lm rm (⟨fl, p, cp, vp, ps⟩ :: ⟨b, g, cg, vg, .node w cw wl vw wr⟩ :: ctx) T)
    (hL : L = (plug (⟨fl, p, cp, vp, ps⟩ :: ⟨b, g, cg, vg, .node w cw wl vw wr⟩ :: ctx) T).items) :
    ∃ h1 h2 h3, setRed h p false = some h1 ∧ setRed h1 w false = some h2 ∧ setRed h2 g true = some h3 ∧
      S h3 hd lm rm ctx (Frame.fill ⟨b, g, true, vg, .node w false wl vw wr⟩ (Frame.fill ⟨fl, p, false, vp, ps⟩ T)) ∧ Off (owned hd L) h h3 := by
  have i1 : ∀ (cp cg cw : Bool), (plug (⟨fl, p, cp, vp, ps⟩ :: ⟨b, g, cg, vg, .node w cw wl vw wr⟩ :: ctx) T).items = L := fun cp' cg' cw' => by
    rw [hL, plug_items, plug_items]; simp [before, after, Shape.items]
  have key1 : ∃ h1, setRed h p false = some h1 ∧ S h1 hd lm rm (⟨fl, p, false, vp, ps⟩ :: ⟨b, g, cg, vg, .node w cw wl vw wr⟩ :: ctx) T ∧ Off (owned hd L) h h1 := by
    have s' := S.focus.1 s
    rw [← i1 cp cg cw]
    cases fl
    · rw [fill_isR rfl] at s'
      obtain ⟨h1, e1, s1, o1⟩ := s'.setRed' false
      exact ⟨h1, e1, S.right.1 s1, o1⟩
    · rw [fill_isL rfl] at s'
      obtain ⟨h1, e1, s1, o1⟩ := s'.setRed' false
      exact ⟨h1, e1, S.left.1 s1, o1⟩
  obtain ⟨h1, e1, s1, o1⟩ := key1
  have key2 : ∃ h2, setRed h1 w false = some h2 ∧ S h2 hd lm rm (⟨fl, p, false, vp, ps⟩ :: ⟨b, g, cg, vg, .node w false wl vw wr⟩ :: ctx) T ∧ Off (owned hd L) h1 h2 := by
    have s' := S.focus.1 (S.focus.1 s1)
    rw [← i1 false cg cw]
    cases b
    · rw [fill_isR rfl] at s'
      obtain ⟨h2, e2, s2, o2⟩ := (S.left.1 s').setRed' false
      exact ⟨h2, e2, S.focus.2 (S.right.1 (S.left.2 s2)), o2⟩
    · rw [fill_isL rfl] at s'
      obtain ⟨h2, e2, s2, o2⟩ := (S.right.1 s').setRed' false
      exact ⟨h2, e2, S.focus.2 (S.left.1 (S.right.2 s2)), o2⟩
  obtain ⟨h2, e2, s2, o2⟩ := key2
  have key3 : ∃ h3, setRed h2 g true = some h3 ∧ S h3 hd lm rm (⟨fl, p, false, vp, ps⟩ :: ⟨b, g, true, vg, .node w false wl vw wr⟩ :: ctx) T ∧ Off (owned hd L) h2 h3 := by
    have s' := S.focus.1 (S.focus.1 s2)
    rw [← i1 false cg false]
    cases b
    · rw [fill_isR rfl] at s'
      obtain ⟨h3, e3, s3, o3⟩ := s'.setRed' true
      exact ⟨h3, e3, S.focus.2 (S.right.1 s3), o3⟩
    · rw [fill_isL rfl] at s'
      obtain ⟨h3, e3, s3, o3⟩ := s'.setRed' true
      exact ⟨h3, e3, S.focus.2 (S.left.1 s3), o3⟩
  obtain ⟨h3, e3, s3, o3⟩ := key3
  exact ⟨h1, h2, h3, e1, e2, e3, S.focus.1 (S.focus.1 s3), (o1.trans o2).trans o3⟩

/-- the loop of `rb_tree_insert_rebalance` -/
theorem insertLoop_ok {hd lm rm : Ptr} (L : List (Ptr × α)) : ∀ (k : Nat) (ctx : List (Frame α)), ctx.length ≤ k → ∀ (h : Heap α) (x : Ptr) (l r : Shape α) (v : α) (n : Nat),
    S h hd lm rm ctx (.node x true l v r) → L = (plug ctx (.node x true l v r)).items → RB l n → RB r n → l.isRed = false → r.isRed = false → RBC ctx n →
    ∃ h' T m, insertLoop hd (k + 1) x h = some h' ∧ S h' hd lm rm [] T ∧ T.items = L ∧ RB T m ∧ Off (owned hd L) h h' := by
  intro k
  induction k using Nat.strong_induction_on with
  | _ k ih =>
  intro ctx hk h x l r v n s hL hl hr lr rr hC
  have hroot := s.root
  cases ctx with
  | nil =>
    refine ⟨h, .node x true l v r, n, ?_, s, hL.symm, .red hl hr lr rr, Off.refl _ _⟩
    rw [insertLoop, hroot]
    simp [rootP, Shape.ptr]
  | cons f ctx =>
    have hne : x ≠ _ := s.rootNe
    have hcx := s.cell
    have hfr := s.frame
    have hxl := s.isLeft
    obtain ⟨fl, p, cp, vp, ps⟩ := f
    simp only [parOf] at hcx
    simp only at hfr hxl
    obtain ⟨hC1, hC2, hC3⟩ := hC
    simp only at hC1 hC2 hC3
    have hnode : RB (Shape.node x true l v r) n := .red hl hr lr rr
    cases cp with
    | false =>
      obtain ⟨m, hm, _⟩ := RB.plug (ctx := ⟨fl, p, false, vp, ps⟩ :: ctx) ⟨hC1, hC2, hC3⟩ hnode (fun _ => rfl)
      refine ⟨h, _, m, ?_, S.whole.1 s, hL.symm, hm, Off.refl _ _⟩
      rw [insertLoop, hroot]
      simp only [Option.bind_eq_bind, Option.bind_some]
      rw [if_neg hne]
      simp [hcx, isRed, hfr]
    | true =>
      obtain ⟨psb, pr⟩ := hC2 rfl
      cases ctx with
      | nil => simp [parRed] at pr
      | cons g ctx =>
        obtain ⟨gl, ga, cg, vg, u⟩ := g
        simp only [parRed] at pr
        subst pr
        have s1 := S.focus.1 s
        have hgf := s1.frame
        have hur : isRedOr h u.ptr = some u.isRed := by
          have s2 := S.focus.1 s1
          cases gl
          · rw [fill_isR rfl] at s2; exact (S.left.1 s2).isRedOr
          · rw [fill_isL rfl] at s2; exact (S.right.1 s2).isRedOr
        have hpl : isLeft h p = some gl := by
          have s2 := s1
          cases fl
          · rw [fill_isR rfl] at s2; exact s2.isLeft
          · rw [fill_isL rfl] at s2; exact s2.isLeft
        obtain ⟨hD1, hD2, hD3⟩ := hC3
        simp only [Bool.false_eq_true, if_false, if_true] at hD1 hD3
        simp only [fill_ptr, parOf] at hgf hfr
        cases hu : u.isRed with
        | true =>
          cases u with
          | nil => simp [Shape.isRed] at hu
          | node w cw wl vw wr =>
            simp only [Shape.isRed] at hu
            subst hu
            obtain ⟨h1, h2, h3, e1, e2, e3, s3, o3⟩ := recolour (x := x) L s hL
            cases hD1 with
            | red hwl hwr wlr wrr =>
            have hfill : RB (Frame.fill ⟨fl, p, false, vp, ps⟩ (.node x true l v r)) (n + 1) := RB.fill (f := ⟨fl, p, false, vp, ps⟩) hnode hC1 (by simp)
            have hw : RB (Shape.node w false wl vw wr) (n + 1) := .black hwl hwr
            obtain ⟨kk, rfl⟩ : ∃ kk, k = kk + 1 := ⟨k - 1, by simp at hk; omega⟩
            have hi : (plug ctx (Frame.fill ⟨gl, ga, true, vg, .node w false wl vw wr⟩ (Frame.fill ⟨fl, p, false, vp, ps⟩ (.node x true l v r)))).items = L := by
              rw [hL, plug, plug, plug_items, plug_items]
              cases gl <;> cases fl <;> simp [Frame.fill, Shape.items]
            have hlen : ctx.length ≤ kk := by simp at hk; omega
            have prog : insertLoop hd (kk + 1 + 1) x h = insertLoop hd (kk + 1) ga h3 := by
              conv_lhs => rw [insertLoop]
              rw [hroot]
              simp only [Option.bind_eq_bind, Option.bind_some]
              rw [if_neg hne]
              have hpr : isRed h p = some true := by rw [isRed, hfr]; rfl
              simp only [hcx, hpr, Option.bind_some, hpl, hfr, hgf]
              cases gl
              · simp only [Shape.ptr, Bool.false_eq_true, if_false] at hur ⊢
                simp [hur, Shape.isRed, e1, e2, e3]
              · simp only [Shape.ptr, if_true] at hur ⊢
                simp [hur, Shape.isRed, e1, e2, e3]
            have main : ∀ ll rr', Frame.fill ⟨gl, ga, true, vg, .node w false wl vw wr⟩ (Frame.fill ⟨fl, p, false, vp, ps⟩ (.node x true l v r)) = .node ga true ll vg rr' → RB ll (n + 1) → RB rr' (n + 1) →
                ll.isRed = false → rr'.isRed = false → ∃ h' T m, insertLoop hd (kk + 1 + 1) x h = some h' ∧ S h' hd lm rm [] T ∧ T.items = L ∧ RB T m ∧ Off (owned hd L) h h' := by
              intro ll rr' he h1' h2' h3' h4'
              rw [he] at s3 hi
              obtain ⟨h', T, m, a1, a2, a3, a4, a5⟩ := ih kk (by omega) ctx hlen h3 ga ll rr' vg (n + 1) s3 hi.symm h1' h2' h3' h4' hD3
              exact ⟨h', T, m, by rw [prog, a1], a2, a3, a4, o3.trans a5⟩
            cases gl
            · exact main _ _ (fill_isR rfl _) hw hfill rfl (fill_isRed _ _)
            · exact main _ _ (fill_isL rfl _) hfill hw (fill_isRed _ _) rfl
        | false =>
          have prog0 : ∀ (res : Option (Heap α)), (if gl = true then
              (do let (x, h) ← (if fl = false then (rotateLeft hd p h).map (fun h => (p, h)) else some (x, h))
                  let cx ← h x
                  let h ← setRed h cx.parent false
                  let cx ← h x
                  let cp ← h cx.parent
                  let h ← setRed h cp.parent true
                  let cx ← h x
                  let cp ← h cx.parent
                  rotateRight hd cp.parent h) else
              (do let (x, h) ← (if fl then (rotateRight hd p h).map (fun h => (p, h)) else some (x, h))
                  let cx ← h x
                  let h ← setRed h cx.parent false
                  let cx ← h x
                  let cp ← h cx.parent
                  let h ← setRed h cp.parent true
                  let cx ← h x
                  let cp ← h cx.parent
                  rotateLeft hd cp.parent h)) = res → insertLoop hd (k + 1) x h = res := by
            intro res hres
            rw [← hres]
            conv_lhs => rw [insertLoop]
            rw [hroot]
            simp only [Option.bind_eq_bind, Option.bind_some]
            rw [if_neg hne]
            have hpr : isRed h p = some true := by rw [isRed, hfr]; rfl
            rw [hu] at hur
            simp only [hcx, hpr, Option.bind_some, hpl, hfr, hgf]
            cases gl
            · simp [hur, hxl]
            · simp [hur, hxl]
          have close : ∀ (h' : Heap α) (t : Shape α), insertLoop hd (k + 1) x h = some h' → S h' hd lm rm ctx t → Off (owned hd L) h h' → RB t (n + 1) → t.isRed = false → (plug ctx t).items = L →
              ∃ h' T m, insertLoop hd (k + 1) x h = some h' ∧ S h' hd lm rm [] T ∧ T.items = L ∧ RB T m ∧ Off (owned hd L) h h' := by
            intro h' t a1 a2 a3 a4 a5 a6
            obtain ⟨m, hm, _⟩ := RB.plug hD3 a4 (by rw [a5]; simp)
            exact ⟨h', _, m, a1, S.whole.1 a2, a6, hm, a3⟩
          have s2 := S.focus.1 s1
          have hLi : ∀ t : Shape α, t.items = (Frame.fill ⟨gl, ga, false, vg, u⟩ (Frame.fill ⟨fl, p, true, vp, ps⟩ (.node x true l v r))).items → (plug ctx t).items = L := by
            intro t ht
            rw [hL, plug, plug, plug_items, ht, plug_items]
          cases gl
          · rw [fill_isR rfl] at s2
            cases fl
            · rw [fill_isR rfl] at s2
              obtain ⟨h', e', s', o'⟩ := finishR L s2 (hLi _ (by simp [Frame.fill])).symm
              refine close h' _ (prog0 _ ?_) s' o' (.black (.red hD1 hC1 hu psb) hnode) rfl (hLi _ (by simp [Frame.fill, Shape.items]))
              simp only [Bool.false_eq_true, if_false]
              exact e'
            · rw [fill_isL rfl] at s2
              obtain ⟨h1, e1, s3, o1⟩ := (S.right.1 s2).rotateRight
              have s4 := S.right.2 s3
              obtain ⟨h', e', s', o'⟩ := finishR L s4 (hLi _ (by simp [Frame.fill, Shape.items])).symm
              have o1' : Off (owned hd L) h h1 := by
                have : (plug (⟨false, ga, false, vg, u⟩ :: ctx) (Shape.node p true (.node x true l v r) vp ps)).items = L := hLi _ (by simp [Frame.fill])
                rw [← this]; exact o1
              refine close h' _ (prog0 _ ?_) s' (o1'.trans o') (.black (.red hD1 hl hu lr) (.red hr hC1 rr psb)) rfl (hLi _ (by simp [Frame.fill, Shape.items]))
              simp only [Bool.false_eq_true, if_false, if_true, e1, Option.map_some]
              exact e'
          · rw [fill_isL rfl] at s2
            cases fl
            · rw [fill_isR rfl] at s2
              obtain ⟨h1, e1, s3, o1⟩ := (S.left.1 s2).rotateLeft
              have s4 := S.left.2 s3
              obtain ⟨h', e', s', o'⟩ := finishL L s4 (hLi _ (by simp [Frame.fill, Shape.items])).symm
              have o1' : Off (owned hd L) h h1 := by
                have : (plug (⟨true, ga, false, vg, u⟩ :: ctx) (Shape.node p true ps vp (.node x true l v r))).items = L := hLi _ (by simp [Frame.fill])
                rw [← this]; exact o1
              refine close h' _ (prog0 _ ?_) s' (o1'.trans o') (.black (.red hC1 hl psb lr) (.red hr hD1 rr hu)) rfl (hLi _ (by simp [Frame.fill, Shape.items]))
              simp only [if_true, e1, Option.map_some]
              exact e'
            · rw [fill_isL rfl] at s2
              obtain ⟨h', e', s', o'⟩ := finishL L s2 (hLi _ (by simp [Frame.fill])).symm
              refine close h' _ (prog0 _ ?_) s' o' (.black hnode (.red hC1 hD1 psb hu)) rfl (hLi _ (by simp [Frame.fill, Shape.items]))
              simp only [Bool.true_eq_false, if_false, if_true]
              exact e'

/-- **`rb_tree_insert_rebalance`**: a new node without children, of any colour, in a place for an empty tree -/
theorem insertRebalance_ok {hd lm rm : Ptr} (L : List (Ptr × α)) {ctx : List (Frame α)} {h : Heap α} {x : Ptr} {c : Bool} {v : α} {fuel : Nat}
    (s : S h hd lm rm ctx (.node x c .nil v .nil)) (hL : L = (plug ctx (.node x c .nil v .nil)).items) (hC : RBC ctx 0) (hf : ctx.length < fuel) :
    ∃ h' T m, insertRebalance hd fuel x h = some h' ∧ S h' hd lm rm [] T ∧ T.items = L ∧ RB T m ∧ T.isRed = false ∧ Off (owned hd L) h h' := by
  obtain ⟨h1, e1, s1, o1⟩ := s.setRed' true
  have hL1 : L = (plug ctx (.node x true .nil v .nil)).items := by rw [hL, plug_items, plug_items]; simp [Shape.items]
  obtain ⟨k, rfl⟩ : ∃ k, fuel = k + 1 := ⟨fuel - 1, by omega⟩
  obtain ⟨h2, T, m, e2, s2, i2, r2, o2⟩ := insertLoop_ok L k ctx (by omega) h1 x _ _ v 0 s1 hL1 .nil .nil rfl rfl hC
  rw [← hL] at o1
  cases T with
  | nil =>
    exfalso
    rw [hL, plug_items] at i2
    simp [Shape.items] at i2
  | node a ca l w r =>
    obtain ⟨h3, e3, s3, o3⟩ := s2.setRed' false
    have i3 : (plug [] (Shape.node a ca l w r)).items = L := i2
    rw [i3] at o3
    refine ⟨h3, _, ?_, ?_, s3, by rw [← i2]; simp [Shape.items], ?_, rfl, (o1.trans o2).trans o3⟩
    · exact if ca then m + 1 else m
    · rw [insertRebalance]
      simp only [Option.bind_eq_bind, e1, Option.bind_some, e2, s2.root, rootP, Shape.ptr]
      exact e3
    · cases r2 with
      | red a b _ _ => exact .black a b
      | black a b => exact .black a b

end Verif.Rb
