import Verif.RbInsert

/-!
# Rebalancing after a removal
-/

namespace Verif.Rb

variable {α : Type}

/-- a node written from one side: `near` is the left subtree when `d` -/
def N (d : Bool) (a : Ptr) (c : Bool) (near : Shape α) (v : α) (far : Shape α) : Shape α := if d then .node a c near v far else .node a c far v near

/-- the rotation towards the near side -/
def rot (d : Bool) (hd x : Ptr) (h : Heap α) : Option (Heap α) := if d then rotateLeft hd x h else rotateRight hd x h
/-- the child on the near side -/
def near (d : Bool) (c : Cell α) : Ptr := if d then c.left else c.right
/-- the child on the far side -/
def far (d : Bool) (c : Cell α) : Ptr := if d then c.right else c.left

theorem S.near {h : Heap α} {hd lm rm : Ptr} {ctx : List (Frame α)} {d : Bool} {a : Ptr} {c : Bool} {t u : Shape α} {v : α} :
    S h hd lm rm ctx (N d a c t v u) ↔ S h hd lm rm (⟨d, a, c, v, u⟩ :: ctx) t :=
  (S.focus (f := ⟨d, a, c, v, u⟩) (t := t)).symm

theorem S.far {h : Heap α} {hd lm rm : Ptr} {ctx : List (Frame α)} {d : Bool} {a : Ptr} {c : Bool} {t u : Shape α} {v : α} :
    S h hd lm rm ctx (N d a c t v u) ↔ S h hd lm rm (⟨!d, a, c, v, t⟩ :: ctx) u := by
  cases d
  · exact S.left
  · exact S.right

theorem S.cellN {h : Heap α} {hd lm rm : Ptr} {ctx : List (Frame α)} {d : Bool} {a : Ptr} {c : Bool} {t u : Shape α} {v : α} (s : S h hd lm rm ctx (N d a c t v u)) :
    ∃ cl : Cell α, h a = some cl ∧ Verif.Rb.near d cl = t.ptr ∧ Verif.Rb.far d cl = u.ptr ∧ cl.red = c ∧ cl.parent = parOf hd ctx := by
  cases d
  · exact ⟨_, S.cell s, rfl, rfl, rfl, rfl⟩
  · exact ⟨_, S.cell s, rfl, rfl, rfl, rfl⟩

theorem N_ptr (d : Bool) (a : Ptr) (c : Bool) (t u : Shape α) (v : α) : (N d a c t v u).ptr = a := by cases d <;> rfl
theorem N_isRed (d : Bool) (a : Ptr) (c : Bool) (t u : Shape α) (v : α) : (N d a c t v u).isRed = c := by cases d <;> rfl

theorem S.rot {h : Heap α} {hd lm rm : Ptr} {ctx : List (Frame α)} {d : Bool} {x y : Ptr} {cx cy : Bool} {a b c : Shape α} {vx vy : α} (L : List (Ptr × α))
    (s : S h hd lm rm ctx (N d x cx a vx (N d y cy b vy c))) (hL : L = (plug ctx (N d x cx a vx (N d y cy b vy c))).items) :
    ∃ h', rot d hd x h = some h' ∧ S h' hd lm rm ctx (N d y cy (N d x cx a vx b) vy c) ∧ Off (owned hd L) h h' := by
  subst hL
  cases d
  · exact S.rotateRight s
  · exact S.rotateLeft s

theorem S.setRedN {h : Heap α} {hd lm rm : Ptr} {ctx : List (Frame α)} {d : Bool} {a : Ptr} {c : Bool} {l r : Shape α} {v : α} (L : List (Ptr × α)) (s : S h hd lm rm ctx (N d a c l v r)) (c' : Bool)
    (hL : L = (plug ctx (N d a c l v r)).items) : ∃ h', Verif.Rb.setRed h a c' = some h' ∧ S h' hd lm rm ctx (N d a c' l v r) ∧ Off (owned hd L) h h' := by
  subst hL
  cases d
  · exact S.setRed' s c'
  · exact S.setRed' s c'

theorem RB.redN {d : Bool} {a : Ptr} {l r : Shape α} {v : α} {n : Nat} (hl : RB l n) (hr : RB r n) (h1 : l.isRed = false) (h2 : r.isRed = false) : RB (N d a true l v r) n := by
  cases d
  · exact .red hr hl h2 h1
  · exact .red hl hr h1 h2

theorem RB.blackN {d : Bool} {a : Ptr} {l r : Shape α} {v : α} {n : Nat} (hl : RB l n) (hr : RB r n) : RB (N d a false l v r) (n + 1) := by
  cases d
  · exact .black hr hl
  · exact .black hl hr

/-- every node can be written from either side -/
theorem exists_N (d : Bool) (a : Ptr) (c : Bool) (l r : Shape α) (v : α) : ∃ t u : Shape α, Shape.node a c l v r = N d a c t v u := by
  cases d
  · exact ⟨r, l, rfl⟩
  · exact ⟨l, r, rfl⟩

theorem RB.cases_red {d : Bool} {a : Ptr} {l r : Shape α} {v : α} {n : Nat} (h : RB (N d a true l v r) n) : RB l n ∧ RB r n ∧ l.isRed = false ∧ r.isRed = false := by
  cases d <;> simp only [N, Bool.false_eq_true, if_false, if_true] at h <;> cases h <;> refine ⟨?_, ?_, ?_, ?_⟩ <;> assumption

theorem RB.cases_black {d : Bool} {a : Ptr} {l r : Shape α} {v : α} {n : Nat} (h : RB (N d a false l v r) (n + 1)) : RB l n ∧ RB r n := by
  cases d <;> simp only [N, Bool.false_eq_true, if_false, if_true] at h <;> cases h <;> refine ⟨?_, ?_⟩ <;> assumption

/-- the end of `rb_tree_erase_rebalance`: `if (x != nullptr) rb_tree_set_black(x)` -/
def blacken (r : Option (Ptr × Heap α)) : Option (Heap α) := r.bind (fun q => if q.1 ≠ 0 then setRed q.2 q.1 false else pure q.2)

/-- the cases 2, 3, 4 of one turn -/
def fixup (d : Bool) (hd : Ptr) (n : Nat) (x xp bro : Ptr) (h : Heap α) : Option (Ptr × Heap α) := do
  let cb ← h bro
  let lr ← isRedOr h cb.left
  let rr ← isRedOr h cb.right
  if lr = false ∧ rr = false then do
    let h ← setRed h bro true
    let cp ← h xp
    eraseLoop hd n xp cp.parent h
  else do
    let (bro, h) ← (if (if d then rr else lr) = false then do
      let h ← (if near d cb ≠ 0 then setRed h (near d cb) false else some h)
      let h ← setRed h bro true
      let h ← rot (!d) hd bro h
      let cp ← h xp
      pure (far d cp, h) else some (bro, h))
    let cp ← h xp
    let h ← setRed h bro cp.red
    let h ← setRed h xp false
    let cb ← h bro
    let h ← (if far d cb ≠ 0 then setRed h (far d cb) false else some h)
    let h ← rot d hd xp h
    pure (x, h)

/-- one turn of the loop -/
theorem eraseLoop_eq (hd : Ptr) (n : Nat) (x xp : Ptr) (h : Heap α) : eraseLoop hd (n + 1) x xp h = (do
    let r ← root h hd
    if x = r then pure (x, h)
    else do
      let b ← isRedOr h x
      if b then pure (x, h)
      else do
        let cp ← h xp
        let d := decide (x = cp.left)
        let b ← isRed h (far d cp)
        let (bro, h) ← (if b then do
            let h ← setRed h (far d cp) false
            let h ← setRed h xp true
            let h ← rot d hd xp h
            let cp ← h xp
            pure (far d cp, h) else some (far d cp, h))
        fixup d hd n x xp bro h) := by
  rw [eraseLoop]
  refine congrArg _ (funext fun r => ?_)
  by_cases h1 : x = r
  · simp [h1]
  · rw [if_neg h1, if_neg h1]
    refine congrArg _ (funext fun b => ?_)
    cases b with
    | true => rfl
    | false =>
      simp only [Bool.false_eq_true, if_false]
      refine congrArg _ (funext fun cp => ?_)
      by_cases h2 : x = cp.left
      · simp only [h2, if_true, decide_true]; rfl
      · simp only [h2, if_false, decide_false]; rfl

/-- what the rebalancing has to achieve -/
def Good (hd lm rm : Ptr) (L : List (Ptr × α)) (h0 : Heap α) (prog : Option (Heap α)) : Prop :=
  ∃ h' T m, prog = some h' ∧ S h' hd lm rm [] T ∧ T.items = L ∧ RB T m ∧ T.isRed = false ∧ Off (owned hd L) h0 h'

/-- blackening a black node or nothing -/
theorem blacken_black {h : Heap α} {hd lm rm : Ptr} {ctx : List (Frame α)} {t : Shape α} (L : List (Ptr × α)) (s : S h hd lm rm ctx t) (hL : L = (plug ctx t).items) (hb : t.isRed = false) :
    ∃ h', blacken (some (t.ptr, h)) = some h' ∧ S h' hd lm rm ctx t ∧ Off (owned hd L) h h' := by
  cases t with
  | nil => exact ⟨h, by simp [blacken, Shape.ptr], s, Off.refl _ _⟩
  | node a c l v r =>
    simp only [Shape.isRed] at hb
    subst hb
    obtain ⟨h', e1, s1, o1⟩ := s.setRed' false
    refine ⟨h', ?_, s1, by rw [hL]; exact o1⟩
    simp only [blacken, Option.bind_some]
    rw [if_pos (show (Shape.node a false l v r).ptr ≠ 0 from s.node0)]
    exact e1

/-- case 4: the far nephew is red -/
theorem case4 {h : Heap α} {hd lm rm : Ptr} {ctx : List (Frame α)} {d : Bool} {p b e : Ptr} {cp : Bool} {t bn en ef : Shape α} {vp vb ve : α} {n : Nat} (L : List (Ptr × α))
    (s : S h hd lm rm ctx (N d p cp t vp (N d b false bn vb (N d e true en ve ef)))) (hL : L = (plug ctx (N d p cp t vp (N d b false bn vb (N d e true en ve ef)))).items)
    (hC : RBC ctx (if cp then n + 1 else n + 2)) (hcp : cp = true → parRed ctx = false) (ht : RB t n) (htr : t.isRed = false) (hbn : RB bn n) (hen : RB en n) (hef : RB ef n) :
    Good hd lm rm L h (blacken (do
      let cp ← h p
      let h ← setRed h b cp.red
      let h ← setRed h p false
      let cb ← h b
      let h ← (if far d cb ≠ 0 then setRed h (far d cb) false else some h)
      let h ← rot d hd p h
      pure (t.ptr, h))) := by
  have hi : ∀ (c1 c2 c3 : Bool), L = (plug ctx (N d p c1 t vp (N d b c2 bn vb (N d e c3 en ve ef)))).items := by
    intro c1 c2 c3
    rw [hL, plug_items, plug_items]
    cases d <;> simp [N, Shape.items]
  obtain ⟨h1, e1, s1, o1⟩ := (S.far.1 s).setRedN (c' := cp) L (by
    have := hi cp false true
    cases d <;> exact this)
  obtain ⟨h2, e2, s2, o2⟩ := (S.far.2 s1).setRedN (c' := false) L (hi _ _ _)
  obtain ⟨h3, e3, s3, o3⟩ := (S.far.1 (S.far.1 s2)).setRedN (c' := false) L (by
    have := hi false cp true
    cases d <;> exact this)
  have s3' := S.far.2 (S.far.2 s3)
  obtain ⟨h4, e4, s4, o4⟩ := s3'.rot L (hi _ _ _)
  have i4 : L = (plug ctx (N d b cp (N d p false t vp bn) vb (N d e false en ve ef))).items := by
    rw [hi cp false true, plug_items, plug_items]
    cases d <;> simp [N, Shape.items]
  obtain ⟨h5, e5, s5, o5⟩ := blacken_black L (S.near.1 (S.near.1 s4)) (by
    have := i4
    cases d <;> exact this) htr
  have hB : RB (N d b cp (N d p false t vp bn) vb (N d e false en ve ef)) (if cp then n + 1 else n + 2) := by
    cases cp
    · exact RB.blackN (RB.blackN ht hbn) (RB.blackN hen hef)
    · exact RB.redN (RB.blackN ht hbn) (RB.blackN hen hef) (N_isRed ..) (N_isRed ..)
  obtain ⟨m, hm, hmr⟩ := RB.plug hC hB (by rw [N_isRed]; exact hcp)
  refine ⟨h5, _, m, ?_, S.whole.1 (S.near.2 (S.near.2 s5)), i4.symm, hm, hmr, (((o1.trans o2).trans o3).trans o4).trans o5⟩
  obtain ⟨cl, c1, _, _, c2, _⟩ := s.cellN
  obtain ⟨cl', c1', _, c3', _, _⟩ := (S.far.1 s2).cellN
  rw [N_ptr] at c3'
  have e0 : e ≠ 0 := by
    have s' := S.far.1 (S.far.1 s)
    have hp : (N d e true en ve ef).ptr = e := N_ptr ..
    cases d <;> exact s'.node0
  simp only [c1, Option.bind_eq_bind, Option.bind_some, c2, e1, e2, c1', c3', if_pos e0, e3, e4]
  exact e5

/-- the cases 2, 3, 4 -/
theorem fixup_ok {h : Heap α} {hd lm rm : Ptr} {ctx : List (Frame α)} {d : Bool} {p b : Ptr} {cp : Bool} {t bn bf : Shape α} {vp vb : α} {n k : Nat} (L : List (Ptr × α))
    (s : S h hd lm rm ctx (N d p cp t vp (N d b false bn vb bf))) (hL : L = (plug ctx (N d p cp t vp (N d b false bn vb bf))).items)
    (hC : RBC ctx (if cp then n + 1 else n + 2)) (hcp : cp = true → parRed ctx = false) (ht : RB t n) (htr : t.isRed = false) (hbn : RB bn n) (hbf : RB bf n)
    (hrec : ∀ h', S h' hd lm rm ctx (N d p cp t vp (N d b true bn vb bf)) → bn.isRed = false → bf.isRed = false → Good hd lm rm L h' (blacken (eraseLoop hd k p (parOf hd ctx) h'))) :
    Good hd lm rm L h (blacken (fixup d hd k t.ptr p b h)) := by
  have hi : ∀ (c1 c2 : Bool), L = (plug ctx (N d p c1 t vp (N d b c2 bn vb bf))).items := by
    intro c1 c2
    rw [hL, plug_items, plug_items]
    cases d <;> simp [N, Shape.items]
  have sb := S.far.1 s
  obtain ⟨cb, b1, b2, b3, _, _⟩ := sb.cellN
  have hn : isRedOr h (near d cb) = some bn.isRed := by rw [b2]; exact (S.near.1 sb).isRedOr
  have hf : isRedOr h (far d cb) = some bf.isRed := by rw [b3]; exact (S.far.1 sb).isRedOr
  have hlr : isRedOr h cb.left = some (if d then bn.isRed else bf.isRed) ∧ isRedOr h cb.right = some (if d then bf.isRed else bn.isRed) := by
    cases d <;> simp only [near, far, Bool.false_eq_true, if_false, if_true] at hn hf ⊢
    · exact ⟨hf, hn⟩
    · exact ⟨hn, hf⟩
  by_cases hboth : bn.isRed = false ∧ bf.isRed = false
  · -- case 2
    obtain ⟨h1, e1, s1, o1⟩ := sb.setRedN (c' := true) L (by have := hi cp false; cases d <;> exact this)
    have s1' := S.far.2 s1
    obtain ⟨cl, c1, _, _, _, c2⟩ := s1'.cellN
    obtain ⟨h2, T, m, a1, a2, a3, a4, a5, a6⟩ := hrec h1 s1' hboth.1 hboth.2
    refine ⟨h2, T, m, ?_, a2, a3, a4, a5, o1.trans a6⟩
    rw [← a1]
    unfold fixup
    simp only [b1, hlr.1, hlr.2, Option.bind_eq_bind, Option.bind_some]
    rw [if_pos (by cases d <;> simp [hboth.1, hboth.2])]
    simp only [e1, Option.bind_some, c1, c2]
  · have hnb : ¬ ((if d then bn.isRed else bf.isRed) = false ∧ (if d then bf.isRed else bn.isRed) = false) := by
      cases d
      · simpa [and_comm] using hboth
      · simpa using hboth
    cases hfr : bf.isRed with
    | true =>
      -- case 4
      cases bf with
      | nil => simp [Shape.isRed] at hfr
      | node e ce el ve er =>
        simp only [Shape.isRed] at hfr
        subst hfr
        obtain ⟨en, ef, hE⟩ := exists_N d e true el er ve
        rw [hE] at s hL hbf hf b3
        obtain ⟨q1, q2, _, _⟩ := hbf.cases_red
        obtain ⟨h2, T, m, a1, a2, a3, a4, a5, a6⟩ := case4 L s hL hC hcp ht htr hbn q1 q2
        refine ⟨h2, T, m, ?_, a2, a3, a4, a5, a6⟩
        rw [← a1]
        unfold fixup
        simp only [b1, hlr.1, hlr.2, Option.bind_eq_bind, Option.bind_some]
        rw [if_neg hnb, if_neg (by cases d <;> simp [Shape.isRed])]
        rfl
    | false =>
      have hnr : bn.isRed = true := by
        by_contra hne
        exact hboth ⟨by simpa using hne, hfr⟩
      cases bn with
      | nil => simp [Shape.isRed] at hnr
      | node e ce el ve er =>
        simp only [Shape.isRed] at hnr
        subst hnr
        have hE : ∃ en ef : Shape α, Shape.node e true el ve er = N (!d) e true ef ve en := by
          obtain ⟨a, b, hab⟩ := exists_N (!d) e true el er ve
          exact ⟨b, a, hab⟩
        obtain ⟨en, ef, hE⟩ := hE
        rw [hE] at sb hbn b2 hi
        obtain ⟨q1, q2, _, _⟩ := hbn.cases_red
        obtain ⟨h1, e1, s1, o1⟩ := (S.near.1 sb).setRedN (c' := false) L (by have := hi cp false; cases d <;> exact this)
        obtain ⟨h2, e2, s2, o2⟩ := (S.near.2 s1).setRedN (c' := true) L (by
          rw [hi cp false, plug_items, plug_items]; cases d <;> simp [N, Shape.items, before, after])
        have flip : ∀ (a : Ptr) (c : Bool) (l r : Shape α) (v : α), N d a c l v r = N (!d) a c r v l := by intro a c l r v; cases d <;> rfl
        rw [flip] at s2
        obtain ⟨h3, e3, s3, o3⟩ := s2.rot L (by
          rw [hi cp false, plug_items, plug_items]; cases d <;> simp [N, Shape.items, before, after])
        rw [← flip, ← flip] at s3
        have s3' := S.far.2 s3
        have hL3 : L = (plug ctx (N d p cp t vp (N d e false en ve (N d b true ef vb bf)))).items := by
          rw [hi cp false, plug_items, plug_items]; cases d <;> simp [N, Shape.items]
        obtain ⟨cl, c1, _, c3, _, _⟩ := s3'.cellN
        rw [N_ptr] at c3
        obtain ⟨h4, T, m, a1, a2, a3, a4, a5, a6⟩ := case4 (n := n) L s3' hL3 hC hcp ht htr q2 q1 hbf
        refine ⟨h4, T, m, ?_, a2, a3, a4, a5, ((o1.trans o2).trans o3).trans a6⟩
        rw [← a1]
        unfold fixup
        simp only [b1, hlr.1, hlr.2, Option.bind_eq_bind, Option.bind_some]
        rw [if_neg hnb, if_pos (by cases d <;> simp [hfr])]
        have e0 : e ≠ 0 := by
          have s' := S.near.1 sb
          cases d <;> exact s'.node0
        rw [N_ptr] at b2
        simp only [b2, if_pos e0, e1, e2, e3, Option.bind_some, c1, c3, Option.pure_def]

/-- the state before a turn of the loop: the tree in the place has one black node too few; it is black, or it is red (then it may have red children) -/
def Short (t : Shape α) (n : Nat) : Prop := (t.isRed = false ∧ RB t n) ∨ ∃ a l v r, t = .node a true l v r ∧ RB l n ∧ RB r n

/-- the loop stops at a red node -/
theorem erase_red {h : Heap α} {hd lm rm : Ptr} {ctx : List (Frame α)} {a : Ptr} {l r : Shape α} {v : α} {n k : Nat} (L : List (Ptr × α)) (s : S h hd lm rm ctx (.node a true l v r))
    (hL : L = (plug ctx (.node a true l v r)).items) (hC : RBC ctx (n + 1)) (hl : RB l n) (hr : RB r n) (xp : Ptr) : Good hd lm rm L h (blacken (eraseLoop hd (k + 1) a xp h)) := by
  obtain ⟨h1, e1, s1, o1⟩ := s.setRed' false
  obtain ⟨m, hm, hmr⟩ := RB.plug hC (RB.black (a := a) (v := v) hl hr) (by simp [Shape.isRed])
  refine ⟨h1, _, m, ?_, S.whole.1 s1, ?_, hm, hmr, by rw [hL]; exact o1⟩
  · have : eraseLoop hd (k + 1) a xp h = some (a, h) := by
      rw [eraseLoop_eq, s.root]
      simp only [Option.bind_eq_bind, Option.bind_some]
      by_cases hx : a = rootP ctx (Shape.node a true l v r).ptr
      · rw [if_pos hx]; rfl
      · rw [if_neg hx, show isRedOr h a = some true from s.isRedOr]; rfl
    rw [this]
    simp only [blacken, Option.bind_some]
    rw [if_pos s.node0, e1]
  · rw [hL, plug_items, plug_items]; simp [Shape.items]

/-- the loop of `rb_tree_erase_rebalance` -/
theorem eraseLoop_ok {hd lm rm : Ptr} (L : List (Ptr × α)) : ∀ (k : Nat) (ctx : List (Frame α)), ctx.length ≤ k → ∀ (h : Heap α) (t : Shape α) (n : Nat),
    S h hd lm rm ctx t → L = (plug ctx t).items → Short t n → RBC ctx (n + 1) → Good hd lm rm L h (blacken (eraseLoop hd (k + 1) t.ptr (parOf hd ctx) h)) := by
  intro k
  induction k with
  | zero =>
    intro ctx hk h t n s hL hs hC
    rcases hs with ⟨htr, ht⟩ | ⟨a, l, v, r, rfl, hl, hr⟩
    · have : ctx = [] := List.length_eq_zero_iff.1 (by omega)
      subst this
      obtain ⟨h1, e1, s1, o1⟩ := blacken_black L s hL htr
      refine ⟨h1, t, n, ?_, s1, hL.symm, ht, htr, o1⟩
      rw [← e1, eraseLoop_eq, s.root]; simp [rootP]
    · exact erase_red L s hL hC hl hr _
  | succ k ih =>
    intro ctx hk h t n s hL hs hC
    rcases hs with ⟨htr, ht⟩ | ⟨a, l, v, r, rfl, hl, hr⟩
    swap
    · exact erase_red L s hL hC hl hr _
    cases ctx with
    | nil =>
      obtain ⟨h1, e1, s1, o1⟩ := blacken_black L s hL htr
      refine ⟨h1, t, n, ?_, s1, hL.symm, ht, htr, o1⟩
      rw [← e1, eraseLoop_eq, s.root]; simp [rootP]
    | cons f ctx =>
      have hne := s.rootNe
      have hroot := s.root
      have htro := s.isRedOr
      obtain ⟨d, p, cp, vp, sib⟩ := f
      obtain ⟨hC1, hC2, hC3⟩ := hC
      simp only at hC1 hC2 hC3
      cases sib with
      | nil => cases hC1
      | node b cb bl vb br =>
        obtain ⟨bn, bf, hB⟩ := exists_N d b cb bl br vb
        rw [hB] at s hL hC1 hC2 hne hroot
        have s0 : S h hd lm rm ctx (N d p cp t vp (N d b cb bn vb bf)) := S.near.2 s
        have hL0 : L = (plug ctx (N d p cp t vp (N d b cb bn vb bf))).items := hL
        obtain ⟨cl, c1, c2, c3, c4, c5⟩ := s0.cellN
        rw [N_ptr] at c3
        have b0 : b ≠ 0 := by have s' := S.far.1 s0; cases d <;> exact s'.node0
        have hd' : decide (t.ptr = cl.left) = d := by
          cases d
          · simp only [near, far, Bool.false_eq_true, if_false] at c2 c3
            rw [c3, decide_eq_false_iff_not]
            by_cases t0 : t.ptr = 0
            · rw [t0]; exact Ne.symm b0
            · have := s.sibNe t0
              simpa [N_ptr] using this
          · simp only [near, if_true] at c2
            rw [c2]; simp
        have hbr : isRed h b = some cb := by
          obtain ⟨cl', q1, _, _, q2, _⟩ := (S.far.1 s0).cellN
          rw [isRed, q1, ← q2]; rfl
        have head : eraseLoop hd (k + 1 + 1) t.ptr (parOf hd (⟨d, p, cp, vp, N d b cb bn vb bf⟩ :: ctx)) h = (do
            let (bro, h) ← (if cb then do
                let h ← setRed h b false
                let h ← setRed h p true
                let h ← rot d hd p h
                let cp ← h p
                pure (far d cp, h) else some (b, h))
            fixup d hd (k + 1) t.ptr p bro h) := by
          rw [eraseLoop_eq, hroot]
          simp only [Option.bind_eq_bind, Option.bind_some]
          rw [if_neg hne, htro, htr]
          simp only [Option.bind_some, Bool.false_eq_true, if_false, parOf, c1]
          rw [hd', c3, hbr]
          rfl
        cases cb with
        | false =>
          have hh : parOf hd (⟨d, p, cp, vp, Shape.node b false bl vb br⟩ :: ctx) = parOf hd (⟨d, p, cp, vp, N d b false bn vb bf⟩ :: ctx) := rfl
          rw [hh, head]
          simp only [Bool.false_eq_true, if_false]
          obtain ⟨q1, q2⟩ := hC1.cases_black
          have hC3' : RBC ctx (if cp then n + 1 else n + 2) := by cases cp <;> exact hC3
          refine fixup_ok L s0 hL0 hC3' (fun e => (hC2 e).2) ht htr q1 q2 (fun h' s' r1 r2 => ?_)
          have hLr : L = (plug ctx (N d p cp t vp (N d b true bn vb bf))).items := by
            rw [hL0, plug_items, plug_items]; cases d <;> simp [N, Shape.items]
          have hsh : Short (N d p cp t vp (N d b true bn vb bf)) (if cp then n else n + 1) := by
            cases cp
            · exact Or.inl ⟨N_isRed .., RB.blackN ht (RB.redN q1 q2 r1 r2)⟩
            · right
              cases d
              · exact ⟨p, _, vp, _, rfl, RB.redN q1 q2 r1 r2, ht⟩
              · exact ⟨p, _, vp, _, rfl, ht, RB.redN q1 q2 r1 r2⟩
          have := ih ctx (by simp at hk; omega) h' (N d p cp t vp (N d b true bn vb bf)) _ s' hLr hsh (by cases cp <;> exact hC3')
          rw [N_ptr] at this
          exact this
        | true =>
          have hh : parOf hd (⟨d, p, cp, vp, Shape.node b true bl vb br⟩ :: ctx) = parOf hd (⟨d, p, cp, vp, N d b true bn vb bf⟩ :: ctx) := rfl
          have hcp : cp = false := by
            cases cp
            · rfl
            · have := (hC2 rfl).1; rw [N_isRed] at this; exact absurd this (by simp)
          subst hcp
          obtain ⟨q1, q2, q3, q4⟩ := hC1.cases_red
          -- case 1
          have hi : ∀ (c1 c2 : Bool), L = (plug ctx (N d p c1 t vp (N d b c2 bn vb bf))).items := by
            intro c1 c2
            rw [hL0, plug_items, plug_items]
            cases d <;> simp [N, Shape.items]
          obtain ⟨h1, e1, s1, o1⟩ := (S.far.1 s0).setRedN (c' := false) L (by have := hi false true; cases d <;> exact this)
          obtain ⟨h2, e2, s2, o2⟩ := (S.far.2 s1).setRedN (c' := true) L (hi _ _)
          obtain ⟨h3, e3, s3, o3⟩ := s2.rot L (hi _ _)
          have i3 : L = (plug ctx (N d b false (N d p true t vp bn) vb bf)).items := by
            rw [hi false true, plug_items, plug_items]; cases d <;> simp [N, Shape.items]
          have s4 := S.near.1 s3
          cases bn with
          | nil => cases q1
          | node w cw wl vw wr =>
            simp only [Shape.isRed] at q3
            subst q3
            obtain ⟨wn, wf, hW⟩ := exists_N d w false wl wr vw
            rw [hW] at q1 i3 s4
            obtain ⟨w1, w2⟩ := q1.cases_black
            obtain ⟨cl3, u1, _, u3, _, _⟩ := s4.cellN
            rw [N_ptr] at u3
            have hC' : RBC (⟨d, b, false, vb, bf⟩ :: ctx) (n + 1) := ⟨q2, by simp, hC3⟩
            have prog : eraseLoop hd (k + 1 + 1) t.ptr (parOf hd (⟨d, p, false, vp, Shape.node b true bl vb br⟩ :: ctx)) h = fixup d hd (k + 1) t.ptr p w h3 := by
              rw [hh, head]
              simp only [if_true, e1, e2, e3, Option.bind_eq_bind, Option.bind_some, u1, u3, Option.pure_def]
            rw [prog]
            have hfx := fixup_ok (k := k + 1) (n := n) L s4 i3 hC' (fun _ => rfl) ht htr w1 w2 (fun h' s' r1 r2 => by
              have hLr : L = (plug (⟨d, b, false, vb, bf⟩ :: ctx) (N d p true t vp (N d w true wn vw wf))).items := by
                rw [i3, show plug ctx (N d b false (N d p true t vp (N d w false wn vw wf)) vb bf) = plug (⟨d, b, false, vb, bf⟩ :: ctx) (N d p true t vp (N d w false wn vw wf)) from rfl, plug_items, plug_items]
                cases d <;> simp [N, Shape.items]
              cases d
              · exact erase_red L s' hLr hC' (RB.redN w1 w2 r1 r2) ht _
              · exact erase_red L s' hLr hC' ht (RB.redN w1 w2 r1 r2) _)
            obtain ⟨h4, T, m, a1, a2, a3, a4, a5, a6⟩ := hfx
            exact ⟨h4, T, m, a1, a2, a3, a4, a5, ((o1.trans o2).trans o3).trans a6⟩

end Verif.Rb
