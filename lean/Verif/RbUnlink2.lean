import Verif.RbUnlink

/-!
# Taking a node with two children out of the tree, `rb_tree_erase_rebalance`
-/

namespace Verif.Rb

variable {α : Type}

/-- the end of the unlinking of a node with two children: the successor `y` takes the place of `z` -/
theorem unlink_tail {g : Heap α} {hd lm rm : Ptr} {ctx : List (Frame α)} {z y q x xp : Ptr} {cz cy : Bool} {l r' : Shape α} {v vy : α} {zl zr : Ptr}
    (hy : g y = some ⟨q, l.ptr, r'.ptr, cy, some vy⟩) (hl : Rep g y l) (hr : Rep g y r') (hz : g z = some ⟨parOf hd ctx, zl, zr, cz, some v⟩) (hC : RepC g hd lm rm ctx z) (h0 : g 0 = none)
    (hnd : (0 :: hd :: z :: y :: (addrs l.items ++ addrs r'.items ++ ctxAddrs ctx)).Nodup) :
    ∃ h', (do
      let h ← replace hd z y g
      let cz ← h z
      let h ← setParent h y cz.parent
      let cy ← h y
      let cz ← h z
      let h ← setRed h y cz.red
      let h ← setRed h z cy.red
      let b ← isRed h z
      pure (x, xp, b, h)) = some (x, xp, cy, h') ∧ S h' hd lm rm ctx (.node y cz l vy r') ∧ Off (z :: y :: hd :: ctxAddrs ctx) g h' ∧ (∃ c, h' z = some c) := by
  simp only [List.nodup_cons, List.mem_cons, List.mem_append, not_or, List.nodup_append] at hnd
  obtain ⟨⟨zhd, zz, zy, ⟨zl', zr'⟩, zc⟩, ⟨hdz, hdy, ⟨hdl, hdr⟩, hdc⟩, ⟨zny, ⟨znl, znr⟩, znc⟩, ⟨⟨ynl, ynr⟩, ync⟩, ⟨⟨nl, nr, dlr⟩, nc, dc⟩⟩ := hnd
  have sp : Sep hd (z :: y :: (addrs l.items ++ addrs r'.items)) ctx := by
    refine ⟨?_, zc, Ne.symm zhd, ?_, hdc, ?_, nc, ?_⟩
    · simp only [List.mem_cons, List.mem_append, not_or]; exact ⟨zz, zy, zl', zr'⟩
    · simp only [List.mem_cons, List.mem_append, not_or]; exact ⟨hdz, hdy, hdl, hdr⟩
    · simp only [List.nodup_cons, List.mem_cons, List.mem_append, not_or, List.nodup_append]
      exact ⟨⟨zny, znl, znr⟩, ⟨ynl, ynr⟩, nl, nr, dlr⟩
    · intro a ha hc
      simp only [List.mem_cons, List.mem_append] at ha
      rcases ha with rfl | rfl | ha
      · exact znc hc
      · exact ync hc
      · exact dc a ha a hc rfl
  have Pz := sp.par z (by simp)
  have Py := sp.par y (by simp)
  have Pl : ∀ a ∈ addrs l.items, a ≠ parOf hd ctx := fun a ha => sp.par a (by simp [ha])
  have Pr : ∀ a ∈ addrs r'.items, a ≠ parOf hd ctx := fun a ha => sp.par a (by simp [ha])
  obtain ⟨cp, hcp⟩ := hC.par
  have e1 := replace_eq y hC hz rfl znc (Ne.symm zz) hcp
  obtain ⟨h1, k1⟩ : ∃ h1, h1 = put g (parOf hd ctx) (some (newPar ctx y cp)) := ⟨_, rfl⟩
  have h1z : h1 z = some ⟨parOf hd ctx, zl, zr, cz, some v⟩ := by rw [k1, put_ne _ _ Pz, hz]
  have h1y : h1 y = some ⟨q, l.ptr, r'.ptr, cy, some vy⟩ := by rw [k1, put_ne _ _ Py, hy]
  obtain ⟨h2, k2⟩ : ∃ h2, h2 = put h1 y (some ⟨parOf hd ctx, l.ptr, r'.ptr, cy, some vy⟩) := ⟨_, rfl⟩
  have f2 : setParent h1 y (parOf hd ctx) = some h2 := by rw [setParent, h1y, k2]; rfl
  have h2y : h2 y = some ⟨parOf hd ctx, l.ptr, r'.ptr, cy, some vy⟩ := by rw [k2, put_same]
  have h2z : h2 z = some ⟨parOf hd ctx, zl, zr, cz, some v⟩ := by rw [k2, put_ne _ _ zny, h1z]
  obtain ⟨h3, k3⟩ : ∃ h3, h3 = put h2 y (some ⟨parOf hd ctx, l.ptr, r'.ptr, cz, some vy⟩) := ⟨_, rfl⟩
  have f3 : setRed h2 y cz = some h3 := by rw [setRed, h2y, k3]; rfl
  have h3z : h3 z = some ⟨parOf hd ctx, zl, zr, cz, some v⟩ := by rw [k3, put_ne _ _ zny, h2z]
  obtain ⟨h4, k4⟩ : ∃ h4, h4 = put h3 z (some ⟨parOf hd ctx, zl, zr, cy, some v⟩) := ⟨_, rfl⟩
  have f4 : setRed h3 z cy = some h4 := by rw [setRed, h3z, k4]; rfl
  have h4z : h4 z = some ⟨parOf hd ctx, zl, zr, cy, some v⟩ := by rw [k4, put_same]
  have h4o : ∀ a, a ≠ z → a ≠ y → a ≠ parOf hd ctx → h4 a = g a := fun a a1 a2 a3 => by rw [k4, put_ne _ _ a1, k3, put_ne _ _ a2, k2, put_ne _ _ a2, k1, put_ne _ _ a3]
  refine ⟨h4, ?_, ⟨?_, ?_, ?_, ?_⟩, ?_, ⟨_, h4z⟩⟩
  · have f5 : isRed h4 z = some cy := by rw [isRed, h4z]; rfl
    simp only [e1, ← k1, Option.bind_eq_bind, Option.bind_some, h1z, f2, h2y, h2z, f3, f4, f5, Option.pure_def]
  · refine ⟨?_, hl.congr (fun a ha => h4o a ?_ ?_ (Pl a ha)), hr.congr (fun a ha => h4o a ?_ ?_ (Pr a ha))⟩
    · rw [k4, put_ne _ _ (Ne.symm zny), k3, put_same]
    · rintro rfl; exact znl ha
    · rintro rfl; exact ynl ha
    · rintro rfl; exact znr ha
    · rintro rfl; exact ynr ha
  · refine hC.setPtr' sp hcp (fun a ha hne => h4o a ?_ ?_ hne) ?_
    · rintro rfl
      rcases List.mem_cons.1 ha with e | e
      · exact hdz e.symm
      · exact znc e
    · rintro rfl
      rcases List.mem_cons.1 ha with e | e
      · exact hdy e.symm
      · exact ync e
    · rw [k4, put_ne _ _ (Ne.symm Pz), k3, put_ne _ _ (Ne.symm Py), k2, put_ne _ _ (Ne.symm Py), k1, put_same]; rfl
  · refine (List.Perm.nodup_iff (((addrs_perm ctx _).cons hd).cons 0)).2 ?_
    simp only [Shape.items, addrs, List.map_append, List.map_cons, List.nodup_cons, List.mem_cons, List.mem_append, not_or, List.nodup_append]
    refine ⟨⟨zhd, ⟨zl', zy, zr'⟩, zc⟩, ⟨⟨hdl, hdy, hdr⟩, hdc⟩, ⟨nl, ⟨ynr, nr⟩, ?_⟩, nc, ?_⟩
    · rintro a ha b (rfl | hb)
      · rintro rfl; exact ynl ha
      · exact dlr a ha b hb
    · rintro a (ha | rfl | ha) b hb
      · exact dc a (Or.inl ha) b hb
      · rintro rfl; exact ync hb
      · exact dc a (Or.inr ha) b hb
  · rw [h4o 0 zz zy (Ne.symm sp.par0)]; exact h0
  · intro a ha
    simp only [List.mem_cons, not_or] at ha
    refine h4o a ha.1 ha.2.1 (fun e => ?_)
    have := parOf_mem hd ctx
    rw [← e] at this
    rcases List.mem_cons.1 this with h | h
    · exact ha.2.2.1 h
    · exact ha.2.2.2 h

/-- a node with two children -/
theorem unlinkB {h : Heap α} {hd lm rm : Ptr} {ctx : List (Frame α)} {z : Ptr} {cz : Bool} {l r : Shape α} {v : α} {m fuel : Nat} {X Y : List (Ptr × α)}
    (s : S h hd lm rm ctx (.node z cz l v r)) (hln : l ≠ .nil) (hrn : r ≠ .nil) (hX : X = before ctx ++ l.items) (hY : Y = r.items ++ after ctx)
    (hlm : lm = firstP hd (X ++ (z, v) :: Y)) (hrm : rm = lastP hd (X ++ (z, v) :: Y)) (hB : RB (plug ctx (.node z cz l v r)) m) (hBr : (plug ctx (.node z cz l v r)).isRed = false)
    (hfuel : (X ++ (z, v) :: Y).length ≤ fuel) :
    ∃ h' x xp b, unlink hd fuel z h = some (x, xp, b, h') ∧ Unlinked h h' hd (X ++ (z, v) :: Y) (X ++ Y) z x xp b := by
  have hL : (plug ctx (Shape.node z cz l v r)).items = X ++ (z, v) :: Y := by rw [plug_items, hX, hY]; simp [Shape.items]
  have hsep := s.sep
  obtain ⟨tz, tl, tr⟩ := s.tree
  have r0 : 0 ∉ addrs r.items := fun e => s.sep'.zero (by simp only [Shape.items, addrs, List.map_append, List.map_cons, List.mem_append, List.mem_cons]; exact Or.inr (Or.inr e))
  have l0 : 0 ∉ addrs l.items := fun e => s.sep'.zero (by simp only [Shape.items, addrs, List.map_append, List.map_cons, List.mem_append, List.mem_cons]; exact Or.inl e)
  have lp0 : l.ptr ≠ 0 := fun e => hln ((ptr_zero l0).1 e)
  have rp0 : r.ptr ≠ 0 := fun e => hrn ((ptr_zero r0).1 e)
  have hYl : r.items.length ≤ fuel := by
    rw [hY] at hfuel
    simp only [List.length_append, List.length_cons] at hfuel
    omega
  obtain ⟨sp, y, cy, vy, yr, hr, hspL, hmin⟩ := treeMin_ok r fuel tr hrn r0 hYl
  -- addresses
  have hperm : (0 :: hd :: z :: y :: (addrs l.items ++ (addrs yr.items ++ ctxAddrs sp) ++ ctxAddrs ctx)).Nodup := by
    refine (List.Perm.nodup_iff ?_).1 hsep
    refine List.Perm.cons _ (List.Perm.cons _ ?_)
    have h1 : (addrs r.items).Perm (y :: addrs yr.items ++ ctxAddrs sp) := by
      rw [hr]
      exact addrs_perm sp _
    have h2 : (addrs (Shape.node z cz l v r).items).Perm (z :: y :: (addrs l.items ++ (addrs yr.items ++ ctxAddrs sp))) := by
      simp only [Shape.items]
      have e1 : addrs (l.items ++ (z, v) :: r.items) = addrs l.items ++ z :: addrs r.items := by simp [addrs]
      rw [e1]
      refine List.perm_middle.trans (List.Perm.cons _ ?_)
      refine (h1.append_left _).trans ?_
      rw [List.cons_append]
      exact List.perm_middle
    simpa using h2.append_right (ctxAddrs ctx)
  have hnd := hperm
  simp only [List.nodup_cons, List.mem_cons, List.mem_append, not_or, List.nodup_append] at hnd
  obtain ⟨⟨zhd, zz, zy, ⟨zl', zyr, zsp⟩, zc⟩, ⟨hdz, hdy, ⟨hdl, hdyr, hdsp⟩, hdc⟩, ⟨zny, ⟨znl, znyr, znsp⟩, znc⟩, ⟨⟨ynl, ynyr, ynsp⟩, ync⟩, ⟨⟨nl, ⟨nyr, nsp, dys⟩, dl⟩, nc, dc⟩⟩ := hnd
  -- the first two writes
  obtain ⟨h1, e1, h1o, h1l⟩ := setParent_opt (x := y) tl l0
  rw [if_pos lp0] at e1
  have lpm := ptr_mem lp0
  have tyr : Rep h (parOf z sp) (.node y cy .nil vy yr) ∧ Seg h z sp y := by
    have := tr
    rw [hr] at this
    exact rep_plug.1 this
  obtain ⟨⟨ty, _, tyr'⟩, tsp⟩ := tyr
  have h1y : h1 y = some ⟨parOf z sp, 0, yr.ptr, cy, some vy⟩ := by
    rw [h1o y (Or.inl (fun e => ynl (e ▸ lpm))), ty]; rfl
  obtain ⟨h2, k2⟩ : ∃ h2, h2 = put h1 y (some ⟨parOf z sp, l.ptr, yr.ptr, cy, some vy⟩) := ⟨_, rfl⟩
  have f2 : setLeft h1 y l.ptr = some h2 := by rw [setLeft, h1y, k2]; rfl
  have h2y : h2 y = some ⟨parOf z sp, l.ptr, yr.ptr, cy, some vy⟩ := by rw [k2, put_same]
  have h2o : ∀ a, a ≠ y → a ∉ addrs l.items → h2 a = h a := fun a a1 a2 => by
    rw [k2, put_ne _ _ a1, h1o a (Or.inl (fun e => a2 (e ▸ lpm)))]
  have h2l : Rep h2 y l := by
    refine tl.reparent nl (fun a ha hne => ?_) (fun hne => ?_) l0
    · rw [k2, put_ne _ _ (fun e : a = y => ynl (e ▸ ha)), h1o a (Or.inl hne)]
    · rw [k2, put_ne _ _ (fun e : l.ptr = y => ynl (e ▸ lpm)), h1l hne]
  have h2yr : Rep h2 y yr := tyr'.congr (fun a ha => h2o a (fun e => ynyr (e ▸ ha)) (fun e => dl a e a (Or.inl ha) rfl))
  have h2sp : Seg h2 z sp y := tsp.congr (fun a ha => h2o a (fun e => ynsp (e ▸ ha)) (fun e => dl a e a (Or.inr ha) rfl))
  have h2z : h2 z = some ⟨parOf hd ctx, l.ptr, r.ptr, cz, some v⟩ := by rw [h2o z zny znl, tz]
  have h2C : RepC h2 hd lm rm ctx z := s.place.congr (h2o hd hdy hdl) (fun a ha => h2o a (fun e => ync (e ▸ ha)) (fun e => dc a (Or.inl e) a ha rfl))
  have h2n : h2 0 = none := by rw [h2o 0 zy zl']; exact s.null
  have hy1 : h y = some ⟨parOf z sp, 0, yr.ptr, cy, some vy⟩ := ty
  -- the middle
  have mid : ∃ g xp, (if y ≠ r.ptr then do
        let cy ← h2 y
        let xp := cy.parent
        let h ← (if yr.ptr ≠ 0 then setParent h2 yr.ptr cy.parent else some h2)
        let h ← setLeft h cy.parent yr.ptr
        let h ← setRight h y r.ptr
        let h ← setParent h r.ptr y
        pure (xp, h)
      else some (y, h2)) = some (xp, g) ∧ xp = parOf y sp ∧ (∃ q, g y = some ⟨q, l.ptr, (plug sp yr).ptr, cy, some vy⟩) ∧ Rep g y l ∧ Rep g y (plug sp yr) ∧
      Off (y :: (addrs yr.items ++ ctxAddrs sp)) h2 g := by
    cases sp with
    | nil =>
      have hyr : y = r.ptr := by rw [hr]; rfl
      refine ⟨h2, y, by rw [if_neg (by rw [← hyr]; simp)], rfl, ⟨_, h2y⟩, h2l, h2yr, Off.refl _ _⟩
    | cons f sp =>
      have hfL := hspL f (by simp)
      have hrp : r.ptr = rootP (f :: sp) y := by rw [hr, plug_ptr]; rfl
      have hrm : r.ptr ∈ ctxAddrs (f :: sp) := by rw [hrp]; exact rootP_mem sp f y
      have yrp : y ≠ r.ptr := fun e => ynsp (e ▸ hrm)
      have yr0 : 0 ∉ addrs yr.items := zyr
      obtain ⟨h3, e3, h3o, h3x⟩ := setParent_opt (x := f.a) h2yr yr0
      have h3o' : ∀ a, a ∉ addrs yr.items → h3 a = h2 a := by
        intro a ha
        apply h3o
        by_cases a0 : a = 0
        · exact Or.inr a0
        · left; rintro rfl; exact ha (ptr_mem a0)
      have hfa : f.a ∈ ctxAddrs (f :: sp) := by simp [ctxAddrs]
      obtain ⟨cf, hcf⟩ : ∃ cf, h2 f.a = some cf := ⟨_, h2sp.1⟩
      have h3f : h3 f.a = some cf := by rw [h3o' f.a (fun e => dys _ e _ hfa rfl), hcf]
      obtain ⟨h4, k4⟩ : ∃ h4, h4 = put h3 f.a (some { cf with left := yr.ptr }) := ⟨_, rfl⟩
      have f4 : setLeft h3 f.a yr.ptr = some h4 := by rw [setLeft, h3f, k4]; rfl
      have yf : y ≠ f.a := fun e => ynsp (e ▸ hfa)
      have h4y : h4 y = some ⟨f.a, l.ptr, yr.ptr, cy, some vy⟩ := by rw [k4, put_ne _ _ yf, h3o' y ynyr, h2y]; rfl
      have h4yr : Rep h4 f.a yr := by
        refine h2yr.reparent nyr (fun a ha hne => ?_) (fun hne => ?_) yr0
        · rw [k4, put_ne _ _ (fun e => dys a ha f.a hfa e), h3o a (Or.inl hne)]
        · rw [k4, put_ne _ _ (fun e => dys _ (ptr_mem hne) f.a hfa e), h3x hne]
      have h4sp : Seg h4 z (f :: sp) yr.ptr := by
        refine h2sp.setPtr nsp hfL (fun a ha hne => ?_) ?_
        · rw [k4, put_ne _ _ hne, h3o' a (fun e => dys a e a ha rfl)]
        · rw [k4, put_same, hcf]; rfl
      have h4r : Rep h4 z (plug (f :: sp) yr) := rep_plug.2 ⟨h4yr, h4sp⟩
      have hrp' : (plug (f :: sp) yr).ptr = r.ptr := by rw [hrp, plug_ptr]; rfl
      obtain ⟨h5, k5⟩ : ∃ h5, h5 = put h4 y (some ⟨f.a, l.ptr, r.ptr, cy, some vy⟩) := ⟨_, rfl⟩
      have f5 : setRight h4 y r.ptr = some h5 := by rw [setRight, h4y, k5]; rfl
      have hpm : ∀ a, a ∈ addrs (plug (f :: sp) yr).items ↔ a ∈ addrs yr.items ++ ctxAddrs (f :: sp) := fun a => (addrs_perm (f :: sp) yr).mem_iff
      have ynp : y ∉ addrs (plug (f :: sp) yr).items := by
        rw [hpm, List.mem_append]; exact fun e => e.elim ynyr ynsp
      have h5r : Rep h5 z (plug (f :: sp) yr) := h4r.congr (fun a ha => by rw [k5, put_ne _ _ (fun e : a = y => ynp (e ▸ ha))])
      have p0 : 0 ∉ addrs (plug (f :: sp) yr).items := by
        rw [hpm, List.mem_append]; exact fun e => e.elim zyr zsp
      have pn : (addrs (plug (f :: sp) yr).items).Nodup := by
        refine (List.Perm.nodup_iff (addrs_perm (f :: sp) yr)).2 ?_
        rw [List.nodup_append]
        exact ⟨nyr, nsp, dys⟩
      obtain ⟨h6, e6, h6o, h6r⟩ := setParent_opt (x := y) h5r p0
      rw [hrp', if_pos rp0] at e6
      rw [hrp'] at h6o h6r
      have h6y : h6 y = some ⟨f.a, l.ptr, (plug (f :: sp) yr).ptr, cy, some vy⟩ := by rw [h6o y (Or.inl yrp), k5, put_same, hrp']
      have h6rep : Rep h6 y (plug (f :: sp) yr) := by
        refine h5r.reparent pn (fun a ha hne => h6o a (Or.inl (by rw [← hrp']; exact hne))) (fun hne => ?_) p0
        rw [hrp'] at hne ⊢
        exact h6r hne
      have hoff : Off (y :: (addrs yr.items ++ ctxAddrs (f :: sp))) h2 h6 := by
        intro a ha
        simp only [List.mem_cons, List.mem_append, not_or] at ha
        rw [h6o a (Or.inl (fun e => ha.2.2 (e ▸ hrm))), k5, put_ne _ _ ha.1, k4, put_ne _ _ (fun e : a = f.a => ha.2.2 (e ▸ hfa)), h3o' a ha.2.1]
      refine ⟨h6, f.a, ?_, rfl, ⟨_, h6y⟩, h2l.congr (fun a ha => hoff a ?_), h6rep, hoff⟩
      · rw [if_pos yrp]
        have h2y' : h2 y = some ⟨f.a, l.ptr, yr.ptr, cy, some vy⟩ := h2y
        simp only [h2y', Option.bind_eq_bind, Option.bind_some]
        rw [e3]
        simp only [Option.bind_some, f4, f5, e6, Option.pure_def]
      · simp only [List.mem_cons, List.mem_append, not_or]
        exact ⟨fun e => ynl (e ▸ ha), fun e => dl a ha a (Or.inl e) rfl, fun e => dl a ha a (Or.inr e) rfl⟩
  obtain ⟨g, xp, ep, hxp, ⟨q, gy⟩, gl, gr, goff⟩ := mid
  have gz : g z = some ⟨parOf hd ctx, l.ptr, r.ptr, cz, some v⟩ := by
    rw [goff z (by simp only [List.mem_cons, List.mem_append, not_or]; exact ⟨zny, znyr, znsp⟩), h2z]
  have gC : RepC g hd lm rm ctx z := h2C.congr (goff hd (by simp only [List.mem_cons, List.mem_append, not_or]; exact ⟨hdy, hdyr, hdsp⟩))
    (fun a ha => goff a (by
      simp only [List.mem_cons, List.mem_append, not_or]
      exact ⟨fun e => ync (e ▸ ha), fun e => dc a (Or.inr (Or.inl e)) a ha rfl, fun e => dc a (Or.inr (Or.inr e)) a ha rfl⟩))
  have g0 : g 0 = none := by rw [goff 0 (by simp only [List.mem_cons, List.mem_append, not_or]; exact ⟨zy, zyr, zsp⟩), h2n]
  have gnd : (0 :: hd :: z :: y :: (addrs l.items ++ addrs (plug sp yr).items ++ ctxAddrs ctx)).Nodup := by
    refine (List.Perm.nodup_iff ?_).2 hperm
    refine List.Perm.cons _ (List.Perm.cons _ (List.Perm.cons _ (List.Perm.cons _ ?_)))
    exact (((addrs_perm sp yr).append_left _)).append_right _
  obtain ⟨h', e', s', o', z'⟩ := unlink_tail (x := yr.ptr) (xp := xp) gy gl gr gz gC g0 gnd
  have i' : (plug ctx (Shape.node y cz l vy (plug sp yr))).items = X ++ Y := by
    rw [plug_items, hX, hY, hr]
    simp only [Shape.items, plug_items, before_L hspL]
    simp
  have hXn : X ≠ [] := by
    rw [hX]
    intro e
    have := (List.append_eq_nil_iff.1 e).2
    cases l with
    | nil => exact hln rfl
    | node => simp [Shape.items] at this
  have hYn : Y ≠ [] := by
    rw [hY]
    intro e
    have := (List.append_eq_nil_iff.1 e).1
    cases r with
    | nil => exact hrn rfl
    | node => simp [Shape.items] at this
  have q1 : firstP hd (X ++ Y) = lm := by rw [hlm, firstP_append hXn, firstP_append hXn]
  have q2 : lastP hd (X ++ Y) = rm := by
    rw [hrm, lastP, lastP]
    simp only [List.reverse_append, List.reverse_cons]
    rw [firstP_append (by simpa using hYn), List.append_assoc, firstP_append (by simpa using hYn)]
  have hwhole : plug ctx (Shape.node z cz l v r) = plug (sp ++ ⟨false, z, cz, v, l⟩ :: ctx) (.node y cy .nil vy yr) := by
    rw [plug_append, ← hr]; rfl
  rw [hwhole] at hB hBr
  refine ⟨h', yr.ptr, xp, cy, ?_, ⟨⟨sp ++ ⟨false, y, cz, vy, l⟩ :: ctx, yr, ?_, ?_, rfl, ?_, ?_, ?_⟩, ?_, z'⟩⟩
  · have hne0 : ¬ (l.ptr = 0 ∨ r.ptr = 0) := by
      rintro (e | e)
      · exact lp0 e
      · exact rp0 e
    unfold unlink
    simp only [tz, Option.bind_eq_bind, Option.bind_some, if_neg hne0, hmin, hy1, ne_eq, not_true_eq_false, if_false]
    rw [if_pos (Ne.symm zny)]
    simp only [e1, f2, Option.bind_some]
    simp only [ne_eq, Option.bind_eq_bind] at ep e'
    rw [ep]
    simp only [Option.bind_some]
    exact e'
  · rw [q1, q2]
    exact (S.sub sp).2 (S.right.1 s')
  · rw [plug_append, ← i']; rfl
  · rw [hxp, parOf_append]; rfl
  · intro e
    have key := (RB.takeOut hB hBr (t := yr) (Or.inl ⟨rfl, rfl⟩)).1 e
    obtain ⟨m', hm', hr'⟩ := key
    obtain ⟨n, c1, c2, c3⟩ := RB.unplug hm' hr'
    refine RB.plug (RBC.swap sp n c1) c2 (fun e => ?_)
    have := c3 e
    cases sp with
    | nil => exact this
    | cons f sp => exact this
  · intro e
    obtain ⟨n, c1, c2⟩ := (RB.takeOut hB hBr (t := yr) (Or.inl ⟨rfl, rfl⟩)).2 e
    exact ⟨n, c1, RBC.swap sp _ c2⟩
  · intro a ha
    rw [← hL] at ha
    have hm : ∀ q, q ∈ addrs (plug ctx (Shape.node z cz l v r)).items ↔ q ∈ addrs (Shape.node z cz l v r).items ++ ctxAddrs ctx := fun q => (addrs_perm ctx _).mem_iff
    have hA : ∀ q, q ∈ addrs (Shape.node z cz l v r).items ↔ q ∈ addrs l.items ∨ q = z ∨ q ∈ addrs r.items := by intro q; simp [Shape.items, addrs]
    have hR : ∀ q, q ∈ addrs r.items ↔ q ∈ addrs (Shape.node y cy Shape.nil vy yr).items ++ ctxAddrs sp := fun q => by rw [hr]; exact (addrs_perm sp _).mem_iff
    have hE : addrs (Shape.node y cy Shape.nil vy yr).items = y :: addrs yr.items := by simp [Shape.items, addrs]
    simp only [owned, List.mem_cons, hm, List.mem_append, hA, hR, hE, not_or] at ha
    obtain ⟨a1, ⟨a2, a3, ⟨a4, a5⟩, a6⟩, a7⟩ := ha
    rw [o' a (by simp only [List.mem_cons, not_or]; exact ⟨a3, a4, a1, a7⟩), goff a (by simp only [List.mem_cons, List.mem_append, not_or]; exact ⟨a4, a5, a6⟩), h2o a a4 a2]

/-- **`rb_tree_erase_rebalance`** -/
theorem eraseRebalance_ok {h : Heap α} {hd lm rm : Ptr} {ctx : List (Frame α)} {z : Ptr} {cz : Bool} {l r : Shape α} {v : α} {m fuel : Nat} {X Y : List (Ptr × α)}
    (s : S h hd lm rm ctx (.node z cz l v r)) (hX : X = before ctx ++ l.items) (hY : Y = r.items ++ after ctx)
    (hlm : lm = firstP hd (X ++ (z, v) :: Y)) (hrm : rm = lastP hd (X ++ (z, v) :: Y)) (hB : RB (plug ctx (.node z cz l v r)) m) (hBr : (plug ctx (.node z cz l v r)).isRed = false)
    (hfuel : (X ++ (z, v) :: Y).length ≤ fuel) :
    ∃ h' T m, eraseRebalance hd fuel z h = some h' ∧ S h' hd (firstP hd (X ++ Y)) (lastP hd (X ++ Y)) [] T ∧ T.items = X ++ Y ∧ RB T m ∧ T.isRed = false ∧
      Off (owned hd (X ++ (z, v) :: Y)) h h' ∧ (∃ c, h' z = some c) := by
  have hL : (plug ctx (Shape.node z cz l v r)).items = X ++ (z, v) :: Y := by rw [plug_items, hX, hY]; simp [Shape.items]
  have hun : ∃ h' x xp b, unlink hd fuel z h = some (x, xp, b, h') ∧ Unlinked h h' hd (X ++ (z, v) :: Y) (X ++ Y) z x xp b := by
    by_cases hl : l = .nil
    · exact unlinkA (t := r) s (Or.inl ⟨hl, rfl⟩) hX hY hlm hrm hB hBr hfuel
    · by_cases hr : r = .nil
      · exact unlinkA (t := l) s (Or.inr ⟨hl, hr, rfl⟩) hX hY hlm hrm hB hBr hfuel
      · exact unlinkB s hl hr hX hY hlm hrm hB hBr hfuel
  obtain ⟨h1, x, xp, b, e1, ⟨⟨ctx', t', s1, i1, rfl, rfl, hb1, hb2⟩, o1, ⟨c1, hz1⟩⟩⟩ := hun
  have zL : z ∉ owned hd (X ++ Y) := by
    have hn := s.nodup
    rw [hL] at hn
    have zhd := s.nodeHd
    simp only [addrs, List.map_append, List.map_cons, List.nodup_cons, List.nodup_append, List.mem_cons, List.mem_append, not_or] at hn
    simp only [owned, addrs, List.map_append, List.mem_cons, List.mem_append, not_or]
    exact ⟨zhd, fun e => hn.2.2.2.2 z e z (Or.inl rfl) rfl, hn.2.2.2.1.1⟩
  have hsub : ∀ q, q ∈ owned hd (X ++ Y) → q ∈ owned hd (X ++ (z, v) :: Y) := by
    intro q hq
    simp only [owned, addrs, List.map_append, List.map_cons, List.mem_cons, List.mem_append] at hq ⊢
    tauto
  cases b with
  | true =>
    obtain ⟨m', r1, r2⟩ := hb1 rfl
    refine ⟨h1, _, m', ?_, S.whole.1 s1, i1, r1, r2, o1, ⟨c1, hz1⟩⟩
    rw [eraseRebalance, e1]; rfl
  | false =>
    obtain ⟨n, n1, n2⟩ := hb2 rfl
    have hlen := ctx_length ctx' t'
    rw [i1] at hlen
    simp only [List.length_append, List.length_cons] at hlen hfuel
    obtain ⟨k, rfl⟩ : ∃ k, fuel = k + 1 := ⟨fuel - 1, by omega⟩
    obtain ⟨h2, T, m', a1, a2, a3, a4, a5, a6⟩ := eraseLoop_ok (X ++ Y) k ctx' (by omega) h1 t' n s1 i1.symm n1 n2
    refine ⟨h2, T, m', ?_, a2, a3, a4, a5, o1.trans (a6.mono hsub), ⟨c1, by rw [a6 z zL, hz1]⟩⟩
    rw [eraseRebalance, e1]
    simp only [Option.bind_eq_bind, Option.bind_some, if_true]
    exact a1

end Verif.Rb
