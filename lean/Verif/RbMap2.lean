import Verif.RbMap

/-!
# Search, insertion, removal and clearing on trees with ordered keys
-/

namespace Verif.Rb

variable {K V : Type}

theorem lt_trans' {lt : K → K → Bool} (w : StrictWeak lt) {a b c : K} (h1 : lt a b = true) (h2 : lt b c = true) : lt a c = true := by
  rcases w.trans_neg a c b h1 with h | h
  · exact h
  · rw [w.asymm c b h] at h2; exact absurd h2 (by simp)

theorem lt_irr {lt : K → K → Bool} (w : StrictWeak lt) (a : K) : lt a a = false := by
  by_contra h
  have h' : lt a a = true := by simpa using h
  rw [w.asymm a a h'] at h'
  exact absurd h' (by simp)

theorem Asc.node {lt : K → K → Bool} {a : Ptr} {c : Bool} {l r : Shape (K × V)} {v : K × V} (h : Asc lt (Shape.node a c l v r).items) :
    Asc lt l.items ∧ Asc lt r.items ∧ (∀ x ∈ l.items, lt x.2.1 v.1 = true) ∧ (∀ x ∈ r.items, lt v.1 x.2.1 = true) ∧ (∀ x ∈ l.items, ∀ y ∈ r.items, lt x.2.1 y.2.1 = true) := by
  simp only [Asc, Shape.items, List.pairwise_append, List.pairwise_cons, List.mem_cons] at h ⊢
  obtain ⟨h1, ⟨h2, h3⟩, h4⟩ := h
  exact ⟨h1, h3, fun x hx => h4 x hx (a, v) (Or.inl rfl), fun x hx => h2 x hx, fun x hx y hy => h4 x hx y (Or.inr hy)⟩

theorem keyAt_eq {h : Heap (K × V)} {par a : Ptr} {c : Bool} {l r : Shape (K × V)} {v : K × V} (ht : Rep h par (.node a c l v r)) : keyAt h a = some v.1 := by
  rw [keyAt, ht.1]; rfl

/-- the descent of `lower_bound` and `find` -/
theorem lowerLoop_ok {lt : K → K → Bool} (w : StrictWeak lt) {h : Heap (K × V)} (key : K) : ∀ (t : Shape (K × V)) {par : Ptr} (y : Ptr) (fuel : Nat), Rep h par t → 0 ∉ addrs t.items → Asc lt t.items →
    t.items.length < fuel → lowerLoop lt h key fuel y t.ptr = some (firstP y (notBelow lt key t.items)) := by
  intro t
  induction t with
  | nil =>
    intro par y fuel _ _ _ hf
    obtain ⟨k, rfl⟩ : ∃ k, fuel = k + 1 := ⟨fuel - 1, by omega⟩
    simp [lowerLoop, Shape.ptr, notBelow, Shape.items, firstP]
  | node a c l v r ihl ihr =>
    intro par y fuel ht h0 hs hf
    simp only [Shape.items, List.length_append, List.length_cons] at hf
    obtain ⟨k, rfl⟩ : ∃ k, fuel = k + 1 := ⟨fuel - 1, by omega⟩
    have hA : ∀ q, q ∈ addrs (Shape.node a c l v r).items ↔ q ∈ addrs l.items ∨ q = a ∨ q ∈ addrs r.items := by intro q; simp [Shape.items, addrs]
    rw [hA] at h0
    simp only [not_or] at h0
    obtain ⟨s1, s2, s3, s4, s5⟩ := hs.node
    show lowerLoop lt h key (k + 1) y a = _
    rw [lowerLoop, if_neg (Ne.symm h0.2.1), keyAt_eq ht, ht.1]
    simp only [Option.bind_eq_bind, Option.bind_some]
    cases hv : lt v.1 key with
    | false =>
      simp only [if_true]
      rw [ihl a k ht.2.1 h0.1 s1 (by omega)]
      have : notBelow lt key (Shape.node a c l v r).items = notBelow lt key l.items ++ (a, v) :: notBelow lt key r.items := by
        simp [notBelow, Shape.items, hv]
      rw [this]
      cases hn : notBelow lt key l.items with
      | nil => rfl
      | cons x xs => rfl
    | true =>
      simp only [Bool.true_eq_false, if_false]
      rw [ihr y k ht.2.2 h0.2.2 s2 (by omega)]
      have hl : notBelow lt key l.items = [] := by
        rw [notBelow, List.filter_eq_nil_iff]
        intro x hx
        simp [lt_trans' w (s3 x hx) hv]
      have : notBelow lt key (Shape.node a c l v r).items = notBelow lt key l.items ++ notBelow lt key r.items := by
        simp [notBelow, Shape.items, hv]
      rw [this, hl, List.nil_append]

/-- the descent of `upper_bound` -/
theorem upperLoop_ok {lt : K → K → Bool} (w : StrictWeak lt) {h : Heap (K × V)} (key : K) : ∀ (t : Shape (K × V)) {par : Ptr} (y : Ptr) (fuel : Nat), Rep h par t → 0 ∉ addrs t.items → Asc lt t.items →
    t.items.length < fuel → upperLoop lt h key fuel y t.ptr = some (firstP y (above lt key t.items)) := by
  intro t
  induction t with
  | nil =>
    intro par y fuel _ _ _ hf
    obtain ⟨k, rfl⟩ : ∃ k, fuel = k + 1 := ⟨fuel - 1, by omega⟩
    simp [upperLoop, Shape.ptr, above, Shape.items, firstP]
  | node a c l v r ihl ihr =>
    intro par y fuel ht h0 hs hf
    simp only [Shape.items, List.length_append, List.length_cons] at hf
    obtain ⟨k, rfl⟩ : ∃ k, fuel = k + 1 := ⟨fuel - 1, by omega⟩
    have hA : ∀ q, q ∈ addrs (Shape.node a c l v r).items ↔ q ∈ addrs l.items ∨ q = a ∨ q ∈ addrs r.items := by intro q; simp [Shape.items, addrs]
    rw [hA] at h0
    simp only [not_or] at h0
    obtain ⟨s1, s2, s3, s4, s5⟩ := hs.node
    show upperLoop lt h key (k + 1) y a = _
    rw [upperLoop, if_neg (Ne.symm h0.2.1), keyAt_eq ht, ht.1]
    simp only [Option.bind_eq_bind, Option.bind_some]
    cases hv : lt key v.1 with
    | true =>
      simp only [if_true]
      rw [ihl a k ht.2.1 h0.1 s1 (by omega)]
      have : above lt key (Shape.node a c l v r).items = above lt key l.items ++ (a, v) :: above lt key r.items := by
        simp [above, Shape.items, hv]
      rw [this]
      cases hn : above lt key l.items with
      | nil => rfl
      | cons x xs => rfl
    | false =>
      simp only [Bool.false_eq_true, if_false]
      rw [ihr y k ht.2.2 h0.2.2 s2 (by omega)]
      have hl : above lt key l.items = [] := by
        rw [above, List.filter_eq_nil_iff]
        intro x hx e
        rw [lt_trans' w e (s3 x hx)] at hv
        exact absurd hv (by simp)
      have : above lt key (Shape.node a c l v r).items = above lt key l.items ++ above lt key r.items := by
        simp [above, Shape.items, hv]
      rw [this, hl, List.nil_append]

/-- the side of the place -/
def sideOf (d : Bool) : List (Frame (K × V)) → Bool
  | [] => d
  | f :: _ => f.isL

/-- the descent of `get_insert_unique_pos` -/
theorem posLoop_ok {lt : K → K → Bool} (w : StrictWeak lt) {h : Heap (K × V)} (key : K) : ∀ (t : Shape (K × V)) {par : Ptr} (y : Ptr) (d : Bool) (fuel : Nat), Rep h par t → 0 ∉ addrs t.items → Asc lt t.items →
    t.items.length < fuel → ∃ s, t = plug s .nil ∧ posLoop lt h key fuel y d t.ptr = some (parOf y s, sideOf d s) ∧ (∀ x ∈ before s, lt key x.2.1 = false) ∧ (∀ x ∈ after s, lt key x.2.1 = true) := by
  intro t
  induction t with
  | nil =>
    intro par y d fuel _ _ _ hf
    obtain ⟨k, rfl⟩ : ∃ k, fuel = k + 1 := ⟨fuel - 1, by omega⟩
    exact ⟨[], rfl, by simp [posLoop, Shape.ptr, parOf, sideOf], by simp [before], by simp [after]⟩
  | node a c l v r ihl ihr =>
    intro par y d fuel ht h0 hs hf
    simp only [Shape.items, List.length_append, List.length_cons] at hf
    obtain ⟨k, rfl⟩ : ∃ k, fuel = k + 1 := ⟨fuel - 1, by omega⟩
    have hA : ∀ q, q ∈ addrs (Shape.node a c l v r).items ↔ q ∈ addrs l.items ∨ q = a ∨ q ∈ addrs r.items := by intro q; simp [Shape.items, addrs]
    rw [hA] at h0
    simp only [not_or] at h0
    obtain ⟨s1, s2, s3, s4, s5⟩ := hs.node
    have hpar : ∀ (f : Frame (K × V)) (s : List (Frame (K × V))), parOf y (s ++ [f]) = parOf f.a s := by intro f s; cases s <;> rfl
    have hside : ∀ (f : Frame (K × V)) (s : List (Frame (K × V))), sideOf d (s ++ [f]) = sideOf f.isL s := by intro f s; cases s <;> rfl
    have hbef : ∀ (f : Frame (K × V)) (s : List (Frame (K × V))), before (s ++ [f]) = before [f] ++ before s := by
      intro f s
      induction s with
      | nil => simp [before]
      | cons g s ih =>
        show before (s ++ [f]) ++ _ = before [f] ++ (before s ++ _)
        rw [ih, List.append_assoc]
    have haft : ∀ (f : Frame (K × V)) (s : List (Frame (K × V))), after (s ++ [f]) = after s ++ after [f] := by
      intro f s
      induction s with
      | nil => simp [after]
      | cons g s ih =>
        show _ ++ after (s ++ [f]) = _ ++ after s ++ after [f]
        rw [ih, List.append_assoc]
    show ∃ s, _ ∧ posLoop lt h key (k + 1) y d a = _ ∧ _
    rw [posLoop, if_neg (Ne.symm h0.2.1), keyAt_eq ht, ht.1]
    simp only [Option.bind_eq_bind, Option.bind_some]
    cases hv : lt key v.1 with
    | true =>
      obtain ⟨s, e1, e2, e3, e4⟩ := ihl a true k ht.2.1 h0.1 s1 (by omega)
      refine ⟨s ++ [⟨true, a, c, v, r⟩], by rw [plug_append, ← e1]; rfl, ?_, ?_, ?_⟩
      · simp only [if_true]; rw [e2, hpar, hside]
      · rw [hbef]; intro x hx; exact e3 x (by simpa [before] using hx)
      · rw [haft]
        intro x hx
        rcases List.mem_append.1 hx with hx | hx
        · exact e4 x hx
        · simp only [after, List.append_nil, if_true, List.mem_cons] at hx
          rcases hx with rfl | hx
          · exact hv
          · exact lt_trans' w hv (s4 x hx)
    | false =>
      obtain ⟨s, e1, e2, e3, e4⟩ := ihr a false k ht.2.2 h0.2.2 s2 (by omega)
      refine ⟨s ++ [⟨false, a, c, v, l⟩], by rw [plug_append, ← e1]; rfl, ?_, ?_, ?_⟩
      · simp only [Bool.false_eq_true, if_false]; rw [e2, hpar, hside]
      · rw [hbef]
        intro x hx
        rcases List.mem_append.1 hx with hx | hx
        · simp only [before, List.nil_append, Bool.false_eq_true, if_false, List.mem_append, List.mem_singleton] at hx
          rcases hx with hx | rfl
          · by_contra hc
            rw [lt_trans' w (by simpa using hc) (s3 x hx)] at hv
            exact absurd hv (by simp)
          · exact hv
        · exact e3 x hx
      · rw [haft]; intro x hx; exact e4 x (by simpa [after] using hx)

/-! ## insertion -/

variable {α : Type}

/-- a new node at the place `ctx` -/
theorem insertNodeAt_ok {h : Heap α} {t : Tree0} {ctx : List (Frame α)} {np : Ptr} {v : α} {c : Bool} {d : Bool} {n : Nat} {A B : List (Ptr × α)} (hA : A = before ctx) (hB : B = after ctx)
    (s : S h t.hd (firstP t.hd (A ++ B)) (lastP t.hd (A ++ B)) ctx .nil) (hR : RB (plug ctx (.nil : Shape α)) n) (hRb : (plug ctx (.nil : Shape α)).isRed = false) (hcount : t.count = (A ++ B).length)
    (hnp : h np = some ⟨0, 0, 0, c, some v⟩) (np0 : np ≠ 0) (npo : np ∉ owned t.hd (A ++ B)) (hd' : ∀ f ∈ ctx.head?, d = f.isL) :
    ∃ h', insertNodeAt h t (parOf t.hd ctx) np d = some (np, h', { t with count := t.count + 1 }) ∧ Tr h' { t with count := t.count + 1 } (A ++ (np, v) :: B) ∧ Off (np :: owned t.hd (A ++ B)) h h' := by
  have hitems : (plug ctx (Shape.nil : Shape α)).items = A ++ B := by rw [plug_items, hA, hB]; simp [Shape.items]
  have sp := s.sep'
  have hmem : ∀ q, q ∈ addrs (A ++ B) ↔ q ∈ ctxAddrs ctx := by
    intro q
    rw [← hitems, (addrs_perm ctx .nil).mem_iff]; simp [Shape.items, addrs]
  simp only [owned, List.mem_cons, not_or, hmem] at npo
  obtain ⟨nphd, npc⟩ := npo
  have npP : np ≠ parOf t.hd ctx := by
    intro e
    have := parOf_mem t.hd ctx
    rw [← e] at this
    rcases List.mem_cons.1 this with h | h
    · exact nphd h
    · exact npc h
  obtain ⟨h1, k1⟩ : ∃ h1, h1 = put h np (some ⟨parOf t.hd ctx, 0, 0, c, some v⟩) := ⟨_, rfl⟩
  have f1 : setParent h np (parOf t.hd ctx) = some h1 := by rw [setParent, hnp, k1]; rfl
  obtain ⟨cp, hcp⟩ := s.place.par
  have h1o : ∀ q, q ≠ np → h1 q = h q := fun q hq => by rw [k1, put_ne _ _ hq]
  have h1P : h1 (parOf t.hd ctx) = some cp := by rw [h1o _ (Ne.symm npP), hcp]
  obtain ⟨h2, k2⟩ : ∃ h2, h2 = put h1 (parOf t.hd ctx) (some (newPar ctx np cp)) := ⟨_, rfl⟩
  have hC1 : RepC h1 t.hd (firstP t.hd (A ++ B)) (lastP t.hd (A ++ B)) ctx 0 := s.place.congr (h1o _ (Ne.symm nphd)) (fun q hq => h1o q (fun e => npc (e ▸ hq)))
  have s2 : S h2 t.hd (firstP t.hd (A ++ B)) (lastP t.hd (A ++ B)) ctx (.node np c .nil v .nil) := by
    refine ⟨⟨?_, trivial, trivial⟩, ?_, ?_, ?_⟩
    · rw [k2, put_ne _ _ npP, k1, put_same]; rfl
    · refine hC1.setPtr' sp h1P (fun q hq hne => by rw [k2, put_ne _ _ hne]) ?_
      rw [k2, put_same]; rfl
    · refine (List.Perm.nodup_iff (((addrs_perm ctx _).cons t.hd).cons 0)).2 ?_
      have hn := s.sep
      simp only [Shape.items, addrs, List.map_nil, List.nil_append, List.nodup_cons, List.mem_cons, not_or] at hn
      simp only [Shape.items, addrs, List.nil_append, List.map_cons, List.map_nil, List.cons_append, List.nodup_cons, List.mem_cons, not_or]
      exact ⟨⟨hn.1.1, Ne.symm np0, hn.1.2⟩, ⟨Ne.symm nphd, hn.2.1⟩, npc, hn.2.2⟩
    · rw [k2, put_ne _ _ (Ne.symm sp.par0), h1o _ (Ne.symm np0)]; exact s.null
  have hh2 := s2.place.header
  have nodAB : (addrs (A ++ B)).Nodup := by
    have := s.nodup
    rw [hitems] at this
    exact (List.nodup_cons.1 (List.nodup_cons.1 this).2).2
  -- the links
  have links : ∃ h3, (if parOf t.hd ctx = t.hd then do
        let h ← setParent h1 t.hd np
        let h ← setLeft h t.hd np
        setRight h t.hd np
      else if d = true then do
        let h ← setLeft h1 (parOf t.hd ctx) np
        let ch ← h t.hd
        if ch.left = parOf t.hd ctx then setLeft h t.hd np else pure h
      else do
        let h ← setRight h1 (parOf t.hd ctx) np
        let ch ← h t.hd
        if ch.right = parOf t.hd ctx then setRight h t.hd np else pure h) = some h3 ∧
      S h3 t.hd (firstP t.hd (A ++ (np, v) :: B)) (lastP t.hd (A ++ (np, v) :: B)) ctx (.node np c .nil v .nil) ∧ Off [t.hd] h2 h3 := by
    cases ctx with
    | nil =>
      simp only [before, after] at hA hB
      subst hA hB
      simp only [parOf] at h1P k2 ⊢
      simp only [if_true]
      have e1 : setParent h1 t.hd np = some h2 := by rw [setParent, h1P, k2]; rfl
      obtain ⟨h3, e3, s3, o3⟩ := s2.setLm np
      obtain ⟨h4, e4, s4, o4⟩ := s3.setRm np
      refine ⟨h4, ?_, s4, o3.trans o4⟩
      simp only [e1, e3, Option.bind_eq_bind, Option.bind_some, e4]
    | cons f ctx =>
      have hne : f.a ≠ t.hd := by
        intro e
        exact sp.hdC (by rw [← e]; simp [ctxAddrs])
      rw [if_neg (show parOf t.hd (f :: ctx) ≠ t.hd from hne)]
      simp only [parOf] at h1P k2 npP ⊢
      have hdf := hd' f (by simp)
      subst hdf
      simp only [rootP] at hh2
      cases hf : f.isL
      · simp only [Bool.false_eq_true, if_false]
        have e1 : setRight h1 f.a np = some h2 := by rw [setRight, h1P, k2]; simp [newPar, hf]
        simp only [e1, Option.bind_eq_bind, Option.bind_some, hh2]
        have hB' : B = after ctx := by rw [hB]; simp [after, hf]
        have hA' : A = before ctx ++ f.sib.items ++ [(f.a, f.v)] := by rw [hA]; simp [before, hf]
        have hfirst : firstP t.hd (A ++ (np, v) :: B) = firstP t.hd (A ++ B) := by
          rw [firstP_append (by rw [hA']; simp), firstP_append (by rw [hA']; simp)]
        have hrev : (A ++ B).reverse = B.reverse ++ (f.a, f.v) :: (before ctx ++ f.sib.items).reverse := by rw [hA']; simp
        by_cases hl : lastP t.hd (A ++ B) = f.a
        · simp only [hl, if_true]
          obtain ⟨h3, e3, s3, o3⟩ := s2.setRm np
          refine ⟨h3, e3, ?_, o3⟩
          have hBn : B = [] := by
            rw [lastP, hrev] at hl
            have := firstP_is (by
              rw [← hrev]
              have : (addrs (A ++ B).reverse) = (addrs (A ++ B)).reverse := by simp [addrs]
              rw [this]; exact List.nodup_reverse.2 nodAB) hl
            simpa using this
          have hlast : lastP t.hd (A ++ (np, v) :: B) = np := by rw [hBn]; simp [lastP, firstP]
          rw [hfirst, hlast]
          exact s3
        · simp only [hl, if_false]
          refine ⟨h2, rfl, ?_, Off.refl _ _⟩
          have hBn : B ≠ [] := by
            intro e
            rw [lastP, hrev, e] at hl
            exact hl rfl
          have hlast : lastP t.hd (A ++ (np, v) :: B) = lastP t.hd (A ++ B) := by
            rw [lastP, lastP]
            simp only [List.reverse_append, List.reverse_cons]
            rw [List.append_assoc, firstP_append (by simpa using hBn), firstP_append (by simpa using hBn)]
          rw [hfirst, hlast]
          exact s2
      · simp only [if_true]
        have e1 : setLeft h1 f.a np = some h2 := by rw [setLeft, h1P, k2]; simp [newPar, hf]
        simp only [e1, Option.bind_eq_bind, Option.bind_some, hh2]
        have hA' : A = before ctx := by rw [hA]; simp [before, hf]
        have hB' : B = (f.a, f.v) :: (f.sib.items ++ after ctx) := by rw [hB]; simp [after, hf]
        have hlast : lastP t.hd (A ++ (np, v) :: B) = lastP t.hd (A ++ B) := by
          rw [lastP, lastP]
          simp only [List.reverse_append, List.reverse_cons]
          rw [List.append_assoc, firstP_append (by rw [hB']; simp), firstP_append (by rw [hB']; simp)]
        by_cases hl : firstP t.hd (A ++ B) = f.a
        · simp only [hl, if_true]
          obtain ⟨h3, e3, s3, o3⟩ := s2.setLm np
          refine ⟨h3, e3, ?_, o3⟩
          have hAn : A = [] := by
            rw [hB'] at hl nodAB
            exact firstP_is nodAB hl
          have hfirst : firstP t.hd (A ++ (np, v) :: B) = np := by rw [hAn]; rfl
          rw [hfirst, hlast]
          exact s3
        · simp only [hl, if_false]
          refine ⟨h2, rfl, ?_, Off.refl _ _⟩
          have hAn : A ≠ [] := by
            intro e
            rw [e, hB'] at hl
            exact hl rfl
          have hfirst : firstP t.hd (A ++ (np, v) :: B) = firstP t.hd (A ++ B) := by rw [firstP_append hAn, firstP_append hAn]
          rw [hfirst, hlast]
          exact s2
  obtain ⟨h3, e3, s3, o3⟩ := links
  obtain ⟨m, hC, hnil, _⟩ := RB.unplug hR hRb
  cases hnil
  have hLi : A ++ (np, v) :: B = (plug ctx (Shape.node np c .nil v .nil)).items := by rw [plug_items, hA, hB]; simp [Shape.items]
  have hlen := ctx_length ctx (Shape.nil : Shape α)
  rw [hitems] at hlen
  obtain ⟨h4, T, m', e4, s4, i4, r4, b4, o4⟩ := insertRebalance_ok (fuel := t.count + 2) (A ++ (np, v) :: B) s3 hLi hC (by rw [hcount]; omega)
  refine ⟨h4, ?_, ⟨T, m', s4, i4, r4, b4, ?_⟩, ?_⟩
  · unfold insertNodeAt
    simp only [Option.bind_eq_bind] at e3
    simp only [f1, Option.bind_eq_bind, Option.bind_some]
    rw [e3]
    simp only [Option.bind_some, e4, Option.pure_def]
  · simp only [hcount, List.length_append, List.length_cons]; omega
  · have hsub : ∀ q, q ∈ owned t.hd (A ++ (np, v) :: B) → q ∈ np :: owned t.hd (A ++ B) := by
      intro q hq
      simp only [owned, addrs, List.map_append, List.map_cons, List.mem_cons, List.mem_append] at hq ⊢
      tauto
    intro q hq
    have hq' := hq
    simp only [owned, List.mem_cons, not_or, hmem] at hq'
    rw [o4 q (fun e => hq (hsub q e)), o3 q (by simpa using hq'.2.1), k2, put_ne _ _ (fun e => ?_), h1o q hq'.1]
    have := parOf_mem t.hd ctx
    rw [← e] at this
    rcases List.mem_cons.1 this with h | h
    · exact hq'.2.1 h
    · exact hq'.2.2 h

/-! ## removal -/

/-- **`erase(iterator)`** -/
theorem erase_ok {h : Heap α} {t : Tree0} {p : Ptr} {v : α} {X Y : List (Ptr × α)} (hT : Tr h t (X ++ (p, v) :: Y)) :
    ∃ h', erase h t p = some (firstP t.hd Y, h', { t with count := t.count - 1 }) ∧ Tr h' { t with count := t.count - 1 } (X ++ Y) ∧ Off (owned t.hd (X ++ (p, v) :: Y)) h h' ∧ h' p = none := by
  obtain ⟨T, m, s, hi, hR, hb, hc⟩ := hT
  obtain ⟨ctx, c, l, r, rfl, hX, hY⟩ := find_place T hi
  have s' := S.whole.2 s
  have hinc := inc_ok (fuel := t.count + 1) s' (by rw [hi]) (by rw [hi, hc]; omega)
  obtain ⟨h1, T, m', e1, s1, i1, r1, b1, o1, ⟨cz, hz⟩⟩ := eraseRebalance_ok (fuel := t.count + 2) s' hX hY rfl rfl hR hb (by rw [hc]; omega)
  have pL : p ∉ owned t.hd (X ++ Y) := by
    have hn := s.nodup
    have hi' : (plug ([] : List (Frame α)) (plug ctx (Shape.node p c l v r))).items = X ++ (p, v) :: Y := hi
    rw [hi'] at hn
    have phd := s'.nodeHd
    simp only [addrs, List.map_append, List.map_cons, List.nodup_cons, List.nodup_append, List.mem_cons, List.mem_append, not_or] at hn
    simp only [owned, addrs, List.map_append, List.mem_cons, List.mem_append, not_or]
    exact ⟨phd, fun e => hn.2.2.2.2 p e p (Or.inl rfl) rfl, hn.2.2.2.1.1⟩
  refine ⟨put h1 p none, ?_, ⟨T, m', ?_, i1, r1, b1, ?_⟩, ?_, put_same _ _ _⟩
  · unfold erase
    rw [hinc]
    simp only [Option.bind_eq_bind, Option.bind_some, e1, free, hz, Option.map_some, Option.pure_def, hY]
  · refine s1.congr (fun q hq => put_ne _ _ (fun e => pL ?_)) (put_ne _ _ (Ne.symm s'.node0))
    rw [← e]
    have : (plug ([] : List (Frame α)) T).items = X ++ Y := i1
    rw [this] at hq
    exact hq
  · simp only [hc, List.length_append, List.length_cons]; omega
  · intro q hq
    rw [put_ne _ _ (fun e => hq (by rw [e]; simp [owned, addrs])), o1 q hq]

/-- `erase_since` frees exactly the nodes of the tree -/
theorem eraseSince_ok : ∀ (t : Shape α) {h : Heap α} {par : Ptr} (fuel : Nat), Rep h par t → 0 ∉ addrs t.items → (addrs t.items).Nodup → t.items.length < fuel →
    ∃ h', eraseSince fuel t.ptr h = some h' ∧ (∀ q ∈ addrs t.items, h' q = none) ∧ Off (addrs t.items) h h' := by
  intro t
  induction t with
  | nil =>
    intro h par fuel _ _ _ hf
    obtain ⟨k, rfl⟩ : ∃ k, fuel = k + 1 := ⟨fuel - 1, by omega⟩
    exact ⟨h, by simp [eraseSince, Shape.ptr], by simp [Shape.items, addrs], Off.refl _ _⟩
  | node a c l v r ihl ihr =>
    intro h par fuel ht h0 hn hf
    simp only [Shape.items, List.length_append, List.length_cons] at hf
    obtain ⟨k, rfl⟩ : ∃ k, fuel = k + 1 := ⟨fuel - 1, by omega⟩
    have hA : ∀ q, q ∈ addrs (Shape.node a c l v r).items ↔ q ∈ addrs l.items ∨ q = a ∨ q ∈ addrs r.items := by intro q; simp [Shape.items, addrs]
    rw [hA] at h0
    simp only [not_or] at h0
    simp only [Shape.items, addrs, List.map_append, List.map_cons, List.nodup_append, List.nodup_cons, List.mem_cons] at hn
    obtain ⟨nl, ⟨ar, nr⟩, dl⟩ := hn
    have al : a ∉ addrs l.items := fun e => dl a e a (Or.inl rfl) rfl
    obtain ⟨h1, e1, f1, o1⟩ := ihr k ht.2.2 h0.2.2 nr (by omega)
    have h1a : h1 a = some ⟨par, l.ptr, r.ptr, c, some v⟩ := by rw [o1 a ar, ht.1]
    have h1l : Rep (put h1 a none) a l := ht.2.1.congr (fun q hq => by
      rw [put_ne _ _ (fun e : q = a => al (e ▸ hq)), o1 q (fun e => dl q hq q (Or.inr e) rfl)])
    obtain ⟨h2, e2, f2, o2⟩ := ihl k h1l h0.1 nl (by omega)
    refine ⟨h2, ?_, ?_, ?_⟩
    · show eraseSince (k + 1) a h = _
      rw [eraseSince, if_neg (Ne.symm h0.2.1), ht.1]
      simp only [Option.bind_eq_bind, Option.bind_some, e1, h1a, free, Option.map_some]
      exact e2
    · intro q hq
      rcases (hA q).1 hq with h | h | h
      · exact f2 q h
      · rw [h, o2 a al, put_same]
      · by_cases hl : q ∈ addrs l.items
        · exact f2 q hl
        · rw [o2 q hl]
          by_cases ha : q = a
          · rw [ha, put_same]
          · rw [put_ne _ _ ha]; exact f1 q h
    · intro q hq
      rw [hA] at hq
      simp only [not_or] at hq
      rw [o2 q hq.1, put_ne _ _ hq.2.1, o1 q hq.2.2]

/-- the empty map -/
theorem Tr.empty {h : Heap α} {hd : Ptr} (h1 : h hd = some ⟨0, hd, hd, true, none⟩) (h0 : h 0 = none) : Tr h ⟨hd, 0⟩ ([] : List (Ptr × α)) := by
  have hd0 : hd ≠ 0 := by rintro rfl; rw [h0] at h1; exact absurd h1 (by simp)
  exact ⟨.nil, 0, ⟨trivial, h1, by simp [plug, Shape.items, addrs, Ne.symm hd0], h0⟩, rfl, .nil, rfl, rfl⟩

/-- **`clear`** -/
theorem clear_ok {h : Heap α} {t : Tree0} {L : List (Ptr × α)} (hT : Tr h t L) :
    ∃ h', clear h t = some (h', { t with count := 0 }) ∧ Tr h' { t with count := 0 } ([] : List (Ptr × α)) ∧ Off (owned t.hd L) h h' ∧ (∀ q ∈ addrs L, h' q = none) := by
  obtain ⟨T, m, s, hi, hR, hb, hc⟩ := hT
  have sp := s.sep'
  unfold clear
  by_cases h0 : t.count = 0
  · rw [if_neg (by simp [h0])]
    have hL : L = [] := List.length_eq_zero_iff.1 (by omega)
    subst hL
    have hN : T = .nil := by
      by_contra hne
      exact items_ne hne hi
    subst hN
    obtain ⟨hd, cnt⟩ := t
    simp only at h0
    subst h0
    have hh : h hd = some ⟨0, hd, hd, true, none⟩ := s.place.header
    exact ⟨h, rfl, Tr.empty hh s.null, Off.refl _ _, by simp [addrs]⟩
  · rw [if_pos h0]
    rw [hi] at sp
    obtain ⟨h1, e1, f1, o1⟩ := eraseSince_ok T (t.count + 1) s.tree (by rw [hi]; exact sp.zero) (by rw [hi]; exact sp.nodA) (by rw [hi, hc]; omega)
    rw [hi] at f1 o1
    have hr : root h t.hd = some T.ptr := s.root
    have hh : h t.hd = some ⟨T.ptr, firstP t.hd L, lastP t.hd L, true, none⟩ := s.place.header
    have h1h : h1 t.hd = some ⟨T.ptr, firstP t.hd L, lastP t.hd L, true, none⟩ := by rw [o1 _ sp.hdA, hh]
    refine ⟨put h1 t.hd (some ⟨0, t.hd, t.hd, true, none⟩), ?_, Tr.empty (put_same _ _ _) ?_, ?_, ?_⟩
    · have pp : ∀ (g : Heap α) (p : Ptr) (a b : Option (Cell α)), put (put g p a) p b = put g p b := by
        intro g p a b; funext q; by_cases hq : q = p <;> simp [put, hq]
      simp only [hr, Option.bind_eq_bind, Option.bind_some, e1, setLeft, h1h, Option.map_some, setParent, setRight, put_same, pp, Option.pure_def]
    · rw [put_ne _ _ (Ne.symm sp.hd0), o1 0 sp.zero]; exact s.null
    · intro q hq
      simp only [owned, List.mem_cons, not_or] at hq
      rw [put_ne _ _ hq.1, o1 q hq.2]
    · intro q hq
      rw [put_ne _ _ (fun e : q = t.hd => sp.hdA (e ▸ hq)), f1 q hq]

end Verif.Rb
