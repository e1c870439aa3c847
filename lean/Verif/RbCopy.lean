import Verif.RbMap7

/-!
# Copying — /repo/mylib/mystl/rb_tree.h
-/

namespace Verif.Rb

variable {α : Type}

/-- `clone_node` — rb_tree.h:1427-1436; the new node's `parent` is null until the caller sets it -/
def clone (alloc : Heap α → Ptr) (h : Heap α) (x : Ptr) : Option (Ptr × Heap α) := do
  let c ← h x
  let v ← c.val
  pure (alloc h, put h (alloc h) (some ⟨0, 0, 0, c.red, some v⟩))

mutual

/-- `copy_from(x, p)` — rb_tree.h:1645-1675 (without exceptions): a new node for `x` below `p`, then its subtrees -/
def copyFrom (alloc : Heap α → Ptr) : Nat → Ptr → Ptr → Heap α → Option (Ptr × Heap α)
  | 0, _, _, _ => none
  | n + 1, x, p, h => do
    let (top, h) ← clone alloc h x
    let h ← setParent h top p
    let h ← copyRest alloc n x top h
    pure (top, h)

/-- the subtrees of `x` are copied below `y`: the right one recursively (lines 1654-1655, 1663-1664), the left one by the loop -/
def copyRest (alloc : Heap α → Ptr) : Nat → Ptr → Ptr → Heap α → Option (Heap α)
  | 0, _, _, _ => none
  | n + 1, x, y, h => do
    let cx ← h x
    let h ← (if cx.right ≠ 0 then do
        let (r, h) ← copyFrom alloc n cx.right y h
        setRight h y r
      else some h)
    let cx ← h x
    copyLeft alloc n y cx.left h

/-- the loop — rb_tree.h:1658-1667 -/
def copyLeft (alloc : Heap α → Ptr) : Nat → Ptr → Ptr → Heap α → Option (Heap α)
  | 0, _, _, _ => none
  | n + 1, p, x, h =>
    if x = 0 then pure h
    else do
      let (y, h) ← clone alloc h x
      let h ← setLeft h p y
      let h ← setParent h y p
      copyRest alloc n x y h

end

/-- the copy constructor — rb_tree.h:969-982 -/
def copy (alloc : Heap α → Ptr) (h : Heap α) (rhs : Tree0) : Option (Heap α × Tree0) := do
  let hd := alloc h
  let (h, _) := init h hd
  let h ← (if rhs.count ≠ 0 then do
      let r ← root h rhs.hd
      let (top, h) ← copyFrom alloc (4 * rhs.count + 4) r hd h
      let h ← setParent h hd top
      let l ← treeMin h (rhs.count + 1) top
      let h ← setLeft h hd l
      let m ← treeMax h (rhs.count + 1) top
      setRight h hd m
    else some h)
  pure (h, ⟨hd, rhs.count⟩)

/-- the same tree at other addresses -/
inductive Like : Shape α → Shape α → Prop
  | nil : Like .nil .nil
  | node {a b : Ptr} {c : Bool} {l r l' r' : Shape α} {v : α} : Like l l' → Like r r' → Like (.node a c l v r) (.node b c l' v r')

theorem Like.isRed {T T' : Shape α} (h : Like T T') : T'.isRed = T.isRed := by cases h <;> rfl

theorem Like.rb {T T' : Shape α} (h : Like T T') : ∀ {m : Nat}, RB T m → RB T' m := by
  induction h with
  | nil => intro m h; exact h
  | node hl hr ihl ihr =>
    intro m h
    cases h with
    | red h1 h2 h3 h4 => exact .red (ihl h1) (ihr h2) (by rw [hl.isRed]; exact h3) (by rw [hr.isRed]; exact h4)
    | black h1 h2 => exact .black (ihl h1) (ihr h2)

theorem Like.vals {T T' : Shape α} (h : Like T T') : T'.items.map (fun x => x.2) = T.items.map (fun x => x.2) := by
  induction h with
  | nil => rfl
  | node _ _ ihl ihr => simp only [Shape.items, List.map_append, List.map_cons, ihl, ihr]

theorem Like.length {T T' : Shape α} (h : Like T T') : T'.items.length = T.items.length := by
  have := congrArg List.length h.vals
  simpa using this

theorem put_put (h : Heap α) (p : Ptr) (c c' : Option (Cell α)) : put (put h p c) p c' = put h p c' := by
  funext q
  by_cases e : q = p
  · rw [e, put_same, put_same]
  · rw [put_ne _ _ e, put_ne _ _ e, put_ne _ _ e]

theorem Bounded.off {h h' : Heap α} {A : List Ptr} (hf : Bounded h) (ho : Off A h h') : Bounded h' := by
  obtain ⟨B, hB⟩ := hf
  obtain ⟨C, hC⟩ := list_bound A
  refine ⟨max B C, fun q hq => ?_⟩
  rw [ho q (fun e => absurd (hC q e) (Nat.not_lt.2 (le_trans (le_max_right B C) hq)))]
  exact hB q (le_trans (le_max_left B C) hq)

theorem Bounded.put {h : Heap α} (hf : Bounded h) (p : Ptr) (c : Option (Cell α)) : Bounded (put h p c) :=
  hf.off (A := [p]) (fun q hq => put_ne _ _ (by simpa using hq))

/-- what a copy of the tree `T` below `p` is -/
structure Copied (h h' : Heap α) (p : Ptr) (T T' : Shape α) : Prop where
  rep : Rep h' p T'
  like : Like T T'
  fresh : ∀ q ∈ addrs T'.items, h q = none
  null : 0 ∉ addrs T'.items
  nodup : (addrs T'.items).Nodup

theorem Rep.alloc {h : Heap α} : ∀ {t : Shape α} {par : Ptr}, Rep h par t → ∀ q ∈ addrs t.items, h q ≠ none := by
  intro t
  induction t with
  | nil => intro par _ q hq; simp [Shape.items, addrs] at hq
  | node a c l v r ihl ihr =>
    intro par hr q hq
    simp only [Shape.items, addrs, List.map_append, List.map_cons, List.mem_append, List.mem_cons] at hq
    rcases hq with hq | rfl | hq
    · exact ihl hr.2.1 q hq
    · rw [hr.1]; simp
    · exact ihr hr.2.2 q hq

/-- the three functions -/
theorem copy_ok {alloc : Heap α → Ptr} (ga : GoodAlloc alloc) : ∀ (T : Shape α),
    (∀ (h : Heap α) (par p : Ptr) (fuel : Nat), T ≠ .nil → Rep h par T → 0 ∉ addrs T.items → Bounded h → h 0 = none → h p ≠ none → 4 * T.items.length ≤ fuel → ∃ T' h', copyFrom alloc fuel T.ptr p h = some (T'.ptr, h') ∧ Copied h h' p T T' ∧
      Off (addrs T'.items) h h') ∧
    (∀ (h : Heap α) (par p : Ptr) (c : Cell α) (fuel : Nat), Rep h par T → 0 ∉ addrs T.items → Bounded h → h 0 = none → h p = some c → c.left = 0 → p ∉ addrs T.items → 4 * T.items.length < fuel →
      ∃ T' h', copyLeft alloc fuel p T.ptr h = some h' ∧ Copied h h' p T T' ∧ h' p = some { c with left := T'.ptr } ∧ Off (p :: addrs T'.items) h h') := by
  intro T
  induction T with
  | nil =>
    refine ⟨fun h par p fuel h1 => absurd rfl h1, fun h par p c fuel _ _ _ _ hp hc _ hf => ?_⟩
    obtain ⟨n, rfl⟩ : ∃ n, fuel = n + 1 := ⟨fuel - 1, by omega⟩
    refine ⟨.nil, h, ?_, ⟨trivial, .nil, by simp [Shape.items, addrs], by simp [Shape.items, addrs], by simp [Shape.items, addrs]⟩, ?_, Off.refl _ _⟩
    · rw [copyLeft, if_pos (show (Shape.nil : Shape α).ptr = 0 from rfl)]; rfl
    · rw [hp, show (Shape.nil : Shape α).ptr = 0 from rfl, ← hc]
  | node a c l v r ihl ihr =>
    -- the subtrees
    have core : ∀ (h : Heap α) (par p y : Ptr) (fuel : Nat), Rep h par (.node a c l v r) → 0 ∉ addrs (Shape.node a c l v r).items → Bounded h → h 0 = none → h y = some ⟨p, 0, 0, c, some v⟩ → y ∉ addrs (Shape.node a c l v r).items →
        4 * (Shape.node a c l v r).items.length ≤ fuel + 2 → ∃ l' r' h', copyRest alloc fuel a y h = some h' ∧ Rep h' p (.node y c l' v r') ∧ Like l l' ∧ Like r r' ∧ (∀ q ∈ addrs l'.items ++ addrs r'.items, h q = none) ∧
          0 ∉ addrs l'.items ++ addrs r'.items ∧ (y :: (addrs l'.items ++ addrs r'.items)).Nodup ∧ Off (y :: (addrs l'.items ++ addrs r'.items)) h h' := by
      intro h par p y fuel hr h0 hfin hnull hy hyn hf
      simp only [Shape.items, List.length_append, List.length_cons] at hf
      obtain ⟨n, rfl⟩ : ∃ n, fuel = n + 1 := ⟨fuel - 1, by omega⟩
      simp only [Shape.items, addrs, List.map_append, List.map_cons, List.mem_append, List.mem_cons, not_or] at h0 hyn
      obtain ⟨ra, rl, rr⟩ := hr
      -- the right subtree
      have hright : ∃ r' h1, (if r.ptr ≠ 0 then (copyFrom alloc n r.ptr y h).bind (fun x => setRight x.2 y x.1) else some h) = some h1 ∧ Copied h h1 y r r' ∧ h1 y = some ⟨p, 0, r'.ptr, c, some v⟩ ∧ Off (y :: addrs r'.items) h h1 := by
        cases hrc : r with
        | nil =>
          refine ⟨.nil, h, by rw [if_neg (by simp [Shape.ptr])], ⟨trivial, .nil, by simp [Shape.items, addrs], by simp [Shape.items, addrs], by simp [Shape.items, addrs]⟩, hy, Off.refl _ _⟩
        | node b cb lb vb rb =>
          rw [← hrc]
          have hne : r ≠ .nil := by rw [hrc]; simp
          have hp : r.ptr ≠ 0 := fun e => hne ((ptr_zero h0.2.2).1 e)
          obtain ⟨r', h1, e1, c1, o1⟩ := ihr.1 h a y n hne rr h0.2.2 hfin hnull (by rw [hy]; simp) (by omega)
          have hyr : y ∉ addrs r'.items := fun e => by have := c1.fresh y e; rw [hy] at this; exact absurd this (by simp)
          have hy1 : h1 y = some ⟨p, 0, 0, c, some v⟩ := by rw [o1 y hyr]; exact hy
          refine ⟨r', put h1 y (some ⟨p, 0, r'.ptr, c, some v⟩), ?_, ⟨c1.rep.congr (fun q hq => put_ne _ _ (fun e : q = y => hyr (e ▸ hq))), c1.like, c1.fresh, c1.null, c1.nodup⟩, put_same _ _ _, ?_⟩
          · rw [if_pos hp, e1]
            simp only [Option.bind_some, setRight, hy1, Option.map_some]
          · intro q hq
            rw [put_ne _ _ (fun e : q = y => hq (by rw [e]; simp)), o1 q (fun e => hq (List.mem_cons_of_mem _ e))]
      obtain ⟨r', h1, e1, c1, hy1, o1⟩ := hright
      have hyr : y ∉ addrs r'.items := fun e => by have := c1.fresh y e; rw [hy] at this; exact absurd this (by simp)
      have keep : ∀ q, h q ≠ none → q ≠ y → h1 q = h q := fun q hq hqy => o1 q (by
        rw [List.mem_cons, not_or]; exact ⟨hqy, fun e => hq (c1.fresh q e)⟩)
      have hal := Rep.alloc rl
      have y0 : y ≠ 0 := by rintro rfl; rw [hnull] at hy; exact absurd hy (by simp)
      have rl1 : Rep h1 a l := rl.congr (fun q hq => keep q (hal q hq) (fun e => hyn.1 (e ▸ hq)))
      have ra1 : h1 a = h a := keep a (by rw [ra]; simp) (fun e => hyn.2.1 e.symm)
      have hn1 : h1 0 = none := by
        rw [o1 0 (by rw [List.mem_cons, not_or]; exact ⟨Ne.symm y0, c1.null⟩)]; exact hnull
      obtain ⟨l', h2, e2, c2, hy2, o2⟩ := ihl.2 h1 a y _ n rl1 h0.1 (hfin.off o1) hn1 hy1 rfl hyn.1 (by omega)
      have hyl : y ∉ addrs l'.items := fun e => by have := c2.fresh y e; rw [hy1] at this; exact absurd this (by simp)
      have hdis : ∀ q ∈ addrs l'.items, q ∉ addrs r'.items := fun q hq hq' => Rep.alloc c1.rep q hq' (c2.fresh q hq)
      refine ⟨l', r', h2, ?_, ⟨hy2, c2.rep, c1.rep.congr (fun q hq => ?_)⟩, c2.like, c1.like, ?_, ?_, ?_, ?_⟩
      · rw [copyRest, ra]
        simp only [Option.bind_eq_bind, Option.bind_some, e1, ra1, ra]
        exact e2
      · refine o2 q ?_
        rw [List.mem_cons, not_or]
        exact ⟨fun e => hyr (e ▸ hq), fun e => hdis q e hq⟩
      · intro q hq
        rcases List.mem_append.1 hq with hq | hq
        · have := c2.fresh q hq
          rwa [o1 q (by rw [List.mem_cons, not_or]; exact ⟨fun e => hyl (e ▸ hq), hdis q hq⟩)] at this
        · exact c1.fresh q hq
      · rw [List.mem_append, not_or]; exact ⟨c2.null, c1.null⟩
      · rw [List.nodup_cons, List.mem_append, not_or]
        exact ⟨⟨hyl, hyr⟩, List.nodup_append.2 ⟨c2.nodup, c1.nodup, fun q hq q' hq' e => hdis q hq (e ▸ hq')⟩⟩
      · intro q hq
        rw [List.mem_cons, List.mem_append, not_or, not_or] at hq
        rw [o2 q (by rw [List.mem_cons, not_or]; exact ⟨hq.1, hq.2.1⟩), o1 q (by rw [List.mem_cons, not_or]; exact ⟨hq.1, hq.2.2⟩)]
    -- the result in order
    have fin : ∀ (h h1 h' : Heap α) (y p : Ptr) (l' r' : Shape α), h y = none → y ≠ 0 → (∀ q, h1 q = none → h q = none) → Rep h' p (.node y c l' v r') → Like l l' → Like r r' → (∀ q ∈ addrs l'.items ++ addrs r'.items, h1 q = none) →
        0 ∉ addrs l'.items ++ addrs r'.items → (y :: (addrs l'.items ++ addrs r'.items)).Nodup → Copied h h' p (.node a c l v r) (.node y c l' v r') := by
      intro h h1 h' y p l' r' hy y0 hk hrep hl hr hfr hnu hnd
      have hperm : (addrs (Shape.node y c l' v r').items).Perm (y :: (addrs l'.items ++ addrs r'.items)) := by
        simp only [Shape.items, addrs, List.map_append, List.map_cons]
        exact List.perm_middle
      refine ⟨hrep, .node hl hr, fun q hq => ?_, fun e => ?_, hperm.nodup_iff.2 hnd⟩
      · rcases List.mem_cons.1 (hperm.mem_iff.1 hq) with rfl | hq
        · exact hy
        · exact hk q (hfr q hq)
      · rcases List.mem_cons.1 (hperm.mem_iff.1 e) with e | e
        · exact y0 e.symm
        · exact hnu e
    have offp : ∀ (y : Ptr) (l' r' : Shape α) (q : Ptr), q ∈ y :: (addrs l'.items ++ addrs r'.items) ↔ q ∈ addrs (Shape.node y c l' v r').items := by
      intro y l' r' q
      simp only [Shape.items, addrs, List.map_append, List.map_cons, List.mem_cons, List.mem_append]
      tauto
    refine ⟨fun h par p fuel _ hr h0 hfin hnull hp hf => ?_, fun h par p cp fuel hr h0 hfin hnull hp hcl hpn hf => ?_⟩
    · obtain ⟨n, rfl⟩ : ∃ n, fuel = n + 1 := ⟨fuel - 1, by simp only [Shape.items, List.length_append, List.length_cons] at hf; omega⟩
      obtain ⟨y, hy⟩ : ∃ y, y = alloc h := ⟨_, rfl⟩
      obtain ⟨y0, yf⟩ := ga h hfin
      rw [← hy] at y0 yf
      have hyn : y ∉ addrs (Shape.node a c l v r).items := fun e => Rep.alloc hr y e yf
      obtain ⟨l', r', h', e1, g1, g2, g3, g4, g5, g6, g7⟩ := core (put h y (some ⟨p, 0, 0, c, some v⟩)) par p y n
        (hr.congr (fun q hq => put_ne _ _ (fun e : q = y => hyn (e ▸ hq)))) h0 (hfin.put _ _) (by rw [put_ne _ _ (Ne.symm y0)]; exact hnull) (put_same _ _ _) hyn (by omega)
      refine ⟨.node y c l' v r', h', ?_, fin h (put h y (some ⟨p, 0, 0, c, some v⟩)) h' y p l' r' yf y0 (fun q hq => ?_) g1 g2 g3 g4 g5 g6, fun q hq => ?_⟩
      · rw [copyFrom, show (Shape.node a c l v r).ptr = a from rfl, clone, hr.1, ← hy]
        simp only [Option.bind_eq_bind, Option.bind_some, Option.pure_def, setParent, put_same, Option.map_some, put_put, e1]
        rfl
      · by_cases e : q = y
        · rw [e, put_same] at hq; exact absurd hq (by simp)
        · rwa [put_ne _ _ e] at hq
      · have hq' : q ∉ y :: (addrs l'.items ++ addrs r'.items) := fun e => hq ((offp y l' r' q).1 e)
        rw [g7 q hq', put_ne _ _ (fun e : q = y => hq' (by rw [e]; simp))]
    · obtain ⟨n, rfl⟩ : ∃ n, fuel = n + 1 := ⟨fuel - 1, by omega⟩
      obtain ⟨y, hy⟩ : ∃ y, y = alloc h := ⟨_, rfl⟩
      obtain ⟨y0, yf⟩ := ga h hfin
      rw [← hy] at y0 yf
      have hyn : y ∉ addrs (Shape.node a c l v r).items := fun e => Rep.alloc hr y e yf
      have hyp : p ≠ y := by rintro rfl; rw [hp] at yf; exact absurd yf (by simp)
      have p0 : p ≠ 0 := by rintro rfl; rw [hp] at hnull; exact absurd hnull (by simp)
      obtain ⟨h1, hh1⟩ : ∃ h1, h1 = put (put h p (some { cp with left := y })) y (some ⟨p, 0, 0, c, some v⟩) := ⟨_, rfl⟩
      have hh1p : h1 p = some { cp with left := y } := by rw [hh1, put_ne _ _ hyp, put_same]
      have hh1q : ∀ q, q ≠ y → q ≠ p → h1 q = h q := fun q q1 q2 => by rw [hh1, put_ne _ _ q1, put_ne _ _ q2]
      obtain ⟨l', r', h', e1, g1, g2, g3, g4, g5, g6, g7⟩ := core h1 par p y n
        (hr.congr (fun q hq => hh1q q (fun e : q = y => hyn (e ▸ hq)) (fun e : q = p => hpn (e ▸ hq)))) h0 (by rw [hh1]; exact (hfin.put _ _).put _ _) (by rw [hh1q 0 (Ne.symm y0) (Ne.symm p0)]; exact hnull)
        (by rw [hh1, put_same]) hyn (by omega)
      have hpn' : p ∉ y :: (addrs l'.items ++ addrs r'.items) := by
        rw [List.mem_cons, not_or]
        exact ⟨hyp, fun e => by have := g4 p e; rw [hh1p] at this; exact absurd this (by simp)⟩
      refine ⟨.node y c l' v r', h', ?_, fin h h1 h' y p l' r' yf y0 (fun q hq => ?_) g1 g2 g3 g4 g5 g6, ?_, fun q hq => ?_⟩
      · have ha : a ≠ 0 := fun e => h0 (by rw [← e]; simp [Shape.items, addrs])
        rw [copyLeft, show (Shape.node a c l v r).ptr = a from rfl, if_neg ha, clone, hr.1, ← hy]
        have e3 : setLeft (put h y (some ⟨0, 0, 0, c, some v⟩)) p y = some (put (put h y (some ⟨0, 0, 0, c, some v⟩)) p (some { cp with left := y })) := by
          rw [setLeft, put_ne _ _ hyp, hp]; rfl
        have e4 : setParent (put (put h y (some ⟨0, 0, 0, c, some v⟩)) p (some { cp with left := y })) y p = some h1 := by
          rw [setParent, put_ne _ _ (Ne.symm hyp), put_same, hh1]
          simp only [Option.map_some, Option.some.injEq]
          funext q
          by_cases h1 : q = y
          · rw [h1, put_same, put_same]
          · by_cases h2 : q = p
            · rw [h2, put_ne _ _ hyp, put_same, put_ne _ _ hyp, put_same]
            · rw [put_ne _ _ h1, put_ne _ _ h2, put_ne _ _ h1, put_ne _ _ h1, put_ne _ _ h2]
        simp only [Option.bind_eq_bind, Option.bind_some, Option.pure_def, e3, e4]
        exact e1
      · by_cases e : q = y
        · rw [e, hh1, put_same] at hq; exact absurd hq (by simp)
        · by_cases e' : q = p
          · rw [e', hh1p] at hq; exact absurd hq (by simp)
          · rwa [hh1q q e e'] at hq
      · rw [g7 p hpn', hh1p]; rfl
      · rw [List.mem_cons, not_or] at hq
        have hq' : q ∉ y :: (addrs l'.items ++ addrs r'.items) := fun e => hq.2 ((offp y l' r' q).1 e)
        rw [g7 q hq', hh1q q (fun e : q = y => hq' (by rw [e]; simp)) hq.1]

theorem allL_before : ∀ {s : List (Frame α)}, (∀ f ∈ s, f.isL = true) → before s = [] := by
  intro s
  induction s with
  | nil => intro _; rfl
  | cons f s ih => intro h; rw [before, ih (fun g hg => h g (by simp [hg])), h f (by simp)]; rfl
theorem allR_after : ∀ {s : List (Frame α)}, (∀ f ∈ s, f.isL = false) → after s = [] := by
  intro s
  induction s with
  | nil => intro _; rfl
  | cons f s ih => intro h; rw [after, ih (fun g hg => h g (by simp [hg])), h f (by simp)]; rfl

/-- **the copy constructor**: the copy has the same values at new addresses; everything else stays as it is -/
theorem copy_ctor_ok {alloc : Heap α → Ptr} (ga : GoodAlloc alloc) {h : Heap α} {t : Tree0} {L : List (Ptr × α)} (hT : Tr h t L) (hb : Bounded h) :
    ∃ h' t' L', copy alloc h t = some (h', t') ∧ Tr h' t' L' ∧ L'.map (fun x => x.2) = L.map (fun x => x.2) ∧ (∀ q ∈ owned t'.hd L', h q = none) ∧ Off (owned t'.hd L') h h' := by
  have hT' := hT
  obtain ⟨T, m, s, hi, hR, hbl, hc⟩ := hT'
  obtain ⟨hd, hhd⟩ : ∃ hd, hd = alloc h := ⟨_, rfl⟩
  obtain ⟨hd0, hdf⟩ := ga h hb
  rw [← hhd] at hd0 hdf
  obtain ⟨h1, hh1⟩ : ∃ h1, h1 = put h hd (some ⟨0, hd, hd, true, none⟩) := ⟨_, rfl⟩
  have h1hd : h1 hd = some ⟨0, hd, hd, true, none⟩ := by rw [hh1, put_same]
  have h1q : ∀ q, q ≠ hd → h1 q = h q := fun q hq => by rw [hh1, put_ne _ _ hq]
  have h10 : h1 0 = none := by rw [h1q 0 (Ne.symm hd0)]; exact s.null
  have hinit : init h hd = (h1, ⟨hd, 0⟩) := by rw [init, hh1]
  by_cases hz : t.count = 0
  · have hL : L = [] := List.length_eq_zero_iff.1 (by rw [← hc]; exact hz)
    refine ⟨h1, ⟨hd, 0⟩, [], ?_, Tr.empty h1hd h10, by rw [hL], ?_, fun q hq => h1q q (fun e => hq (by rw [e]; simp [owned]))⟩
    · rw [copy, ← hhd]
      simp only [hinit, hz, ne_eq, not_true_eq_false, if_false]
      rfl
    · intro q hq
      simp only [owned, addrs, List.map_nil, List.mem_singleton] at hq
      rw [hq]; exact hdf
  · have hTne : T ≠ .nil := by
      rintro rfl
      rw [hc, ← hi] at hz
      exact hz rfl
    have hne : ∀ q, h q ≠ none → q ≠ hd := fun q hq e => hq (by rw [e]; exact hdf)
    have hrep1 : Rep h1 t.hd T := Rep.congr (fun q hq => h1q q (hne q (Rep.alloc s.tree q hq))) s.tree
    have hhead : h1 t.hd = some ⟨T.ptr, firstP t.hd L, lastP t.hd L, true, none⟩ := by
      have : h t.hd = some ⟨T.ptr, firstP t.hd L, lastP t.hd L, true, none⟩ := s.place.header
      rw [h1q _ (hne _ (by rw [this]; simp)), this]
    have hb1 : Bounded h1 := by rw [hh1]; exact hb.put _ _
    obtain ⟨T', h2, e2, c2, o2⟩ := (copy_ok ga T).1 h1 t.hd hd (4 * t.count + 4) hTne hrep1 s.sep'.zero hb1 h10 (by rw [h1hd]; simp) (by rw [hi, ← hc]; omega)
    have hT'ne : T' ≠ .nil := by
      rintro rfl
      have := c2.like
      cases this
      exact hTne rfl
    have hdn : hd ∉ addrs T'.items := fun e => by have := c2.fresh hd e; rw [h1hd] at this; exact absurd this (by simp)
    have h2hd : h2 hd = some ⟨0, hd, hd, true, none⟩ := by rw [o2 hd hdn]; exact h1hd
    have hlen : T'.items.length = t.count := by rw [c2.like.length, hi, hc]
    have rep : ∀ c : Option (Cell α), Rep (put h2 hd c) hd T' := fun c => c2.rep.congr (fun q hq => put_ne _ _ (fun e : q = hd => hdn (e ▸ hq)))
    have hmin : ∀ c : Option (Cell α), treeMin (put h2 hd c) (t.count + 1) T'.ptr = some (firstP hd T'.items) := fun c => by
      obtain ⟨st, y, cy, vy, yr, e1, e2, e3⟩ := treeMin_ok T' (t.count + 1) (rep c) hT'ne c2.null (by omega)
      rw [e3, e1, plug_items, allL_before e2]; rfl
    have hmax : ∀ c : Option (Cell α), treeMax (put h2 hd c) (t.count + 1) T'.ptr = some (lastP hd T'.items) := fun c => by
      obtain ⟨st, y, cy, vy, yl, e1, e2, e3⟩ := treeMax_ok T' (t.count + 1) (rep c) hT'ne c2.null (by omega)
      rw [e3, e1, plug_items, allR_after e2, List.append_nil]
      simp only [Shape.items]
      rw [← List.append_assoc, lastP_append]
    obtain ⟨h3, hh3⟩ : ∃ h3, h3 = put h2 hd (some ⟨T'.ptr, firstP hd T'.items, lastP hd T'.items, true, none⟩) := ⟨_, rfl⟩
    have hcopy : copy alloc h t = some (h3, ⟨hd, t.count⟩) := by
      have hroot : root h1 t.hd = some T.ptr := by rw [root, hhead]; rfl
      rw [copy, ← hhd]
      simp only [hinit, hz, ne_eq, not_false_eq_true, if_true, hroot, Option.bind_eq_bind, Option.bind_some, e2, setParent, h2hd, Option.map_some, hmin, setLeft, put_same, put_put, hmax, setRight]
      rw [hh3]; rfl
    have hfresh : ∀ q ∈ owned hd T'.items, h q = none := by
      intro q hq
      rcases List.mem_cons.1 hq with rfl | hq
      · exact hdf
      · have := c2.fresh q hq
        rwa [h1q q (fun e => hdn (e ▸ hq))] at this
    refine ⟨h3, ⟨hd, t.count⟩, T'.items, hcopy, ⟨T', m, ⟨?_, ?_, ?_, ?_⟩, rfl, c2.like.rb hR, by rw [c2.like.isRed]; exact hbl, hlen.symm⟩, by rw [c2.like.vals, hi], hfresh, fun q hq => ?_⟩
    · rw [hh3]; exact rep _
    · show h3 hd = _
      rw [hh3, put_same]
    · show (0 :: hd :: addrs T'.items).Nodup
      rw [List.nodup_cons, List.nodup_cons, List.mem_cons, not_or]
      exact ⟨⟨Ne.symm hd0, c2.null⟩, hdn, c2.nodup⟩
    · rw [hh3, put_ne _ _ (Ne.symm hd0), o2 0 c2.null]; exact h10
    · rw [owned, List.mem_cons, not_or] at hq
      rw [hh3, put_ne _ _ hq.1, o2 q hq.2, h1q q hq.1]

end Verif.Rb
