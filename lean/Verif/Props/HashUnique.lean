import Verif.Props.HashWalk

/-! # `unordered_map` and `unordered_set` (C89) -/

namespace Verif.Hash

variable {K V F : Type} {c : Cfg K V F}

/-- the table holds exactly the elements of `L`, whose keys differ -/
structure Rel (c : Cfg K V F) (t : Table V F) (m : Mem) (fr : List ℕ) (L : List V) : Prop where
  inv : Inv c t m fr
  vals : t.vals.Perm L
  one : OneEach c L

theorem oneEach_perm (hc : Lawful c) {l l' : List V} (h : l.Perm l') : OneEach c l ↔ OneEach c l' :=
  h.pairwise_iff (fun {a b} hab => by rw [eq_comm' hc]; exact hab)

theorem oneEach_inj (hc : Lawful c) {l : List V} (h : OneEach c l) {u v : V} (hu : u ∈ l) (hv : v ∈ l)
    (he : c.eq (c.key u) (c.key v) = true) : u = v := by
  induction l with
  | nil => cases hu
  | cons x r ih =>
    have h' := List.pairwise_cons.1 h
    rcases List.mem_cons.1 hu with rfl | hu' <;> rcases List.mem_cons.1 hv with rfl | hv'
    · rfl
    · rw [h'.1 v hv'] at he; cases he
    · rw [eq_comm' hc, h'.1 u hu'] at he; cases he
    · exact ih h'.2 hu' hv'

theorem hasKey_iff {l : List V} {k : K} : hasKey c l k = true ↔ ∃ v ∈ l, c.eq (c.key v) k = true := by
  unfold hasKey; rw [List.any_eq_true]

theorem hasKey_false {l : List V} {k : K} : hasKey c l k = false ↔ ∀ v ∈ l, c.eq (c.key v) k = false := by
  unfold hasKey; rw [List.any_eq_false]; simp

theorem lookRef_none {l : List V} {k : K} (h : ∀ v ∈ l, c.eq (c.key v) k = false) : lookRef c l k = none := by
  unfold lookRef; rw [List.find?_eq_none]
  intro v hv; rw [h v hv]; simp

theorem lookRef_of (hc : Lawful c) {l : List V} {k : K} (h1 : OneEach c l) {v : V} (hv : v ∈ l) (he : c.eq (c.key v) k = true) :
    lookRef c l k = some v := by
  rcases hl : lookRef c l k with _ | u
  · unfold lookRef at hl
    rw [List.find?_eq_none] at hl
    exact absurd he (hl v hv)
  · unfold lookRef at hl
    have h2 : c.eq (c.key u) k = true := List.find?_some (p := fun v => c.eq (c.key v) k) hl
    have h3 := List.mem_of_find?_eq_some hl
    rw [oneEach_inj hc h1 h3 hv (hc.trans _ _ _ h2 (hc.symm _ _ he))]

theorem Rel.oneVals (hc : Lawful c) {t : Table V F} {m : Mem} {fr : List ℕ} {L : List V} (h : Rel c t m fr L) : OneEach c t.vals :=
  (oneEach_perm hc h.vals).2 h.one

/-- two nodes of the table with equal keys are the same node -/
theorem Rel.node_inj (hc : Lawful c) {t : Table V F} {m : Mem} {fr : List ℕ} {L : List V} (h : Rel c t m fr L) {x y : Node V}
    (hx : x ∈ t.nodes) (hy : y ∈ t.nodes) (he : c.eq (c.key x.val) (c.key y.val) = true) : x = y := by
  have h1 : t.nodes.Pairwise (fun a b => c.eq (c.key a.val) (c.key b.val) = false) := List.pairwise_map.1 (h.oneVals hc)
  clear h
  generalize t.nodes = l at h1 hx hy
  induction l with
  | nil => cases hx
  | cons z r ih =>
    have h' := List.pairwise_cons.1 h1
    rcases List.mem_cons.1 hx with rfl | hx' <;> rcases List.mem_cons.1 hy with rfl | hy'
    · rfl
    · rw [h'.1 y hy'] at he; cases he
    · rw [eq_comm' hc, h'.1 x hx'] at he; cases he
    · exact ih h'.2 hx' hy'

theorem find_eq {t : Table V F} {k : K} {n : ℕ} {f : List (Node V)} (hh : hashIn c k t.bsize = some n) (hb : t.buckets[n]? = some f) :
    find c t k = some (look c k f) := by
  show (hashIn c k t.bsize).bind _ = _
  rw [hh]
  show (t.buckets[n]?).bind _ = _
  rw [hb]; rfl

/-- `find` gives a node of the table with that key, or none if there is none -/
theorem find_ok (hc : Lawful c) {t : Table V F} {m : Mem} {fr : List ℕ} (h : Inv c t m fr) (k : K) :
    ∃ p, find c t k = some p ∧ ((p = none ∧ ∀ x ∈ t.nodes, c.eq (c.key x.val) k = false) ∨
      ∃ y, p = some y ∧ y ∈ t.nodes ∧ c.eq (c.key y.val) k = true) := by
  obtain ⟨f, rest, hh, hb, hn, -, -, hr⟩ := h.bucket hc k
  refine ⟨_, find_eq hh hb, ?_⟩
  rcases hl : look c k f with _ | y
  · left
    refine ⟨rfl, fun x hx => ?_⟩
    rcases List.mem_append.1 (hn.mem_iff.1 hx) with hx | hx
    · exact look_none hl x hx
    · exact hr x hx
  · right
    obtain ⟨a, r, rfl, he, -⟩ := look_some hl
    exact ⟨y, rfl, hn.mem_iff.2 (by simp), he⟩

theorem Rel.find (hc : Lawful c) {t : Table V F} {m : Mem} {fr : List ℕ} {L : List V} (h : Rel c t m fr L) (k : K) :
    ∃ p, find c t k = some p ∧ p.map Node.val = lookRef c L k := by
  obtain ⟨p, h1, h2⟩ := find_ok hc h.inv k
  refine ⟨p, h1, ?_⟩
  rcases h2 with ⟨rfl, h2⟩ | ⟨y, rfl, h2, h3⟩
  · refine (lookRef_none fun v hv => ?_).symm
    obtain ⟨x, hx, rfl⟩ := List.mem_map.1 (h.vals.mem_iff.2 hv)
    exact h2 x hx
  · exact (lookRef_of hc h.one (h.vals.mem_iff.1 (List.mem_map_of_mem h2)) h3).symm

theorem tally_eq (k : K) (f : List (Node V)) (n : ℕ) : tally c k f n = n + f.countP (fun x => c.eq (c.key x.val) k) := by
  induction f generalizing n with
  | nil => rfl
  | cons y r ih =>
    unfold tally
    rw [ih, List.countP_cons]
    split <;> omega

theorem count_ok (hc : Lawful c) {t : Table V F} {m : Mem} {fr : List ℕ} (h : Inv c t m fr) (k : K) :
    count c t k = some (t.vals.countP (fun v => c.eq (c.key v) k)) := by
  obtain ⟨f, rest, hh, hb, hn, -, -, hr⟩ := h.bucket hc k
  show (hashIn c k t.bsize).bind _ = _
  rw [hh]
  show (t.buckets[c.hash k % t.bsize]?).bind _ = _
  rw [hb]
  show some (tally c k f 0) = _
  have hz : rest.countP (fun x => c.eq (c.key x.val) k) = 0 := by
    rw [List.countP_eq_zero]; intro x hx; rw [hr x hx]; simp
  have e : t.vals.countP (fun v => c.eq (c.key v) k) = t.nodes.countP (fun x => c.eq (c.key x.val) k) := by
    unfold Table.vals; rw [List.countP_map]; rfl
  rw [tally_eq, e, hn.countP_eq, List.countP_append, hz]
  simp

theorem countP_one (hc : Lawful c) {l : List V} (h : OneEach c l) (k : K) :
    l.countP (fun v => c.eq (c.key v) k) = if hasKey c l k then 1 else 0 := by
  induction l with
  | nil => rfl
  | cons x r ih =>
    have h' := List.pairwise_cons.1 h
    rw [List.countP_cons, ih h'.2]
    have e : hasKey c (x :: r) k = (c.eq (c.key x) k || hasKey c r k) := rfl
    rw [e]
    by_cases hx : c.eq (c.key x) k = true
    · have hr : hasKey c r k = false := by
        rw [hasKey_false]
        intro v hv
        by_contra hn
        have := hc.trans _ _ _ hx (hc.symm _ _ (by simpa using hn))
        rw [h'.1 v hv] at this; cases this
      simp [hx, hr]
    · simp [hx]

theorem oneEach_add (hc : Lawful c) {L : List V} (h : OneEach c L) (v : V) : OneEach c (addRef c L v) := by
  unfold addRef
  by_cases hk : hasKey c L (c.key v) = true
  · rw [if_pos hk]; exact h
  · rw [if_neg hk]
    refine List.pairwise_cons.2 ⟨fun u hu => ?_, h⟩
    rw [eq_comm' hc]
    exact hasKey_false.1 (by simpa using hk) u hu

/-- `insert_unique_noresize` -/
theorem Rel.insertNoresize (hc : Lawful c) {t : Table V F} {m : Mem} {fr : List ℕ} {L : List V} (h : Rel c t m fr L) (v : V) :
    ∃ t' m' p, insertUniqueNoresize c t m v = some (t', m', p, !hasKey c L (c.key v)) ∧ Rel c t' m' fr (addRef c L v) := by
  obtain ⟨f, rest, hh, hb, hn, hset, hf, hr⟩ := h.inv.bucket hc (c.key v)
  have hrun : insertUniqueNoresize c t m v = match look c (c.key v) f with
      | some y => some (t, m, y.id, false)
      | none => some ({ t with buckets := t.buckets.set (c.hash (c.key v) % t.bsize) ((m.create v).1 :: f), size := t.size + 1 },
          (m.create v).2, (m.create v).1.id, true) := by
    show (hashIn c (c.key v) t.bsize).bind _ = _
    rw [hh]
    show (t.buckets[c.hash (c.key v) % t.bsize]?).bind _ = _
    rw [hb]
    show (match look c (c.key v) f with | some y => _ | none => _) = _
    rcases look c (c.key v) f with _ | y <;> rfl
  rw [hrun]
  rcases hl : look c (c.key v) f with _ | y
  · have hk : hasKey c L (c.key v) = false := by
      rw [hasKey_false]
      intro u hu
      obtain ⟨x, hx, rfl⟩ := List.mem_map.1 (h.vals.mem_iff.2 hu)
      rcases List.mem_append.1 (hn.mem_iff.1 hx) with hx | hx
      · exact look_none hl x hx
      · exact hr x hx
    obtain ⟨h1, h2⟩ := h.inv.add v hb hn (hset ((m.create v).1 :: f)) hf rfl (List.Perm.refl _)
    refine ⟨_, _, (m.create v).1.id, ?_, ⟨h1, ?_, oneEach_add hc h.one v⟩⟩
    · rw [hk]; rfl
    · unfold addRef
      rw [hk]
      exact (h2.map Node.val).trans (List.Perm.cons _ h.vals)
  · have hk : hasKey c L (c.key v) = true := by
      obtain ⟨a, r, rfl, he, -⟩ := look_some hl
      exact hasKey_iff.2 ⟨y.val, h.vals.mem_iff.1 (List.mem_map_of_mem (hn.mem_iff.2 (by simp))), he⟩
    refine ⟨t, m, y.id, by rw [hk]; rfl, ?_⟩
    unfold addRef
    rw [if_pos hk]; exact h

theorem Rel.insertEach (hc : Lawful c) (l : List V) {t : Table V F} {m : Mem} {fr : List ℕ} {L : List V} (h : Rel c t m fr L) :
    ∃ t' m', insertUniqueEach c l t m = some (t', m') ∧ Rel c t' m' fr (l.foldl (addRef c) L) := by
  induction l generalizing t m L with
  | nil => exact ⟨t, m, rfl, h⟩
  | cons v r ih =>
    obtain ⟨t1, m1, p, h1, h2⟩ := h.insertNoresize hc v
    obtain ⟨t2, m2, g1, g2⟩ := ih h2
    refine ⟨t2, m2, ?_, g2⟩
    show (insertUniqueNoresize c t m v).bind _ = _
    rw [h1]; exact g1

theorem Rel.same {t t' : Table V F} {m m' : Mem} {fr fr' : List ℕ} {L : List V} (h : Rel c t m fr L) (hs : Same c t t' m' fr') : Rel c t' m' fr' L :=
  ⟨hs.inv, hs.vals.trans h.vals, h.one⟩

theorem Rel.insert (hc : Lawful c) {t : Table V F} {m : Mem} {fr : List ℕ} {L : List V} (h : Rel c t m fr L) (v : V) :
    ∃ t' m' p, insertUnique c t m v = some (t', m', p, !hasKey c L (c.key v)) ∧ Rel c t' m' fr (addRef c L v) := by
  obtain ⟨t1, m1, h1, h2⟩ := rehashIfNeed_ok hc h.inv 1
  obtain ⟨t2, m2, p, g1, g2⟩ := (h.same h2).insertNoresize hc v
  refine ⟨t2, m2, p, ?_, g2⟩
  show (rehashIfNeed c t m 1).bind _ = _
  rw [h1]; exact g1

theorem Rel.insertRange (hc : Lawful c) (l : List V) {t : Table V F} {m : Mem} {fr : List ℕ} {L : List V} (h : Rel c t m fr L) :
    ∃ t' m', insertUniqueRange c t m l = some (t', m') ∧ Rel c t' m' fr (l.foldl (addRef c) L) := by
  obtain ⟨t1, m1, h1, h2⟩ := rehashIfNeed_ok hc h.inv l.length
  obtain ⟨t2, m2, g1, g2⟩ := (h.same h2).insertEach hc l
  refine ⟨t2, m2, ?_, g2⟩
  show (rehashIfNeed c t m l.length).bind _ = _
  rw [h1]; exact g1

/-- `emplace`; the node inserted or found -/
theorem Rel.emplace (hc : Lawful c) {t : Table V F} {m : Mem} {fr : List ℕ} {L : List V} (h : Rel c t m fr L) (v : V) :
    ∃ t' m' p, emplaceUnique c t m v = some (t', m', p, !hasKey c L (c.key v)) ∧ Rel c t' m' fr (addRef c L v) ∧
      ∃ y ∈ t'.nodes, y.id = p ∧ c.eq (c.key y.val) (c.key v) = true := by
  obtain ⟨t1, m1, h1, h2⟩ := rehashIfNeed_ok hc (h.inv.create v) 1
  have hvals : t1.vals.Perm L := h2.vals.trans h.vals
  obtain ⟨f, rest, hh, hb, hn, hset, hf, hr⟩ := h2.inv.bucket hc (c.key v)
  have hrun : emplaceUnique c t m v = match look c (c.key v) f with
      | some y => some (t1, m1, y.id, false)
      | none => some ({ t1 with buckets := t1.buckets.set (c.hash (c.key v) % t1.bsize) ((m.create v).1 :: f), size := t1.size + 1 },
          m1, (m.create v).1.id, true) := by
    show (rehashIfNeed c t (m.create v).2 1).bind _ = _
    rw [h1]
    show (insertNodeUnique c t1 (m.create v).1).bind _ = _
    have e : insertNodeUnique c t1 (m.create v).1 = match look c (c.key v) f with
      | some y => some (t1, y.id, false)
      | none => some ({ t1 with buckets := t1.buckets.set (c.hash (c.key v) % t1.bsize) ((m.create v).1 :: f), size := t1.size + 1 },
          (m.create v).1.id, true) := by
      show (hashIn c (c.key v) t1.bsize).bind _ = _
      rw [hh]
      show (t1.buckets[c.hash (c.key v) % t1.bsize]?).bind _ = _
      rw [hb]
      rcases f with _ | ⟨y, r⟩
      · rfl
      · show (match look c (c.key v) (y :: r) with | some z => _ | none => _) = _
        rcases look c (c.key v) (y :: r) with _ | z <;> rfl
    rw [e]
    rcases look c (c.key v) f with _ | y <;> rfl
  rw [hrun]
  rcases hl : look c (c.key v) f with _ | y
  · have hk : hasKey c L (c.key v) = false := by
      rw [hasKey_false]
      intro u hu
      obtain ⟨x, hx, rfl⟩ := List.mem_map.1 (hvals.mem_iff.2 hu)
      rcases List.mem_append.1 (hn.mem_iff.1 hx) with hx | hx
      · exact look_none hl x hx
      · exact hr x hx
    obtain ⟨h3, h4⟩ := Inv.addNode (x := (m.create v).1) h2.inv hb hn (hset ((m.create v).1 :: f)) hf rfl (List.Perm.refl _)
    refine ⟨_, _, (m.create v).1.id, ?_, ⟨h3, ?_, oneEach_add hc h.one v⟩, (m.create v).1, h4.mem_iff.2 List.mem_cons_self, rfl, hc.refl _⟩
    · rw [hk]; rfl
    · unfold addRef
      rw [hk]
      exact (h4.map Node.val).trans (List.Perm.cons _ hvals)
  · obtain ⟨a, r, hfa, he, -⟩ := look_some hl
    have hy : y ∈ t1.nodes := hn.mem_iff.2 (by rw [hfa]; simp)
    have hk : hasKey c L (c.key v) = true := hasKey_iff.2 ⟨y.val, hvals.mem_iff.1 (List.mem_map_of_mem hy), he⟩
    refine ⟨t1, m1, y.id, by rw [hk]; rfl, ?_, y, hy, rfl, he⟩
    unfold addRef
    rw [if_pos hk]
    exact ⟨Inv.forget (gr := [m.next]) h2.inv, hvals, h.one⟩

/-- the elements left when the one with key `k` goes -/
theorem without_drop (hc : Lawful c) {L l : List V} {v : V} {k : K} (h : OneEach c L) (hp : (v :: l).Perm L) (he : c.eq (c.key v) k = true) :
    l.Perm (without c L k) ∧ OneEach c (without c L k) := by
  have h1 := List.pairwise_cons.1 ((oneEach_perm hc hp).2 h)
  refine ⟨?_, h.sublist List.filter_sublist⟩
  have := hp.filter (fun u => !c.eq (c.key u) k)
  rw [List.filter_cons, if_neg (by rw [he]; simp)] at this
  have e : l.filter (fun u => !c.eq (c.key u) k) = l := by
    rw [List.filter_eq_self]
    intro u hu
    have h2 := h1.1 u hu
    have : c.eq (c.key u) k = false := by
      by_contra hn
      rw [hc.trans _ _ _ he (hc.symm _ _ (by simpa using hn))] at h2
      cases h2
    rw [this]; rfl
  rw [e] at this
  exact this

theorem without_none {L : List V} {k : K} (h : hasKey c L k = false) : without c L k = L := by
  unfold without
  rw [List.filter_eq_self]
  intro u hu
  rw [hasKey_false.1 h u hu]; rfl

theorem Rel.erase (hc : Lawful c) {t : Table V F} {m : Mem} {fr : List ℕ} {L : List V} (h : Rel c t m fr L) (k : K) :
    ∃ t' m', eraseUnique c t m k = some (t', m', if hasKey c L k then 1 else 0) ∧ Rel c t' m' fr (without c L k) := by
  obtain ⟨f, rest, hh, hb, hn, hset, hf, hr⟩ := h.inv.bucket hc k
  rcases hl : look c k f with _ | y
  · have hk : hasKey c L k = false := by
      rw [hasKey_false]
      intro u hu
      obtain ⟨x, hx, rfl⟩ := List.mem_map.1 (h.vals.mem_iff.2 hu)
      rcases List.mem_append.1 (hn.mem_iff.1 hx) with hx | hx
      · exact look_none hl x hx
      · exact hr x hx
    refine ⟨t, m, ?_, by rw [without_none hk]; exact h⟩
    show (hashIn c k t.bsize).bind _ = _
    rw [hh]
    show (t.buckets[c.hash k % t.bsize]?).bind _ = _
    rw [hb]
    show (match look c k f with | some y => _ | none => _) = _
    rw [hl, hk]; rfl
  · obtain ⟨a, r, hfa, he, ha⟩ := look_some hl
    have hpe : f.eraseP (fun z => c.eq (c.key z.val) k) = a ++ r := by
      rw [hfa, List.eraseP_append_right _ (fun z hz => by rw [ha z hz]; simp), List.eraseP_cons_of_pos (p := fun z : Node V => c.eq (c.key z.val) k) he]
    have hp : f.Perm (y :: f.eraseP (fun z => c.eq (c.key z.val) k)) := by rw [hpe, hfa]; exact List.perm_middle
    obtain ⟨m', g1, g2, g3⟩ := h.inv.drop hb hn (hset _) hf hp
    have hk : hasKey c L k = true :=
      hasKey_iff.2 ⟨y.val, h.vals.mem_iff.1 (List.mem_map_of_mem (hn.mem_iff.2 (by rw [hfa]; simp))), he⟩
    have hw := without_drop hc h.one ((g3.map Node.val).symm.trans h.vals) he
    refine ⟨_, m', ?_, ⟨g2, hw.1, hw.2⟩⟩
    show (hashIn c k t.bsize).bind _ = _
    rw [hh]
    show (t.buckets[c.hash k % t.bsize]?).bind _ = _
    rw [hb]
    show (match look c k f with | some y => _ | none => _) = _
    rw [hl, hk]
    show (m.destroy y.id).bind _ = _
    rw [g1]; rfl

/-- `erase(position)` of a node of the table removes exactly that node -/
theorem erasePos_ok {t : Table V F} {m : Mem} {fr : List ℕ} (h : Inv c t m fr) (y : Node V) (hy : y ∈ t.nodes) :
    ∃ t' m', erasePos c t m (some y.id) = some (t', m') ∧ Inv c t' m' fr ∧ t.nodes.Perm (y :: t'.nodes) ∧
      (∀ p, p ∈ m'.live ↔ p ∈ m.live ∧ p ≠ y.id) ∧ t'.bsize = t.bsize ∧
      (∃ i f, t.buckets[i]? = some f ∧ t'.buckets = t.buckets.set i (f.eraseP (fun z => z.id == y.id))) := by
  obtain ⟨pre, post, hpp⟩ := List.append_of_mem hy
  obtain ⟨bs1, a, r, bs2, hb, hpre, -⟩ := flatten_at _ _ _ _ hpp
  have hd := deref_at hb h.nodupIds
  have hi : t.buckets[bs1.length]? = some (a ++ y :: r) := by rw [hb]; simp
  have hs := h.slot _ _ hi y (by simp)
  have hh : hashIn c (c.key y.val) t.bsize = some bs1.length := by
    unfold hashIn; rw [if_neg (by have := h.pos; omega), hs]
  obtain ⟨rest, h1, h2, -⟩ := flatten_split _ _ _ hi
  have hnot : ∀ z ∈ a, ¬ (z.id = y.id) := by
    intro z hz e
    have hid := h.nodupIds
    rw [hpp, hpre, List.map_append, List.nodup_append] at hid
    exact hid.2.2 z.id (List.mem_map_of_mem (List.mem_append_right _ hz)) y.id (by simp) e
  have hpe : (a ++ y :: r).eraseP (fun z => z.id == y.id) = a ++ r := by
    rw [List.eraseP_append_right _ (fun z hz => by simpa using hnot z hz), List.eraseP_cons_of_pos (by simp)]
  obtain ⟨m', g1, g2, g3⟩ := h.drop hi h1 (h2 (a ++ r)) (h.slot _ _ hi) (List.perm_middle : (a ++ y :: r).Perm (y :: (a ++ r)))
  have hm' : m' = ⟨m.next, m.live.erase y.id⟩ := by
    unfold Mem.destroy at g1
    split at g1
    · exact (Option.some.inj g1).symm
    · cases g1
  refine ⟨{ t with buckets := t.buckets.set bs1.length (a ++ r), size := t.size - 1 }, m', ?_, g2, g3, ?_, rfl, bs1.length, a ++ y :: r, hi, by rw [hpe]⟩
  · show (deref t y.id).bind _ = _
    rw [hd]
    show (hashIn c (c.key y.val) t.bsize).bind _ = _
    rw [hh]
    show (t.buckets[bs1.length]?).bind _ = _
    rw [hi]
    rcases a with _ | ⟨z, a⟩
    · show (if y.id = y.id then _ else _) = _
      rw [if_pos rfl]
      show (m.destroy y.id).bind _ = _
      rw [g1]; rfl
    · show (if z.id = y.id then _ else if ((a ++ y :: r).any (fun w => w.id == y.id)) = true then _ else _) = _
      rw [if_neg (hnot z (by simp)), if_pos (by simp)]
      show (m.destroy y.id).bind _ = _
      rw [g1]
      show some (({ t with buckets := t.buckets.set bs1.length ((z :: a ++ y :: r).eraseP (fun w => w.id == y.id)), size := t.size - 1 } : Table V F), m') = _
      rw [hpe]
  · intro p
    rw [hm']
    show p ∈ m.live.erase y.id ↔ _
    rw [h.nd.mem_erase_iff]
    exact and_comm

theorem Rel.eraseAt (hc : Lawful c) {t : Table V F} {m : Mem} {fr : List ℕ} {L : List V} (h : Rel c t m fr L) (k : K) :
    ∃ p t' m', Hash.find c t k = some p ∧ erasePos c t m (p.map Node.id) = some (t', m') ∧ Rel c t' m' fr (without c L k) := by
  obtain ⟨p, h1, h2⟩ := find_ok hc h.inv k
  rcases h2 with ⟨rfl, h2⟩ | ⟨y, rfl, h2, h3⟩
  · refine ⟨none, t, m, h1, rfl, ?_⟩
    rw [without_none (hasKey_false.2 fun v hv => ?_)]
    · exact h
    · obtain ⟨x, hx, rfl⟩ := List.mem_map.1 (h.vals.mem_iff.2 hv)
      exact h2 x hx
  · obtain ⟨t', m', g1, g2, g3, -⟩ := erasePos_ok h.inv y h2
    have hw := without_drop hc h.one ((g3.map Node.val).symm.trans h.vals) h3
    exact ⟨some y, t', m', h1, g1, g2, hw.1, hw.2⟩

/-- an assignment to the value of one node -/
theorem Rel.setVal (hc : Lawful c) {t : Table V F} {m : Mem} {fr : List ℕ} {L : List V} (h : Rel c t m fr L) (v : V) {y : Node V} (hy : y ∈ t.nodes)
    (he : c.eq (c.key y.val) (c.key v) = true) :
    Rel c (setVal t y.id (fun o => c.upd o v)) m fr (L.map (fun o => if c.eq (c.key o) (c.key v) then c.upd o v else o)) := by
  have hn : (Hash.setVal t y.id (fun o => c.upd o v)).nodes = t.nodes.map (fun x => if x.id = y.id then ⟨x.id, c.upd x.val v⟩ else x) := by
    unfold Hash.setVal Table.nodes
    rw [List.map_flatten]
  have hid : (Hash.setVal t y.id (fun o => c.upd o v)).nodes.map Node.id = t.nodes.map Node.id := by
    rw [hn, List.map_map]
    apply List.map_congr_left
    intro x _
    show (if x.id = y.id then (⟨x.id, c.upd x.val v⟩ : Node V) else x).id = x.id
    split <;> rfl
  have hkey : ∀ x : Node V, c.key (if x.id = y.id then (⟨x.id, c.upd x.val v⟩ : Node V) else x).val = c.key x.val := by
    intro x; split
    · exact hc.upd _ _
    · rfl
  have hv : (Hash.setVal t y.id (fun o => c.upd o v)).vals = t.vals.map (fun o => if c.eq (c.key o) (c.key v) then c.upd o v else o) := by
    unfold Table.vals
    rw [hn, List.map_map, List.map_map]
    apply List.map_congr_left
    intro x hx
    show (if x.id = y.id then (⟨x.id, c.upd x.val v⟩ : Node V) else x).val = if c.eq (c.key x.val) (c.key v) then c.upd x.val v else x.val
    by_cases hxy : x.id = y.id
    · have : x = y := List.inj_on_of_nodup_map h.inv.nodupIds hx hy hxy
      subst this
      rw [if_pos rfl, if_pos he]
    · rw [if_neg hxy, if_neg]
      intro hxe
      exact hxy (congrArg Node.id (h.node_inj hc hx hy (hc.trans _ _ _ hxe (hc.symm _ _ he))))
  refine ⟨⟨?_, h.inv.pos, ?_, ?_, ?_, ?_, h.inv.fresh, h.inv.nd⟩, ?_, ?_⟩
  · show t.bsize = (t.buckets.map _).length
    rw [List.length_map]; exact h.inv.len
  · rw [hn, List.length_map]; exact h.inv.sz
  · intro i f hf x hx
    have hf' : (t.buckets[i]?).map (fun f => f.map (fun y' : Node V => if y'.id = y.id then ⟨y'.id, c.upd y'.val v⟩ else y')) = some f := by
      rw [← List.getElem?_map]; exact hf
    obtain ⟨g, hg, rfl⟩ := Option.map_eq_some_iff.1 hf'
    obtain ⟨z, hz, rfl⟩ := List.mem_map.1 hx
    rw [hkey]; exact h.inv.slot i g hg z hz
  · rw [hid]; exact h.inv.ids
  · rw [hid]; exact h.inv.live
  · rw [hv]; exact h.vals.map _
  · refine List.pairwise_map.2 (h.one.imp ?_)
    intro a b hab
    have k1 : ∀ o, c.key (if c.eq (c.key o) (c.key v) = true then c.upd o v else o) = c.key o := by
      intro o; split
      · exact hc.upd _ _
      · rfl
    rw [k1, k1]; exact hab

/-- `table[key] = value` -/
theorem Rel.put (hc : Lawful c) {t : Table V F} {m : Mem} {fr : List ℕ} {L : List V} (h : Rel c t m fr L) (v : V) :
    ∃ t' m', subscript c t m v = some (t', m') ∧ Rel c t' m' fr (putRef c L v) := by
  obtain ⟨p, h1, h2⟩ := find_ok hc h.inv (c.key v)
  rcases h2 with ⟨rfl, h2⟩ | ⟨y, rfl, h2, h3⟩
  · have hk : hasKey c L (c.key v) = false := hasKey_false.2 fun u hu => by
      obtain ⟨x, hx, rfl⟩ := List.mem_map.1 (h.vals.mem_iff.2 hu)
      exact h2 x hx
    obtain ⟨t', m', p, g1, g2, y, hy, hyp, hye⟩ := h.emplace hc (c.fresh (c.key v))
    rw [hc.fresh] at g1 hye
    have ha : addRef c L (c.fresh (c.key v)) = c.fresh (c.key v) :: L := by
      unfold addRef; rw [hc.fresh, hk]; rfl
    rw [ha] at g2
    have g3 := g2.setVal hc v hy hye
    refine ⟨Hash.setVal t' p (fun o => c.upd o v), m', ?_, ?_⟩
    · show (Hash.find c t (c.key v)).bind _ = _
      rw [h1]
      show (emplaceUnique c t m (c.fresh (c.key v))).bind _ = _
      rw [g1]; rfl
    · rw [hyp] at g3
      have e : putRef c L v = (c.fresh (c.key v) :: L).map (fun o => if c.eq (c.key o) (c.key v) then c.upd o v else o) := by
        unfold putRef
        rw [hk, List.map_cons, hc.fresh, if_pos (hc.refl _), if_neg (by simp)]
        congr 1
        conv_lhs => rw [← List.map_id L]
        apply List.map_congr_left
        intro o ho
        rw [hasKey_false.1 hk o ho]; rfl
      rw [e]; exact g3
  · have hk : hasKey c L (c.key v) = true := hasKey_iff.2 ⟨y.val, h.vals.mem_iff.1 (List.mem_map_of_mem h2), h3⟩
    refine ⟨Hash.setVal t y.id (fun o => c.upd o v), m, ?_, ?_⟩
    · show (Hash.find c t (c.key v)).bind _ = _
      rw [h1]; rfl
    · unfold putRef
      rw [if_pos hk]
      exact h.setVal hc v h2 h3

end Verif.Hash
